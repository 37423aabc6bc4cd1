import Verif.Spec.LoopIn
/-
The storing of the settings in real time, with interrupts inside the work functions.
-/
namespace Verif.Spec

/-- A limit for the speed under which a store is over before the next one can start, also when the one which starts it
    has been called before. -/
def Speed.SaneE (v : Speed) : Prop := v.SaneI ∧ 128 * v.B + v.W < 1000

/-- The EEPROM writer has work to do: its interrupt is pending, or a byte is being programmed. -/
def WriterBusy (x : LoopI) : Prop := possible x.s .eeIsr = true ∨ possible x.s .eeDone = true

/-- A step of the main loop, together with the tick of the latest step of the EEPROM writer (or of the start of the
    store) before and after it.  A step of the writer may have come inside a work function which has ended: it is taken
    now, but with the tick `t` at which it came.  The writer is not slower than assumed: it makes a step within `B`
    after the step before.  Before anything else happens it has been followed up to the present. -/
inductive WriterStep (v : Speed) (c : Conf) : LoopI → Nat → Option Ev → LoopI → Nat → Prop where
  | writer {x L e y t} : LoopIStep c x (some e) y → e = .eeIsr ∨ e = .eeDone → InTimeI v y → L ≤ t → t ≤ L + v.B →
      t ≤ x.T → WriterStep v c x L (some e) y t
  | starts {x L e y} : LoopIStep c x e y → InTimeI v y → (WriterBusy x → x.T ≤ L + v.B) → StartsStore x.s y.s →
      WriterStep v c x L e y y.T
  | other {x L e y} : LoopIStep c x e y → e ≠ some .eeIsr → e ≠ some .eeDone → InTimeI v y →
      (WriterBusy x → x.T ≤ L + v.B) → ¬ StartsStore x.s y.s → WriterStep v c x L e y L

/-- Every state of the main loop over the life of the device, with the tick of the latest step of the writer.  As
    everywhere (finding F4) the settings found at a reboot are assumed to be within the limits. -/
inductive LifeI (v : Speed) (c : Conf) : LoopI → Nat → Prop where
  | first {pinb s} : boot c (shippedEeprom c) pinb = some s → LifeI v c ⟨s, .reset, 0, 0, 0, 0, 0⟩ 0
  | step {x L e y M} : LifeI v c x L → WriterStep v c x L e y M → LifeI v c y M
  | reboot {x L b pinb s} : LifeI v c x L → b < 256 → ValidEeprom c (powerFail x.s.set b) →
      boot c (powerFail x.s.set b) pinb = some s → LifeI v c ⟨s, .reset, 0, 0, 0, 0, 0⟩ 0

/-- A stretch of the execution in which no step has the property `P`. -/
inductive StretchE (v : Speed) (c : Conf) (P : LoopI → Option Ev → LoopI → Prop) (x : LoopI) (L : Nat) :
    LoopI → Nat → Prop where
  | start : StretchE v c P x L x L
  | step {y M e z N} : StretchE v c P x L y M → WriterStep v c y M e z N → ¬ P y e z → StretchE v c P x L z N

/-- The step changes a setting, or requests (again) that the settings be stored. -/
def RequestsI (x : LoopI) (_ : Option Ev) (y : LoopI) : Prop :=
  ¬ SameVals x.s.set.cache y.s.set.cache ∨
  (y.s.set.storeRequest = true ∧ (x.s.set.storeRequest = false ∨ y.s.set.storeTimer ≠ x.s.set.storeTimer))

end Verif.Spec
