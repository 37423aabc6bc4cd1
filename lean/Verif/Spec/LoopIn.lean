import Verif.Model.LoopIn
import Verif.Spec.Loop
/-
The main loop in real time, with interrupts inside the work functions.
-/
namespace Verif.Spec

/-- A generous limit for the speed, under which the 16-bit timers cannot be misread. -/
def Speed.SaneI (v : Speed) : Prop := v.W < 1000 ∧ v.period ≤ 29000

/-- The loop is not slower than assumed (`Speed`; the EEPROM does not matter here). -/
def InTimeI (v : Speed) (x : LoopI) : Prop :=
  x.T ≤ x.reset + v.W ∧ (x.s.meas.adcOn = true → x.D ≤ x.conv + v.A)

/-- Every state of the main loop. -/
inductive LoopIRun (v : Speed) (c : Conf) : LoopI → Prop where
  | boot {ee pinb s} : ValidEeprom c ee → boot c ee pinb = some s → LoopIRun v c ⟨s, .reset, 0, 0, 0, 0, 0⟩
  | step {x e y} : LoopIRun v c x → LoopIStep c x e y → InTimeI v y → LoopIRun v c y

/-- A stretch of the execution from `x` on in which no step has the property `P`. -/
inductive StretchI (v : Speed) (c : Conf) (P : LoopI → Option Ev → LoopI → Prop) (x : LoopI) : LoopI → Prop where
  | start : StretchI v c P x x
  | step {y e z} : StretchI v c P x y → LoopIStep c y e z → InTimeI v z → ¬ P y e z → StretchI v c P x z

/-- The step calls the work function of the statement `p`. -/
def CallsI (p : Pc) (_ : LoopI) (e : Option Ev) (_ : LoopI) : Prop := ∃ f pinb, e = some f ∧ p.call pinb = some f

/-- The step evaluates the measurement of a channel (0: current, 1: temperature). -/
def EvaluatesI (ch : Nat) (x : LoopI) (e : Option Ev) (_ : LoopI) : Prop :=
  e = some .measureWork ∧ x.s.meas.resultAvail = true ∧ x.s.meas.active = ch

/-- The step evaluates a temperature which is not above 480 C (and at most 500 C), or happens on a tuning screen. -/
def NotHotI (c : Conf) (x : LoopI) (e : Option Ev) (y : LoopI) : Prop :=
  (EvaluatesI 1 x e y ∧ ¬ ∃ t, TempReady c x.s t ∧ 480 * 64 < t ∧ t ≤ 500 * 64) ∨ Tuning x.s.menu.state = true

/-- The step evaluates a plausible temperature. -/
def GoodTempI (c : Conf) (x : LoopI) (e : Option Ev) (y : LoopI) : Prop :=
  EvaluatesI 1 x e y ∧ ∃ t, TempReady c x.s t ∧ PlausibleTemp t

end Verif.Spec
