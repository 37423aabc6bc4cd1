import Verif.Spec.LoopIn
import Verif.Spec.Control
/-
The runs of the controllers in the main loop, with interrupts inside the work functions.
-/
namespace Verif.Spec

/-- When something happened: during the step that began at the time `start` and ended at the time `stop`. -/
structure During where
  start : Nat
  stop : Nat

/-- Every state of the main loop, together with the step `a` of the last run of the temperature controller, of its last
    switch or of boot, whatever came last, and the step `b` of the last run of the current controller or of boot. -/
inductive LoopIClocked (v : Speed) (c : Conf) : LoopI → During → During → Prop where
  | boot {ee pinb s} : ValidEeprom c ee → boot c ee pinb = some s →
      LoopIClocked v c ⟨s, .reset, 0, 0, 0, 0, 0⟩ ⟨0, 0⟩ ⟨0, 0⟩
  | temp {x f y a b} : LoopIClocked v c x a b → LoopIStep c x (some f) y → InTimeI v y →
      (RunsTemp x.s f y.s ∨ y.s.ct.enabled ≠ x.s.ct.enabled) → LoopIClocked v c y ⟨x.T, y.T⟩ b
  | curr {x f y a b} : LoopIClocked v c x a b → LoopIStep c x (some f) y → InTimeI v y → RunsCurr x.s f y.s →
      LoopIClocked v c y a ⟨x.T, y.T⟩
  | other {x e y a b} : LoopIClocked v c x a b → LoopIStep c x e y → InTimeI v y →
      (∀ f, e = some f → y.s.ct.enabled = x.s.ct.enabled ∧ ¬ RunsTemp x.s f y.s ∧ ¬ RunsCurr x.s f y.s) →
      LoopIClocked v c y a b

/-- `ms` is a time from some moment of the step `a` to some moment of the step from `T` to `T'`. -/
def Between (a : During) (T T' ms : Nat) : Prop := T ≤ ms + a.stop ∧ ms + a.start ≤ T'

end Verif.Spec
