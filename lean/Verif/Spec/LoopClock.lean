import Verif.Spec.Loop
import Verif.Spec.Control
/-
The runs of the controllers in the main loop.
-/
namespace Verif.Spec

/-- Every state of the main loop, together with the time `a` of the last run of the temperature controller, of its last
    switch or of boot, whatever came last, and the time `b` of the last run of the current controller or of boot. -/
inductive LoopClocked (v : Speed) (c : Conf) : Loop → Nat → Nat → Prop where
  | boot {ee pinb s} : ValidEeprom c ee → boot c ee pinb = some s → LoopClocked v c ⟨s, .reset, 0, 0, 0, 0, 0⟩ 0 0
  | temp {x f y a b} : LoopClocked v c x a b → LoopStep c x (some f) y → InTime v y →
      (RunsTemp x.s f y.s ∨ y.s.ct.enabled ≠ x.s.ct.enabled) → LoopClocked v c y x.T b
  | curr {x f y a b} : LoopClocked v c x a b → LoopStep c x (some f) y → InTime v y → RunsCurr x.s f y.s →
      LoopClocked v c y a x.T
  | other {x e y a b} : LoopClocked v c x a b → LoopStep c x e y → InTime v y →
      (∀ f, e = some f → y.s.ct.enabled = x.s.ct.enabled ∧ ¬ RunsTemp x.s f y.s ∧ ¬ RunsCurr x.s f y.s) →
      LoopClocked v c y a b

end Verif.Spec
