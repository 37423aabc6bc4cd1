import Verif.Spec.LoopIn
/-
The measured currents in the main loop with interrupts inside the work functions.
-/
namespace Verif.Spec

/-- Every state of the main loop, together with the mean current readings evaluated since boot, and for each the time
    at which its evaluation began and whether it was plausible, latest first. -/
inductive LoopICurrs (v : Speed) (c : Conf) : LoopI → List Int → List (Nat × Bool) → Prop where
  | boot {ee pinb s} : ValidEeprom c ee → boot c ee pinb = some s → LoopICurrs v c ⟨s, .reset, 0, 0, 0, 0, 0⟩ [] []
  | reads {x y xs h t b} : LoopICurrs v c x xs h → LoopIStep c x (some .measureWork) y → InTimeI v y →
      CurrReady x.s xs t → (b = true ↔ PlausibleCurr t) →
      LoopICurrs v c y (x.s.meas.avgSum / x.s.meas.avgCount :: xs) ((x.T, b) :: h)
  | other {x e y xs h} : LoopICurrs v c x xs h → LoopIStep c x e y → InTimeI v y → ¬ EvaluatesI 0 x e y →
      LoopICurrs v c y xs h

end Verif.Spec
