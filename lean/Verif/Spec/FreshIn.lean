import Verif.Spec.Fresh
import Verif.Spec.LoopIn
/-
What the display tells about the temperature, in the main loop with interrupts inside the work functions.
-/
namespace Verif.Spec

/-- Every state of the main loop, together with the temperatures evaluated since boot: the time at which the evaluation
    began, the value and whether it was plausible, latest first. -/
inductive LoopIReads (v : Speed) (c : Conf) : LoopI → List (Nat × Int × Bool) → Prop where
  | boot {ee pinb s} : ValidEeprom c ee → boot c ee pinb = some s → LoopIReads v c ⟨s, .reset, 0, 0, 0, 0, 0⟩ []
  | reads {x y h t b} : LoopIReads v c x h → LoopIStep c x (some .measureWork) y → InTimeI v y → TempReady c x.s t →
      (b = true ↔ PlausibleTemp t) → LoopIReads v c y ((x.T, t, b) :: h)
  | other {x e y h} : LoopIReads v c x h → LoopIStep c x e y → InTimeI v y → ¬ EvaluatesI 1 x e y → LoopIReads v c y h

/-- The step ends with no update of the display pending. -/
def UpToDateAfterI (_ : LoopI) (_ : Option Ev) (y : LoopI) : Prop := y.s.menu.updReq = false

end Verif.Spec
