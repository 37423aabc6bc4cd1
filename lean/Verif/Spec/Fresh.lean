import Verif.Spec.Loop
import Verif.Spec.Display
/-
What the display tells about the temperature, in real time.
-/
namespace Verif.Spec

/-- Every state of the main loop, together with the temperatures evaluated since boot: time, value and whether
    plausible, latest first. -/
inductive LoopReads (v : Speed) (c : Conf) : Loop → List (Nat × Int × Bool) → Prop where
  | boot {ee pinb s} : ValidEeprom c ee → boot c ee pinb = some s → LoopReads v c ⟨s, .reset, 0, 0, 0, 0, 0⟩ []
  | reads {x y h t b} : LoopReads v c x h → LoopStep c x (some .measureWork) y → InTime v y → TempReady c x.s t →
      (b = true ↔ PlausibleTemp t) → LoopReads v c y ((x.T, t, b) :: h)
  | other {x e y h} : LoopReads v c x h → LoopStep c x e y → InTime v y → ¬ EvaluatesCh 1 x e y → LoopReads v c y h

/-- The latest plausible temperature. -/
def latest (h : List (Nat × Int × Bool)) : Option (Nat × Int × Bool) := h.find? fun r => r.2.2

/-- The step ends with no update of the display pending. -/
def UpToDateAfter (_ : Loop) (_ : Option Ev) (y : Loop) : Prop := y.s.menu.updReq = false

end Verif.Spec
