import Verif.Spec.PanelIn
import Verif.Spec.Press
import Verif.Spec.Panel
/-
The iron button in the main loop with interrupts inside the work functions.
-/
namespace Verif.Spec

/-- Every state of the main loop, together with the samples of the buttons taken since boot (time and pins, the newest
    first) and the idle mode just before the sample which saw the last press of the iron button begin (off before the
    first press). -/
inductive LoopIIron (v : Speed) (c : Conf) : LoopI → List (Nat × BitVec 8) → Bool → Prop where
  | boot {ee pinb s} : ValidEeprom c ee → boot c ee pinb = some s → LoopIIron v c ⟨s, .reset, 0, 0, 0, 0, 0⟩ [] false
  | sample {x y l i g pinb} : LoopIIron v c x l i → LoopIStep c x (some (.buttonsWork pinb)) y → InTimeI v y →
      workT c x.s (.buttonsWork pinb) g = some (y.s, []) → y.T = x.T + g.sum →
      y.s.btn.debounce ≠ x.s.btn.debounce → LoopIIron v c y ((x.T + g.headD 0, pinb) :: l)
        (if WasDown l .iron = false ∧ Down pinb .iron = true then x.s.ct.idle else i)
  | other {x e y l i} : LoopIIron v c x l i → LoopIStep c x e y → InTimeI v y →
      y.s.btn.debounce = x.s.btn.debounce → LoopIIron v c y l i

end Verif.Spec
