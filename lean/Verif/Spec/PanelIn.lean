import Verif.Spec.LoopIn
/-
The samples of the buttons in the main loop with interrupts inside the work functions.
-/
namespace Verif.Spec

/-- Every state of the main loop, together with the samples of the buttons taken since boot (time and pins, the newest
    first).  A call of `buttons_work` with the ticks `g` inside reads the time after the first of them; if it has taken a
    sample, it has moved the debouncing time on. -/
inductive LoopISamples (v : Speed) (c : Conf) : LoopI → List (Nat × BitVec 8) → Prop where
  | boot {ee pinb s} : ValidEeprom c ee → boot c ee pinb = some s → LoopISamples v c ⟨s, .reset, 0, 0, 0, 0, 0⟩ []
  | sample {x y l g pinb} : LoopISamples v c x l → LoopIStep c x (some (.buttonsWork pinb)) y → InTimeI v y →
      workT c x.s (.buttonsWork pinb) g = some (y.s, []) → y.T = x.T + g.sum →
      y.s.btn.debounce ≠ x.s.btn.debounce → LoopISamples v c y ((x.T + g.headD 0, pinb) :: l)
  | other {x e y l} : LoopISamples v c x l → LoopIStep c x e y → InTimeI v y →
      y.s.btn.debounce = x.s.btn.debounce → LoopISamples v c y l

end Verif.Spec
