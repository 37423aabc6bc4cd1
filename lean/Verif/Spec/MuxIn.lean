import Verif.Spec.LoopIn
import Verif.Spec.Display
/-
The digits of the display as they are lit one after the other in the main loop with interrupts inside the work functions.
-/
namespace Verif.Spec

/-- Every state of the main loop, together with the time `t0` since when the display has been on (boot, or the call in
    which debugging was last switched off) and the digits lit since then (time and digit, the newest first). -/
inductive LoopIMux (v : Speed) (c : Conf) : LoopI → Nat → List (Nat × Nat) → Prop where
  | boot {ee pinb s} : ValidEeprom c ee → boot c ee pinb = some s → LoopIMux v c ⟨s, .reset, 0, 0, 0, 0, 0⟩ 0 []
  | light {x e y t0 l j} : LoopIMux v c x t0 l → LoopIStep c x e y → InTimeI v y →
      DriverOn x.s.ports.v j = false → DriverOn y.s.ports.v j = true → LoopIMux v c y t0 ((y.T, j) :: l)
  | on {x e y t0 l} : LoopIMux v c x t0 l → LoopIStep c x e y → InTimeI v y →
      x.s.debugEn = true → y.s.debugEn = false → LoopIMux v c y x.T []
  | other {x e y t0 l} : LoopIMux v c x t0 l → LoopIStep c x e y → InTimeI v y →
      (∀ j, DriverOn y.s.ports.v j = true → DriverOn x.s.ports.v j = true) →
      ¬ (x.s.debugEn = true ∧ y.s.debugEn = false) → LoopIMux v c y t0 l

end Verif.Spec
