import Verif.Spec.Loop
import Verif.Spec.Display
/-
The digits of the display as they are lit one after the other in the main loop.
-/
namespace Verif.Spec

/-- Every state of the main loop, together with the time `t0` since when the display has been on (boot, or the last
    time debugging was switched off) and the digits lit since then (time and digit, the newest first). -/
inductive LoopMux (v : Speed) (c : Conf) : Loop → Nat → List (Nat × Nat) → Prop where
  | boot {ee pinb s} : ValidEeprom c ee → boot c ee pinb = some s → LoopMux v c ⟨s, .reset, 0, 0, 0, 0, 0⟩ 0 []
  | light {x e y t0 l j} : LoopMux v c x t0 l → LoopStep c x e y → InTime v y →
      DriverOn x.s.ports.v j = false → DriverOn y.s.ports.v j = true → LoopMux v c y t0 ((x.T, j) :: l)
  | on {x e y t0 l} : LoopMux v c x t0 l → LoopStep c x e y → InTime v y →
      x.s.debugEn = true → y.s.debugEn = false → LoopMux v c y x.T []
  | other {x e y t0 l} : LoopMux v c x t0 l → LoopStep c x e y → InTime v y →
      (∀ j, DriverOn y.s.ports.v j = true → DriverOn x.s.ports.v j = true) →
      ¬ (x.s.debugEn = true ∧ y.s.debugEn = false) → LoopMux v c y t0 l

end Verif.Spec
