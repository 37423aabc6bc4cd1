import Verif.Spec.Loop
import Verif.Spec.Press
/-
A value changed by a held button, in the main loop.
-/
namespace Verif.Spec

/-- Every state of the main loop in which a held button changes a value, together with the time `t` at which the ramp
    began and the value `v0` it began with.  The boost mode, which says whose controller factors are on the tuning
    screens, stays the same there. -/
inductive LoopRamp (v : Speed) (c : Conf) : Loop → Nat → Int → Prop where
  | start {x e y v0} : LoopRun v c x → LoopStep c x e y → InTime v y → Ramping y.s.menu.ramp = true →
      y.s.menu.ramp ≠ x.s.menu.ramp → valueIn y.s.set.cache y.s.ct.boost y.s.menu.state = some v0 →
      LoopRamp v c y x.T v0
  | step {x e y t v0} : LoopRamp v c x t v0 → LoopStep c x e y → InTime v y → y.s.menu.ramp = x.s.menu.ramp →
      (Tuning x.s.menu.state = true → y.s.ct.boost = x.s.ct.boost) → LoopRamp v c y t v0

/-- When the step number `k` (from 0) of a ramp is due, in ms after its start, if the loop needs `W` ms per iteration,
    which makes one step: the distances are those of `due`, but not shorter than an iteration. -/
def dueIn (W : Nat) : Nat → Nat
  | 0 => 0
  | k + 1 => dueIn W k + max W (due (k + 1) - due k)

/-- The value `k` steps of `inc` from `v0` on, within the limits. -/
def ramped (r : Ramp) (v0 inc lo hi : Int) (k : Nat) : Int :=
  if r = .up then min hi (v0 + k * inc) else max lo (v0 - k * inc)

end Verif.Spec
