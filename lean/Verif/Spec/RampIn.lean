import Verif.Spec.LoopIn
import Verif.Spec.LoopRamp
/-
A value changed by a held button, in the main loop with interrupts inside the work functions.
-/
namespace Verif.Spec

/-- Every state of the main loop in which a held button changes a value, together with the times `a` and `b` at which the
    step began and ended that started the ramp, and the value `v0` it began with.  The boost mode, which says whose
    controller factors are on the tuning screens, stays the same there. -/
inductive LoopIRamp (v : Speed) (c : Conf) : LoopI → Nat → Nat → Int → Prop where
  | start {x e y v0} : LoopIRun v c x → LoopIStep c x e y → InTimeI v y → Ramping y.s.menu.ramp = true →
      y.s.menu.ramp ≠ x.s.menu.ramp → valueIn y.s.set.cache y.s.ct.boost y.s.menu.state = some v0 →
      LoopIRamp v c y x.T y.T v0
  | step {x e y a b v0} : LoopIRamp v c x a b v0 → LoopIStep c x e y → InTimeI v y → y.s.menu.ramp = x.s.menu.ramp →
      (Tuning x.s.menu.state = true → y.s.ct.boost = x.s.ct.boost) → LoopIRamp v c y a b v0

/-- Every state of the main loop in which a ramp waits because its button has not been held long enough, together with
    the times at which the step began and ended in which the wait began. -/
inductive LoopIWait (v : Speed) (c : Conf) : LoopI → Nat → Nat → Prop where
  | start {x e y up} : LoopIRun v c x → LoopIStep c x e y → InTimeI v y → y.s.menu.ramp = waiting up →
      y.s.menu.ramp ≠ x.s.menu.ramp → LoopIWait v c y x.T y.T
  | step {x e y a b} : LoopIWait v c x a b → LoopIStep c x e y → InTimeI v y → y.s.menu.ramp = x.s.menu.ramp →
      LoopIWait v c y a b

end Verif.Spec
