import Verif.Spec.LoopClock
import Verif.Spec.Pid
/-
A soldering iron that stays too cold.
-/
namespace Verif.Spec

/-- The controller is on and the sensor is not lost; the temperature wanted is `w`, and the factors of the controller
    are `k`.  The temperature in use is at least `d` below the one wanted. -/
structure TooCold (w d : Int) (k : PidK) (s : Sys) : Prop where
  on : s.ct.enabled = true
  sensor : s.ct.emergency = false
  wanted : WantedTemp s.set.cache s.ct.idle w
  factors : s.set.cache.k[s.ct.boost]? = some k
  cold : s.ct.feedback + d ≤ w

/-- The main loop from a run of the temperature controller at time `t0` on, while the iron is too cold and does not
    warm up and the memory of the controller is not cleared (as a change of the boost mode does), with the number `n`
    of further runs and the time `a` of the last one. -/
inductive StaysCold (v : Speed) (c : Conf) (w d : Int) (k : PidK) (t0 : Nat) : Loop → Nat → Nat → Prop where
  | first {x y} : LoopRun v c x → LoopStep c x (some .measureWork) y → InTime v y → RunsTemp x.s .measureWork y.s →
      x.T = t0 → TooCold w d k y.s → StaysCold v c w d k t0 y 0 t0
  | runs {x y n a} : StaysCold v c w d k t0 x n a → LoopStep c x (some .measureWork) y → InTime v y →
      RunsTemp x.s .measureWork y.s → TooCold w d k y.s → y.s.ct.feedback ≤ x.s.ct.feedback →
      StaysCold v c w d k t0 y (n + 1) x.T
  | other {x e y n a} : StaysCold v c w d k t0 x n a → LoopStep c x e y → InTime v y → ¬ EvaluatesCh 1 x e y →
      TooCold w d k y.s → y.s.ct.pid.integr = x.s.ct.pid.integr → y.s.ct.pid.prevE = x.s.ct.pid.prevE →
      StaysCold v c w d k t0 y n a

/-- What a temperature controller with the factors `k` that is `d` too cold does in one run, 1/16 s after the one
    before: the proportional part of its output is `p`, and the integral rises by `q`. -/
def Pushes (k : PidK) (d p q : Int) : Prop :=
  FxProd k.kp d p ∧ ∃ r, FxProd k.ki d r ∧ FxProd r 4 q

end Verif.Spec
