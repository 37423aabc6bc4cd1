import Verif.Spec.LoopClock
import Verif.Spec.Pid
/-
A soldering iron that stays too hot.
-/
namespace Verif.Spec

/-- The controller is on and the sensor is not lost; the temperature wanted is `w`, and the factors of the controller
    are `k`.  The temperature in use is at least `d` above the one wanted. -/
structure TooHot (w d : Int) (k : PidK) (s : Sys) : Prop where
  on : s.ct.enabled = true
  sensor : s.ct.emergency = false
  wanted : WantedTemp s.set.cache s.ct.idle w
  factors : s.set.cache.k[s.ct.boost]? = some k
  hot : w + d ≤ s.ct.feedback

/-- The main loop from a run of the temperature controller at time `t0` on, while the iron is too hot and does not
    cool down, with the number `n` of further runs and the time `a` of the last one. -/
inductive StaysHot (v : Speed) (c : Conf) (w d : Int) (k : PidK) (t0 : Nat) : Loop → Nat → Nat → Prop where
  | first {x y} : LoopRun v c x → LoopStep c x (some .measureWork) y → InTime v y → RunsTemp x.s .measureWork y.s →
      x.T = t0 → TooHot w d k y.s → StaysHot v c w d k t0 y 0 t0
  | runs {x y n a} : StaysHot v c w d k t0 x n a → LoopStep c x (some .measureWork) y → InTime v y →
      RunsTemp x.s .measureWork y.s → TooHot w d k y.s → x.s.ct.feedback ≤ y.s.ct.feedback →
      StaysHot v c w d k t0 y (n + 1) x.T
  | other {x e y n a} : StaysHot v c w d k t0 x n a → LoopStep c x e y → InTime v y → ¬ EvaluatesCh 1 x e y →
      TooHot w d k y.s → StaysHot v c w d k t0 y n a

/-- What a temperature controller with the factors `k` that is `d` too hot does in one run, 1/16 s after the one
    before: the proportional part of its output is `-p`, and the integral falls by `q`. -/
def Pulls (k : PidK) (d p q : Int) : Prop :=
  FxProd k.kp (-d) (-p) ∧ ∃ r, FxProd k.ki (-d) r ∧ FxProd r 4 (-q)

end Verif.Spec
