import Verif.Spec.ClockIn
import Verif.Spec.Hot
import Verif.Spec.Cold
/-
A soldering iron that stays too hot or too cold, in the main loop with interrupts inside the work functions.
-/
namespace Verif.Spec

/-- The main loop from a run of the temperature controller that ended at time `t0` on, while the iron is too hot and does
    not cool down, with the number `n` of further runs and the step `a` of the last one. -/
inductive StaysHotI (v : Speed) (c : Conf) (w d : Int) (k : PidK) (t0 : Nat) : LoopI → Nat → During → Prop where
  | first {x y} : LoopIRun v c x → LoopIStep c x (some .measureWork) y → InTimeI v y → RunsTemp x.s .measureWork y.s →
      y.T = t0 → TooHot w d k y.s → StaysHotI v c w d k t0 y 0 ⟨x.T, y.T⟩
  | runs {x y n a} : StaysHotI v c w d k t0 x n a → LoopIStep c x (some .measureWork) y → InTimeI v y →
      RunsTemp x.s .measureWork y.s → TooHot w d k y.s → x.s.ct.feedback ≤ y.s.ct.feedback →
      StaysHotI v c w d k t0 y (n + 1) ⟨x.T, y.T⟩
  | other {x e y n a} : StaysHotI v c w d k t0 x n a → LoopIStep c x e y → InTimeI v y → ¬ EvaluatesI 1 x e y →
      TooHot w d k y.s → StaysHotI v c w d k t0 y n a

/-- The same while the iron is too cold and does not warm up and the memory of the controller is not cleared (as a change
    of the boost mode does). -/
inductive StaysColdI (v : Speed) (c : Conf) (w d : Int) (k : PidK) (t0 : Nat) : LoopI → Nat → During → Prop where
  | first {x y} : LoopIRun v c x → LoopIStep c x (some .measureWork) y → InTimeI v y → RunsTemp x.s .measureWork y.s →
      y.T = t0 → TooCold w d k y.s → StaysColdI v c w d k t0 y 0 ⟨x.T, y.T⟩
  | runs {x y n a} : StaysColdI v c w d k t0 x n a → LoopIStep c x (some .measureWork) y → InTimeI v y →
      RunsTemp x.s .measureWork y.s → TooCold w d k y.s → y.s.ct.feedback ≤ x.s.ct.feedback →
      StaysColdI v c w d k t0 y (n + 1) ⟨x.T, y.T⟩
  | other {x e y n a} : StaysColdI v c w d k t0 x n a → LoopIStep c x e y → InTimeI v y → ¬ EvaluatesI 1 x e y →
      TooCold w d k y.s → y.s.ct.pid.integr = x.s.ct.pid.integr → y.s.ct.pid.prevE = x.s.ct.pid.prevE →
      StaysColdI v c w d k t0 y n a

end Verif.Spec
