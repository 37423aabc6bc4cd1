import Verif.Spec.Hot
/-
The heater while no current is demanded.
-/
namespace Verif.Spec

/-- The step leads to a state in which a current is demanded. -/
def Demands (_ : Loop) (_ : Option Ev) (y : Loop) : Prop := y.s.cc.pid.setpoint ≠ 0

instance (x : Loop) (e : Option Ev) (y : Loop) : Decidable (Demands x e y) := by unfold Demands; infer_instance

/-- No current is demanded, there is no emergency, and the current controller uses the measured current. -/
structure NoDemand (s : Sys) : Prop where
  demand : s.cc.pid.setpoint = 0
  safe : s.cc.emerg = 0
  real : s.cc.rState = .enabled

/-- The main loop from a run of the current controller on, while no current is demanded and each measured current is at
    least `d`, with the number `n` of further runs. -/
inductive Drains (v : Speed) (c : Conf) (d : Int) : Loop → Nat → Prop where
  | first {x y} : LoopRun v c x → LoopStep c x (some .measureWork) y → InTime v y → RunsCurr x.s .measureWork y.s →
      NoDemand y.s → Drains v c d y 0
  | runs {x y n} : Drains v c d x n → LoopStep c x (some .measureWork) y → InTime v y →
      RunsCurr x.s .measureWork y.s → NoDemand y.s → d ≤ y.s.cc.feedback → Drains v c d y (n + 1)
  | other {x e y n} : Drains v c d x n → LoopStep c x e y → InTime v y → ¬ EvaluatesCh 0 x e y →
      NoDemand y.s → Drains v c d y n

end Verif.Spec
