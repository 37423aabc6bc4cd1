import Verif.Spec.ClockIn
import Verif.Spec.NoDemand
/-
The heater while no current is demanded, in the main loop with interrupts inside the work functions.
-/
namespace Verif.Spec

/-- The step leads to a state in which a current is demanded. -/
def DemandsI (_ : LoopI) (_ : Option Ev) (y : LoopI) : Prop := y.s.cc.pid.setpoint ≠ 0

instance (x : LoopI) (e : Option Ev) (y : LoopI) : Decidable (DemandsI x e y) := by unfold DemandsI; infer_instance

/-- The main loop from a run of the current controller on, while no current is demanded and each measured current is at
    least `d`, with the number `n` of further runs. -/
inductive DrainsI (v : Speed) (c : Conf) (d : Int) : LoopI → Nat → Prop where
  | first {x y} : LoopIRun v c x → LoopIStep c x (some .measureWork) y → InTimeI v y → RunsCurr x.s .measureWork y.s →
      NoDemand y.s → DrainsI v c d y 0
  | runs {x y n} : DrainsI v c d x n → LoopIStep c x (some .measureWork) y → InTimeI v y →
      RunsCurr x.s .measureWork y.s → NoDemand y.s → d ≤ y.s.cc.feedback → DrainsI v c d y (n + 1)
  | other {x e y n} : DrainsI v c d x n → LoopIStep c x e y → InTimeI v y → ¬ EvaluatesI 0 x e y →
      NoDemand y.s → DrainsI v c d y n

end Verif.Spec
