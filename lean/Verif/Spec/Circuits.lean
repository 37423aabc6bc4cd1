import Mathlib.Algebra.Order.Floor.Ring
import Mathlib.Data.Rat.Floor
/-
A pulse-width modulated signal.
-/
namespace Verif.Spec

/-- The signal at the time `t`: each period of the duration `dur` begins with the pause and ends with the pulse, whose
    share is `duty`. -/
def pwmWave (dur duty t : Rat) : Bool := decide ((1 - duty) * dur ≤ t - dur * ⌊t / dur⌋)

/-- A step is short enough for the signal: neither the pause nor the pulse can be missed. -/
def PwmStep (dur duty dt : Rat) : Prop :=
  0 ≤ dt ∧ dt < dur ∧ (duty = 0 ∨ dt ≤ duty * dur) ∧ (duty = 1 ∨ dt ≤ (1 - duty) * dur)

end Verif.Spec
