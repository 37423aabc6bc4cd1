import Verif.Spec.Control
import Verif.Spec.Press
/-
What the samples of the buttons taken since boot say about the iron button, in the builds with boost and idle mode.
-/
namespace Verif.Spec

/-- Idle mode and the current press of the iron button after the samples `l` (time and pins, the newest first).  Idle
    mode is off at boot. -/
def ironModes : List (Nat × BitVec 8) → Bool × Option Press
  | [] => (false, none)
  | (t, p) :: l => (idleAfter (ironModes l).1 t (ironModes l).2 (IronDown p),
      nextPress (ironModes l).1 t (ironModes l).2 (IronDown p))

/-- The samples before the current press of the iron button. -/
def beforePress (l : List (Nat × BitVec 8)) : List (Nat × BitVec 8) := l.dropWhile fun x => IronDown x.2

/-- The samples up to the last one with the iron button down. -/
def upToPress (l : List (Nat × BitVec 8)) : List (Nat × BitVec 8) := l.dropWhile fun x => !IronDown x.2

end Verif.Spec
