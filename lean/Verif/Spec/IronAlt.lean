import Verif.Spec.Press
/-
What the property about the iron button in builds without boost or idle mode talks about.
-/
namespace Verif.Spec

/-- How often the button was pressed in a sequence of samples (the newest first). -/
def presses (b : Button) : List (Nat × BitVec 8) → Nat
  | [] => 0
  | x :: l => presses b l + if Pressed l x.2 b then 1 else 0

end Verif.Spec
