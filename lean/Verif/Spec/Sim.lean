import Verif.Spec.Host
/-
What the properties about the simulator talk about.
-/
namespace Verif.Spec

/-- `x` differs from `y` by at most `eps` -/
def Within (eps x y : Rat) : Prop := y - eps ≤ x ∧ x ≤ y + eps

/-- The variables of the simulator for the debug interface: the names with which the value is printed (the second one is
    empty if there is only one), and the unit. -/
def simColumns : List ((List Nat × List Nat) × Rat) :=
  (columns.map fun col => ((col.1, []), col.2)) ++
    ([[112, 105, 100, 45, 116], [112, 105, 100, 45, 99]].flatMap fun pid =>          -- pid-t, pid-c
      [[101], [112], [105], [100], [112, 101]].map fun term => ((pid, term), 1 / 64)) -- e, p, i, d, pe

/-- The value printed last with the names since debugging was switched on last (by whatever argument), or 0 (the newest
    operation first). -/
def lastReport (names : List Nat × List Nat) : List DebugOp → Int
  | [] => 0
  | .enable _ :: _ => 0
  | .value n v _ :: older => if (n, []) = names then v else lastReport names older
  | .term n m v _ :: older => if (n, m) = names then v else lastReport names older

/-- A text without an end of line in it, also if a line feed or an end of line follows it. -/
def OneLine (l : List Nat) : Prop := ∀ a b, l ++ [13] ≠ a ++ 13 :: 10 :: b

/-- The lines as they are transmitted. -/
def transmitted (ls : List (List Nat)) : List Nat := (ls.map (· ++ [13, 10])).flatten

/-- An operation of the firmware in the simulator: names of the table, 32 bit values and 16 bit times. -/
def DebugOp.Known : DebugOp → Prop
  | .enable _ => True
  | .value n v t => (n, []) ∈ simColumns.map Prod.fst ∧ -2147483648 ≤ v ∧ v ≤ 2147483647 ∧ t < 65536
  | .term n m v t => (n, m) ∈ simColumns.map Prod.fst ∧ m ≠ [] ∧ -2147483648 ≤ v ∧ v ≤ 2147483647 ∧ t < 65536

/-- What the variables of the simulator have to be after the operations (the newest first). -/
def shown (ops : List DebugOp) : List Rat := simColumns.map fun col => (lastReport col.1 ops : Rat) * col.2

end Verif.Spec
