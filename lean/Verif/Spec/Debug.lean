import Verif.Spec.Text
/-
What the lines of the debug interface mean.
-/
namespace Verif.Spec

/-- the value of a lower case hexadecimal digit -/
def hexDigit (ch : Nat) : Option Nat :=
  if 48 ≤ ch ∧ ch ≤ 57 then some (ch - 48) else if 97 ≤ ch ∧ ch ≤ 102 then some (ch - 87) else none

/-- the number written in hexadecimal -/
def readHex : List Nat → Option Nat
  | [] => none
  | cs => cs.foldl (fun acc ch => acc.bind fun v => (hexDigit ch).map fun d => 16 * v + d) (some 0)

/-- the number written in decimal, with a minus sign if it is negative -/
def readSigned : List Nat → Option Int
  | [] => none
  | ch :: cs => if ch = 45 then (readDigits cs).map fun v => -(v : Int) else (readDigits (ch :: cs)).map Int.ofNat

/-- A report: the time in hexadecimal, a colon, one or two prefixes and the value, separated by blanks, and the end
    of the line. -/
def ReportLine (p0 : List Nat) (p1 : Option (List Nat)) (time : Nat) (value : Int) (line : List Nat) : Prop :=
  ∃ t n, readHex t = some time ∧ readSigned n = some value ∧
    line = t ++ 58 :: 32 :: p0 ++ (p1.elim [] fun p => 32 :: p) ++ 32 :: n ++ [13, 10]

/-- Several reports: a line for each of them, in order. -/
def ReportLines (p0 : List Nat) (p1 : Option (List Nat)) : List (Nat × Int) → List Nat → Prop
  | [], out => out = []
  | x :: xs, out => ∃ line rest, ReportLine p0 p1 x.1 x.2 line ∧ ReportLines p0 p1 xs rest ∧ out = line ++ rest

/-- The values of a history that are to be reported: those that differ from the one before, while debugging is
    enabled.  A history is a list of moments: whether debugging is enabled, the time and the value. -/
def toReport : Int → List (Bool × Nat × Int) → List (Nat × Int)
  | _, [] => []
  | old, (en, now, v) :: rest => (if en && decide (v ≠ old) then [(now, v)] else []) ++ toReport v rest

end Verif.Spec
