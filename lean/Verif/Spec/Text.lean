/-
Reading numbers from a display text, and C strings in a buffer.
-/
namespace Verif.Spec

/-- the value of a non-empty row of decimal digits (ASCII codes 48..57) -/
def readDigits : List Nat → Option Nat
  | [] => none
  | cs => cs.foldl (fun acc ch =>
      match acc with
      | none => none
      | some v => if 48 ≤ ch ∧ ch ≤ 57 then some (10 * v + (ch - 48)) else none) (some 0)

/-- a right-aligned number: spaces, an optional minus sign, decimal digits -/
def readNumber : List Nat → Option Int
  | [] => none
  | ch :: cs =>
    if ch = 32 then readNumber cs
    else if ch = 45 then (readDigits cs).map fun v => -(v : Int)
    else (readDigits (ch :: cs)).map fun v => (v : Int)

/-- The buffer holds the C string `txt`: its characters, all non-zero bytes, at the start,
    followed by a NUL; what follows does not matter. -/
def HoldsText (buf : List (Option Nat)) (txt : List Nat) : Prop :=
  (∀ ch ∈ txt, 0 < ch ∧ ch < 256) ∧ ∃ rest, buf = txt.map some ++ some 0 :: rest

/-- How a text is distributed over the digits: a full stop (46) behind a character is its decimal
    point. -/
def layout : List Nat → List (Nat × Bool)
  | [] => []
  | [ch] => [(ch, false)]
  | ch :: ch' :: cs => if ch' = 46 then (ch, true) :: layout cs else (ch, false) :: layout (ch' :: cs)

end Verif.Spec
