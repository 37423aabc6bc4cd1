import Verif.CSem
/-
What the property about the 24-bit types of the host talks about: the arithmetic of the AVR compiler, where the common
type of a 24-bit operand and one of at most 24 bits is the 24-bit type, and that of a 24-bit operand and a 32-bit one is
the 32-bit type.  Nothing here mentions the model of the host types.
-/
namespace Verif.Spec

/-- the operators `+`, `-`, `*` and `/` -/
inductive Arith where
  | add | sub | mul | div

/-- the exact result; the quotient is rounded towards zero -/
def exact : Arith → Int → Int → Int
  | .add, a, b => a + b
  | .sub, a, b => a - b
  | .mul, a, b => a * b
  | .div, a, b => a.tdiv b

/-- `r` is the result of the operation in a signed type with the values from `-m` to `m - 1`; there is none if the exact
    result is no value of the type or the divisor is zero -/
def Result (m : Int) (op : Arith) (a b r : Int) : Prop :=
  (op = .div → b ≠ 0) ∧ r = exact op a b ∧ -m ≤ r ∧ r < m

/-- `r` is the value of an unsigned type with the values from 0 to `m - 1` which `x` is converted to -/
def Wraps (m x r : Int) : Prop := 0 ≤ r ∧ r < m ∧ m ∣ x - r

/-- `r` is the value of a signed type with the values from `-m` to `m - 1` which `x` is converted to -/
def WrapsS (m x r : Int) : Prop := -m ≤ r ∧ r < m ∧ 2 * m ∣ x - r

/-- the comparisons of the programs -/
inductive Rel where
  | lt | eq | ne | gt

/-- the truth of a comparison -/
def holds : Rel → Int → Int → Prop
  | .lt, a, b => a < b
  | .eq, a, b => a = b
  | .ne, a, b => a ≠ b
  | .gt, a, b => a > b

end Verif.Spec
