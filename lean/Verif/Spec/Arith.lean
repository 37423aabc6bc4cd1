/-
Independent specification vocabulary for arithmetic: nothing here mentions the model.
-/
namespace Verif.Spec

/-- `n` is `a / b` rounded to the nearest integer, halves away from zero
    (stated without division: the distance to `a` is at most half of `|b|`, and on a
    tie the rounded value has the larger magnitude). -/
def NearestAway (a b n : Int) : Prop :=
  2 * (a - n * b).natAbs ≤ b.natAbs ∧
  (2 * (a - n * b).natAbs = b.natAbs → a.natAbs < (n * b).natAbs)

/-- `n` is `a / b` (with `b > 0`) rounded to the nearest integer, halves towards +∞. -/
def NearestUp (a b n : Int) : Prop :=
  -b ≤ 2 * (a - n * b) ∧ 2 * (a - n * b) < b

/-- `n` is the ceiling of `a / b`. -/
def IsCeil (a b n : Int) : Prop :=
  if 0 < b then (n - 1) * b < a ∧ a ≤ n * b else n * b ≤ a ∧ a < (n - 1) * b

/-- `y` is `x` limited to `[lo, hi]`: the element of the interval nearest to `x`. -/
def LimitedTo (lo hi x y : Int) : Prop :=
  lo ≤ y ∧ y ≤ hi ∧ (x < lo → y = lo) ∧ (hi < x → y = hi) ∧ (lo ≤ x → x ≤ hi → y = x)

/-- Saturation to the symmetric 24-bit range (±8388607, i.e. ±131071.98 in steps of 1/64). -/
def sat (x : Int) : Int := max (-8388607) (min 8388607 x)

end Verif.Spec
