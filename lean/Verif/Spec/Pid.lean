import Verif.Spec.Arith
/-
Independent specification of fixed-point products, quotients and of the PID law.
Values are in steps of 1/64.
-/
namespace Verif.Spec

/-- `y` is `a * b` (in steps of 1/64), rounded to the nearest step and saturated. -/
def FxProd (a b y : Int) : Prop := ∃ n, NearestUp (a * b) 64 n ∧ y = sat n

/-- `y` is `a / b` (in steps of 1/64), rounded to the nearest step and saturated. -/
def FxQuot (a b y : Int) : Prop := b ≠ 0 ∧ ∃ n, NearestAway (a * 64) b n ∧ y = sat n

/-- `y` is `a * b / c`, where the product is rounded before the division and only the final
    value is saturated. -/
def FxProdQuot (a b c y : Int) : Prop :=
  c ≠ 0 ∧ ∃ m n, NearestUp (a * b) 64 m ∧ NearestAway (m * 64) c n ∧ y = sat n

/-- The documented control law: from error `e`, memory (`I0` = integral, `e0` = decayed
    previous error) and time step `dt` to output `y` and new memory `I`, `e'`. -/
structure PidLaw (kp ki kd decay iLo iHi yLo yHi dt e I0 e0 I e' y : Int) : Prop where
  law : ∃ P kie inc D,
    FxProd kp e P ∧ FxProd ki e kie ∧ FxProd kie dt inc ∧
    LimitedTo iLo iHi (sat (I0 + inc)) I ∧
    FxProdQuot (sat (e - e0)) kd dt D ∧
    LimitedTo yLo yHi (sat (sat (P + I) + D)) y
  mem : FxQuot e decay e'

end Verif.Spec
