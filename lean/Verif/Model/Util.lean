import Verif.CSem
/-
Model of firmware/util.h (macros) and firmware/util.c.
-/
namespace Verif

/-- util.h:18-22 `min(a, b)` with both operands of the same type. -/
def cMin (a b : Int) : Int := if a < b then a else b

/-- util.h:25-29 `max(a, b)` with both operands of the same type. -/
def cMax (a b : Int) : Int := if a > b then a else b

/-- util.h:32-33 `clamp(value, min_val, max_val) = max(min(value, max_val), min_val)`. -/
def cClamp (v lo hi : Int) : Int := cMax (cMin v hi) lo

/-- util.h:43 `round_up(n, s)` for unsigned operands, before wrap-around
    (the macro is generic in its type; the model takes mathematical integers). -/
def roundUpMacro (n s : Int) : Int := (n + s - 1) / s * s

/-- util.h:46-56 `sdiv_round_up(x, d)`; the macro is generic in its type, `ck` is the
    overflow check of that type.  `d = 0` is undefined. -/
def sdivRoundUp (ck : Int → Option Int) (x d : Int) : Option Int :=
  if d = 0 then none
  else if (x < 0 ∧ ¬ d < 0) ∨ (¬ x < 0 ∧ d < 0) then ck (x.tdiv d)
  else if x < 0 ∧ d < 0 then do
    let s ← ck (x + d)
    let t ← ck (s + 1)
    ck (t.tdiv d)
  else do
    let s ← ck (x + d)
    let t ← ck (s - 1)
    ck (t.tdiv d)

/-- util.h:59-63 `udiv_round_up(x, d)` in an unsigned type with modulus `m`. -/
def udivRoundUp (m x d : Int) : Option Int :=
  if d = 0 then none else some ((((x + d) % m - 1) % m) / d)

/-- util.h:67-75 `sdiv_round(x, d)`, generic in its type as above. -/
def sdivRound (ck : Int → Option Int) (x d : Int) : Option Int :=
  if d = 0 then none
  else if (x < 0 ∧ ¬ d < 0) ∨ (¬ x < 0 ∧ d < 0) then do
    let t ← ck (x - d.tdiv 2)
    ck (t.tdiv d)
  else do
    let t ← ck (x + d.tdiv 2)
    ck (t.tdiv d)

/-- util.h:79-83 `udiv_round(x, d)` in an unsigned type with modulus `m`. -/
def udivRound (m x d : Int) : Option Int :=
  if d = 0 then none else some (((x + d / 2) % m) / d)

/-- util.c:32-35 first loop of `pow_int`: strip trailing zero bits of `e`.
    `fuel` bounds the recursion; 8 iterations suffice for a `uint8_t`; running out of
    fuel is an endless loop in C (only for `e = 0`, excluded by util.c:28) and is `none`. -/
def powStrip : Nat → Int → Nat → Option (Int × Nat)
  | 0, _, _ => none
  | fuel + 1, x, e =>
    if e % 2 = 0 then do
      let x' ← ck32 (x * x)
      powStrip fuel x' (e / 2)
    else some (x, e)

/-- util.c:38-43 second loop of `pow_int`. -/
def powLoop : Nat → Int → Int → Nat → Option Int
  | 0, _, _, _ => none
  | fuel + 1, x, y, e =>
    if e = 0 then some y
    else do
      let x' ← ck32 (x * x)
      let y' ← if e % 2 = 1 then ck32 (y * x') else some y
      powLoop fuel x' y' (e / 2)

/-- util.c:24-46 `pow_int(b, e)`. -/
def powInt (b : Int) (e : Nat) : Option Int :=
  if e = 0 then some 1
  else do
    let (x, e') ← powStrip 9 b e
    powLoop 9 x x (e' / 2)

end Verif
