import Verif.Model.Util
/-
Model of firmware/fixpt.h and firmware/fixpt.c for FIXPT_SIZE = 24, FIXPT_SHIFT = 6
(fixpt.h:7-11): fixpt_t = int24_t, fixpt_big_t = int32_t.
A fixpt_t is its raw integer (value * 64).
-/
namespace Verif

/-- fixpt.h:38 -/
def FIXPT_MAX : Int := toS24 (2 ^ 23 - 1)
/-- fixpt.h:39 -/
def FIXPT_MIN : Int := toS24 (-FIXPT_MAX)
/-- fixpt.h:40; note the cast to the *24-bit* type. -/
def FIXPTBIG_MAX : Int := toS24 (2 ^ 31 - 1)
/-- fixpt.h:41; note the cast to the *24-bit* type. -/
def FIXPTBIG_MIN : Int := toS24 (-FIXPTBIG_MAX)

/-- fixpt.c:30-38 -/
def fixptDeflate (a : Int) : Int :=
  if a ≥ FIXPT_MAX then FIXPT_MAX
  else if a ≤ FIXPT_MIN then FIXPT_MIN
  else toS24 a

/-- fixpt.h:86 `INT_TO_FIXPT_BIG(i)`, fixpt.c:40-43; `fixpt_inflate` (fixpt.c:25-28) is
    the identity in the model.  A left shift whose result does not fit is undefined. -/
def intToFixptBig (i : Int) : Option Int := ck32 (i * 64)

/-- fixpt.c:45-48 `_do_int32_to_fixpt` -/
def intToFixpt (i : Int) : Option Int := do
  let b ← intToFixptBig i
  return fixptDeflate b

/-- fixpt.c:50-63 -/
def fixptBigToInt (p : Int) : Option Int :=
  if p < 0 then do
    let p' ← ck32 (-p)
    let s ← ck32 (p' + 32)
    ck32 (-(s / 64))
  else do
    let s ← ck32 (p + 32)
    return s / 64

/-- fixpt.c:65-68 -/
def fixptToInt (p : Int) : Option Int := fixptBigToInt p

/-- fixpt.c:70-76 -/
def fixptGetIntPart (p : Int) : Option Int :=
  if p ≥ 0 then some (p / 64)
  else do
    let n ← ck32 (-p)
    ck32 (-(n / 64))

/-- fixpt.c:210-216 -/
def fixptNeg (a : Int) : Option Int :=
  if a ≤ FIXPT_MIN then some FIXPT_MAX else ck24 (-a)

/-- fixpt.c:218-223 -/
def fixptAbs (a : Int) : Option Int :=
  if a < 0 then fixptNeg a else some a

/-- fixpt.c:78-92; the unsigned 32-bit product wraps. -/
def fixptGetDecFract (p : Int) (nrDigits : Nat) : Option Int := do
  let a ← fixptAbs p
  let m ← powInt 10 nrDigits
  udivRound 4294967296 (toU32 (a % 64 * toU32 m)) 64

/-- fixpt.c:94-101 -/
def fixptBigAdd (a b : Int) : Option Int := ck32 (a + b)

/-- fixpt.c:103-110 -/
def fixptBigSub (a b : Int) : Option Int := ck32 (a - b)

/-- fixpt.c:112-124 -/
def fixptBigMul (a b : Int) : Option Int := do
  let t ← ck32 (a * b)
  let t ← ck32 (t + 32)
  return t / 64

/-- fixpt.c:126-151 -/
def fixptBigDiv (a b : Int) : Option Int :=
  if b = 0 then
    if a < 0 then some FIXPTBIG_MIN else some FIXPTBIG_MAX
  else do
    let t ← ck32 (a * 64)
    let t ← if (t ≥ 0 ∧ b ≥ 0) ∨ (t < 0 ∧ b < 0)
      then ck32 (t + b.tdiv 2)
      else ck32 (t - b.tdiv 2)
    ck32 (t.tdiv b)

/-- fixpt.c:153-161 -/
def fixptBigMulDiv (a b c : Int) : Option Int := do
  let t ← fixptBigMul a b
  fixptBigDiv t c

/-- fixpt.c:163-170 -/
def fixptAdd (a b : Int) : Option Int := do
  let t ← fixptBigAdd a b
  return fixptDeflate t

/-- fixpt.c:172-179 -/
def fixptSub (a b : Int) : Option Int := do
  let t ← fixptBigSub a b
  return fixptDeflate t

/-- fixpt.c:181-188 -/
def fixptMul (a b : Int) : Option Int := do
  let t ← fixptBigMul a b
  return fixptDeflate t

/-- fixpt.c:190-197 -/
def fixptDiv (a b : Int) : Option Int := do
  let t ← fixptBigDiv a b
  return fixptDeflate t

/-- fixpt.c:199-208 -/
def fixptMulDiv (a b c : Int) : Option Int := do
  let t ← fixptBigMulDiv a b c
  return fixptDeflate t

/-- fixpt.c:236-245 -/
def fixptClamp (a lo hi : Int) : Int :=
  let a := if a < lo then lo else a
  if a > hi then hi else a

/-- fixpt.c:225-234 -/
def fixptAddLimited (a b lo hi : Int) : Option Int := do
  let r ← fixptAdd a b
  return fixptClamp r lo hi

end Verif
