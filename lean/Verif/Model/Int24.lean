import Verif.Model.Filter
/-
Model of firmware/tests/fake/int24.h: the classes `Int24` and `UInt24`, which stand for the 24-bit types of the AVR
compiler when the firmware is compiled for the host (the unit tests in firmware/tests, the simulator in
firmware/simulator), and of the functions of fixpt.c and filter.c compiled with them.  An object is its `m_value`.  `int`
on the host has 32 bits: overflow of a signed 32-bit operation and division by zero are undefined behaviour, `none`.
Increment and decrement, which the firmware does not use on 24-bit types, are not modelled.
-/
namespace Verif

/-- the conversion of a 32-bit `unsigned int` to `int` (modulo 2^32 in GCC) -/
def toS32 (x : Int) : Int := (x + 2147483648) % 4294967296 - 2147483648

/-- int24.h:399-405 `Int24::extend`: the conversion from any integer type; if bit 23 is set, bits 24 to 31 are set -/
def i24Of (value : Int) : Int :=
  let v := toU32 value % 16777216
  let v := if v / 8388608 % 2 = 1 then v + 4278190080 else v
  toS32 v

/-- int24.h:195-198 `UInt24::mask`: the conversion from any integer type -/
def u24Of (value : Int) : Int := toU32 value % 16777216

/-- the operators of the classes which yield a number -/
inductive Op24 where
  | add | sub | mul | div | and | or | xor
  deriving DecidableEq

/-- an operator of the host on 32-bit `int` operands; the bitwise ones act on the two's complement -/
def hostInt : Op24 → Int → Int → Option Int
  | .add, a, b => ck32 (a + b)
  | .sub, a, b => ck32 (a - b)
  | .mul, a, b => ck32 (a * b)
  | .div, a, b => if b = 0 then none else ck32 (a.tdiv b)
  | .and, a, b => some (toS32 ((toU32 a).toNat &&& (toU32 b).toNat : Nat))
  | .or, a, b => some (toS32 ((toU32 a).toNat ||| (toU32 b).toNat : Nat))
  | .xor, a, b => some (toS32 ((toU32 a).toNat ^^^ (toU32 b).toNat : Nat))

/-- an operator of the host on 32-bit `unsigned int` operands -/
def hostUint : Op24 → Int → Int → Option Int
  | .add, a, b => some (toU32 (a + b))
  | .sub, a, b => some (toU32 (a - b))
  | .mul, a, b => some (toU32 (a * b))
  | .div, a, b => if b = 0 then none else some (a / b)
  | .and, a, b => some (a.toNat &&& b.toNat : Nat)
  | .or, a, b => some (a.toNat ||| b.toNat : Nat)
  | .xor, a, b => some (a.toNat ^^^ b.toNat : Nat)

/-- int24.h:264-351 the operators of `Int24` with another `Int24`; `+=` and `-=` give the same value -/
def i24Op (op : Op24) (a b : Int) : Option Int := (hostInt op a b).map i24Of

/-- int24.h:270-356 the operators of `Int24` with an operand of another type (`const auto &`) on the right -/
def i24OpAuto (op : Op24) (a o : Int) : Option Int := i24Op op a (i24Of o)

/-- int24.h:60-147 the operators of `UInt24` with another `UInt24` -/
def u24Op (op : Op24) (a b : Int) : Option Int := (hostUint op a b).map u24Of

/-- int24.h:66-152 the operators of `UInt24` with an operand of another type on the right -/
def u24OpAuto (op : Op24) (a o : Int) : Option Int := u24Op op a (u24Of o)

/-- the comparisons; int24.h:358-396 defines `<`, `==`, `!=` and `>` for `Int24`, int24.h:154-192 for `UInt24` -/
inductive Cmp24 where
  | lt | eq | ne | gt
  deriving DecidableEq

/-- a comparison of two numbers -/
def hostCmp : Cmp24 → Int → Int → Bool
  | .lt, a, b => decide (a < b)
  | .eq, a, b => decide (a = b)
  | .ne, a, b => decide (a ≠ b)
  | .gt, a, b => decide (a > b)

/-- int24.h:358-396 a comparison of an `Int24` with an operand of another type on the right -/
def i24CmpAuto (op : Cmp24) (a o : Int) : Bool := hostCmp op a (i24Of o)

/-- int24.h:154-192 a comparison of a `UInt24` with an operand of another type on the right -/
def u24CmpAuto (op : Cmp24) (a o : Int) : Bool := hostCmp op a (u24Of o)

/-- fixpt.h:38 `FIXPT_MAX` on the host -/
def HOST_FIXPT_MAX : Int := i24Of (2 ^ 23 - 1)
/-- fixpt.h:39 `FIXPT_MIN` on the host; the minus sign acts on an `int` (int24.h:233-236 `operator int`) -/
def HOST_FIXPT_MIN : Int := i24Of (-HOST_FIXPT_MAX)

/-- fixpt.c:30-38 `fixpt_deflate` on the host -/
def hostDeflate (a : Int) : Int :=
  if a ≥ HOST_FIXPT_MAX then HOST_FIXPT_MAX
  else if a ≤ HOST_FIXPT_MIN then HOST_FIXPT_MIN
  else i24Of a

/-- fixpt.c:210-216 `fixpt_neg` on the host; `<=` and `-` act on `int` -/
def hostNeg (a : Int) : Option Int :=
  if a ≤ HOST_FIXPT_MIN then some HOST_FIXPT_MAX else (ck32 (-a)).map i24Of

/-- fixpt.c:218-223 `fixpt_abs` on the host -/
def hostAbs (a : Int) : Option Int := if hostCmp .lt a (i24Of 0) then hostNeg a else some a

/-- fixpt.c:78-92 `fixpt_get_dec_fract` on the host -/
def hostDecFract (p : Int) (nrDigits : Nat) : Option Int := do
  let a ← hostAbs p
  let p ← i24OpAuto .and a 63
  let m ← powInt 10 nrDigits
  udivRound 4294967296 (toU32 (toU32 p * toU32 m)) 64

/-- fixpt.c:236-245 `fixpt_clamp` on the host -/
def hostClamp (a lo hi : Int) : Int :=
  let a := if hostCmp .lt a lo then lo else a
  if hostCmp .gt a hi then hi else a

/-- filter.c:25-37 `lp_filter_u16_run` on the host; `buf >> filter_shift` is an `unsigned int` -/
def hostLpU16Run (buf inp : Int) (shift : Nat) : Option (Int × Int) := do
  let b ← u24OpAuto .sub buf (buf / 2 ^ shift)
  let b ← u24OpAuto .add b inp
  let out := u24Of (b / 2 ^ shift)
  let lim := u24Of 65535
  return (b, toU16 (if hostCmp .lt out lim then out else lim))

end Verif
