/-
C semantics used by the model (AVR-GCC, gnu11, 16-bit int, no -fwrapv).

C integers are Lean `Int`s.  `none : Option α` means "undefined behaviour".
-/
namespace Verif

/-- A signed C operation whose exact result is `x`, in a type with range `[lo, hi]`.
    Overflow is undefined behaviour: `none`. -/
def ckRange (lo hi x : Int) : Option Int :=
  if lo ≤ x ∧ x ≤ hi then some x else none

/-- 16-bit `int` arithmetic (AVR `int`). -/
def ck16 (x : Int) : Option Int := ckRange (-32768) 32767 x
/-- 24-bit `__int24` arithmetic (util.h:153). -/
def ck24 (x : Int) : Option Int := ckRange (-8388608) 8388607 x
/-- 32-bit `int32_t` arithmetic. -/
def ck32 (x : Int) : Option Int := ckRange (-2147483648) 2147483647 x

/-- C cast to `int16_t` (implementation defined in C, modulo 2^16 in GCC). -/
def toS16 (x : Int) : Int := (x + 32768) % 65536 - 32768
/-- C cast to `int24_t`. -/
def toS24 (x : Int) : Int := (x + 8388608) % 16777216 - 8388608
/-- C cast to / arithmetic in `uint8_t`. -/
def toU8 (x : Int) : Int := x % 256
/-- C cast to / arithmetic in `uint16_t`. -/
def toU16 (x : Int) : Int := x % 65536
/-- C cast to / arithmetic in `uint24_t`. -/
def toU24 (x : Int) : Int := x % 16777216
/-- C cast to / arithmetic in `uint32_t`. -/
def toU32 (x : Int) : Int := x % 4294967296

/-- Value of an `int16_t`. -/
def S16 (x : Int) : Prop := -32768 ≤ x ∧ x ≤ 32767
/-- Value of an `int24_t` (`fixpt_t`). -/
def S24 (x : Int) : Prop := -8388608 ≤ x ∧ x ≤ 8388607
/-- Value of an `int32_t` (`fixpt_big_t`). -/
def S32 (x : Int) : Prop := -2147483648 ≤ x ∧ x ≤ 2147483647

instance (x : Int) : Decidable (S16 x) := inferInstanceAs (Decidable (_ ∧ _))
instance (x : Int) : Decidable (S24 x) := inferInstanceAs (Decidable (_ ∧ _))
instance (x : Int) : Decidable (S32 x) := inferInstanceAs (Decidable (_ ∧ _))

end Verif
