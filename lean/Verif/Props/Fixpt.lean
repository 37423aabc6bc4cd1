import Verif.Proofs.Fixpt
import Verif.Proofs.Pow
/-
Property theorems C01-C06, C09: fixed-point arithmetic (fixpt.c).
-/
namespace Verif.Props
open Verif Verif.Spec

/-! ### C01 saturating addition and subtraction -/

theorem C01_add (a b : Int) (ha : S24 a) (hb : S24 b) :
    ∃ y, fixptAdd a b = some y ∧ LimitedTo (-8388607) 8388607 (a + b) y :=
  ⟨_, fixptAdd_eq ha hb, by unfold LimitedTo sat; omega⟩

theorem C01_sub (a b : Int) (ha : S24 a) (hb : S24 b) :
    ∃ y, fixptSub a b = some y ∧ LimitedTo (-8388607) 8388607 (a - b) y :=
  ⟨_, fixptSub_eq ha hb, by unfold LimitedTo sat; omega⟩

-- 100000.0 + 50000.0 saturates; 1.5 + 2.25 does not; the asymmetric minimum is covered
example : S24 6400000 ∧ S24 3200000 ∧ fixptAdd 6400000 3200000 = some 8388607 := by decide
example : S24 96 ∧ S24 144 ∧ fixptAdd 96 144 = some 240 := by decide
example : S24 (-8388608) ∧ S24 0 ∧ fixptSub (-8388608) 0 = some (-8388607) := by decide

/-! ### C02 multiplication -/

theorem C02_mul (a b : Int) :
    ((fixptMul a b).isSome ↔ -2147483648 ≤ a * b ∧ a * b + 32 ≤ 2147483647) ∧
    ∀ y, fixptMul a b = some y →
      ∃ n, NearestUp (a * b) 64 n ∧ LimitedTo (-8388607) 8388607 n y := by
  by_cases h : -2147483648 ≤ a * b ∧ a * b + 32 ≤ 2147483647
  · have e := fixptMul_eq (a := a) (b := b) (by unfold S32; omega) (by unfold S32; omega)
    rw [e]
    refine ⟨by simp [h], fun y hy => ⟨(a * b + 32) / 64, ?_, ?_⟩⟩
    · unfold NearestUp
      generalize a * b = c at *
      omega
    · cases hy; unfold LimitedTo sat; omega
  · have e : fixptMul a b = none := by
      unfold fixptMul fixptBigMul ck32 ckRange
      by_cases h1 : -2147483648 ≤ a * b ∧ a * b ≤ 2147483647
      · have h2 : ¬ (-2147483648 ≤ a * b + 32 ∧ a * b + 32 ≤ 2147483647) := by omega
        simp [h1, h2]
      · simp [h1]
    rw [e]; simp [h]

-- 1.5 * 2.5 = 3.75;  0.015625 * 0.5 rounds up to 0.015625;  a saturating and an undefined case
example : fixptMul 96 160 = some 240 := by decide
example : fixptMul 1 32 = some 1 := by decide
example : fixptMul 46340 46340 = some 8388607 := by decide
example : S24 46341 ∧ fixptMul 46341 46341 = none := by decide

/-! ### C03 division -/

theorem C03_div (a b : Int) (ha : S24 a) (hb : S24 b) (h0 : b ≠ 0) :
    ∃ n y, fixptDiv a b = some y ∧ NearestAway (a * 64) b n ∧
      LimitedTo (-8388607) 8388607 n y :=
  ⟨_, _, fixptDiv_eq ha hb h0, rdiv_spec _ _ h0, by unfold LimitedTo sat; omega⟩

/-- The nearest integer of C03 is unique, so C03 pins down the result. -/
theorem C03_unique (a b n m : Int) (h0 : b ≠ 0)
    (hn : NearestAway a b n) (hm : NearestAway a b m) : n = m :=
  NearestAway.unique h0 hn hm

example : S24 64 ∧ S24 (-128) ∧ fixptDiv 64 (-128) = some (-32) := by decide
example : S24 (-1) ∧ S24 128 ∧ fixptDiv (-1) 128 = some (-1) := by decide
example : S24 (-8388608) ∧ S24 (-1) ∧ fixptDiv (-8388608) (-1) = some 8388607 := by decide

/-! ### C04 division by zero

Full statement (intended by the comment "Handle it gracefully" and by the macro names):
`∀ a, S24 a → fixptDiv a 0 = some (if a < 0 then -8388607 else 8388607)`.
It is false of the code: the big limits are truncated to 24 bits. -/

/-- What the code does instead: a tiny value of the opposite sign. -/
theorem C04_div_zero_partial (a : Int) : fixptDiv a 0 = some (if a < 0 then 1 else -1) :=
  fixptDiv_zero a

theorem C04_div_zero_false :
    ¬ ∀ a, S24 a → fixptDiv a 0 = some (if a < 0 then -8388607 else 8388607) := by
  intro h
  exact absurd (h 64 (by decide)) (by decide)

example : S24 64 ∧ fixptDiv 64 0 = some (-1) := by decide

/-! ### C05 conversions to and from integers -/

theorem C05_to_int (p : Int) (hp : S24 p) :
    ∃ n, fixptToInt p = some n ∧ NearestAway p 64 n := by
  unfold S24 at hp
  by_cases h : p < 0
  · refine ⟨-((-p + 32) / 64), ?_, ?_⟩
    · have h1 : S32 (-p) := by unfold S32; omega
      have h2 : S32 (-p + 32) := by unfold S32; omega
      have h3 : S32 (-((-p + 32) / 64)) := by unfold S32; omega
      simp [fixptToInt, fixptBigToInt, h, ck32_eq h1, ck32_eq h2, ck32_eq h3]
    · unfold NearestAway; omega
  · refine ⟨(p + 32) / 64, ?_, ?_⟩
    · have h2 : S32 (p + 32) := by unfold S32; omega
      simp [fixptToInt, fixptBigToInt, h, ck32_eq h2]
    · unfold NearestAway; omega

/-- Round trip for every integer whose fixed-point image is representable (±131071);
    outside, the conversion saturates while the shift is defined. -/
theorem C05_from_int (i : Int) (h : -33554432 ≤ i ∧ i ≤ 33554431) :
    ∃ p, intToFixpt i = some p ∧ LimitedTo (-8388607) 8388607 (i * 64) p ∧
      (-131071 ≤ i → i ≤ 131071 → fixptToInt p = some i) := by
  have e : intToFixpt i = some (sat (i * 64)) := by
    have h1 : S32 (i * 64) := by unfold S32; omega
    simp [intToFixpt, intToFixptBig, ck32_eq h1, fixptDeflate_eq]
  refine ⟨_, e, by unfold LimitedTo sat; omega, fun h1 h2 => ?_⟩
  obtain ⟨n, hn, hs⟩ := C05_to_int (sat (i * 64)) (sat_S24 _)
  rw [hn]
  unfold NearestAway sat at hs
  congr 1
  omega

example : fixptToInt 96 = some 2 ∧ fixptToInt (-96) = some (-2) ∧ fixptToInt 95 = some 1 := by
  decide
example : intToFixpt 480 = some 30720 ∧ intToFixpt 200000 = some 8388607 := by decide

/-! ### C06 integer part and decimal fraction -/

theorem C06_int_part (p : Int) (hp : S24 p) :
    ∃ n, fixptGetIntPart p = some n ∧
      (0 ≤ p → n * 64 ≤ p ∧ p < (n + 1) * 64) ∧ (p ≤ 0 → p ≤ n * 64 ∧ (n - 1) * 64 < p) := by
  unfold S24 at hp
  by_cases h : p ≥ 0
  · exact ⟨p / 64, by simp [fixptGetIntPart, h], by omega, by omega⟩
  · refine ⟨-(-p / 64), ?_, by omega, by omega⟩
    have h1 : S32 (-p) := by unfold S32; omega
    have h2 : S32 (-(-p / 64)) := by unfold S32; omega
    simp [fixptGetIntPart, h, ck32_eq h1, ck32_eq h2]

/-- For 2..7 digits: the fraction has at most that many digits and integer part plus
    fraction is `|p| / 64` up to half a unit of the last digit
    (`2 * |int * 10^n * 64 + fract * 64 - |p| * 10^n| ≤ 64`).
    The magnitude saturates for the single value -2^23. -/
theorem C06_dec_fract (p : Int) (hp : S24 p) (hmin : p ≠ -8388608) (n : Nat)
    (hn : 2 ≤ n ∧ n ≤ 7) :
    ∃ i f, fixptGetIntPart p = some i ∧ fixptGetDecFract p n = some f ∧
      0 ≤ f ∧ f < 10 ^ n ∧
      2 * (((i.natAbs : Int) * 10 ^ n + f) * 64 - (p.natAbs : Int) * 10 ^ n).natAbs ≤ 64 := by
  obtain ⟨i, hi, hi1, hi2⟩ := C06_int_part p hp
  have habs : fixptAbs p = some (p.natAbs : Int) := by
    unfold S24 at hp
    unfold fixptAbs fixptNeg
    rw [FIXPT_MIN_eq, FIXPT_MAX_eq]
    split_ifs
    · congr 1; omega
    · rw [ck24_eq (by unfold S24; omega)]; congr 1; omega
    · congr 1; omega
  obtain ⟨hn1, hn2⟩ := hn
  have hpow : powInt 10 n = some (10 ^ n) := by
    interval_cases n <;> decide
  have hI : (i.natAbs : Int) = (p.natAbs : Int) / 64 := by omega
  have hq : (0 : Int) ≤ (p.natAbs : Int) := by omega
  refine ⟨i, ((p.natAbs : Int) % 64 * 10 ^ n + 32) / 64, hi, ?_, ?_⟩
  · simp only [fixptGetDecFract, habs, hpow, Option.bind_eq_bind, Option.bind_some, udivRound]
    unfold toU32
    rw [if_neg (by decide)]
    congr 1
    generalize (p.natAbs : Int) = q at *
    interval_cases n <;> simp only [Int.reducePow] <;> omega
  · rw [hI]
    generalize (p.natAbs : Int) = q at *
    interval_cases n <;> simp only [Int.reducePow] <;> omega

-- 1.75 with two digits: 1 and 75; -0.984375 is 0.98
example : fixptGetIntPart 112 = some 1 ∧ fixptGetDecFract 112 2 = some 75 := by decide
example : fixptGetIntPart (-63) = some 0 ∧ fixptGetDecFract (-63) 2 = some 98 := by decide

/-- With a single digit the claim "at most that many digits" is false: 0.984375 gives 10. -/
theorem C06_one_digit_false : fixptGetDecFract 63 1 = some 10 := by decide

/-! ### C09 negation, absolute value, clamping -/

theorem C09_neg (a : Int) (ha : S24 a) :
    ∃ y, fixptNeg a = some y ∧ LimitedTo (-8388607) 8388607 (-a) y := by
  unfold S24 at ha
  refine ⟨sat (-a), ?_, by unfold LimitedTo sat; omega⟩
  unfold fixptNeg
  rw [FIXPT_MIN_eq, FIXPT_MAX_eq]
  split_ifs
  · unfold sat; congr 1; omega
  · rw [ck24_eq (by unfold S24; omega)]; unfold sat; congr 1; omega

theorem C09_neg_neg (a : Int) (ha : S24 a) (hmin : a ≠ -8388608) :
    (fixptNeg a).bind fixptNeg = some a := by
  obtain ⟨y, hy, hl⟩ := C09_neg a ha
  have h1 : y = -a := by unfold S24 LimitedTo at *; omega
  obtain ⟨z, hz, hl2⟩ := C09_neg y (by unfold S24 at *; omega)
  rw [hy, Option.bind_some, hz]
  unfold S24 LimitedTo at *
  congr 1; omega

theorem C09_abs (a : Int) (ha : S24 a) :
    ∃ y, fixptAbs a = some y ∧ LimitedTo 0 8388607 a.natAbs y := by
  unfold fixptAbs
  split_ifs with h
  · obtain ⟨y, hy, hl⟩ := C09_neg a ha
    exact ⟨y, hy, by unfold S24 LimitedTo at *; omega⟩
  · exact ⟨a, rfl, by unfold S24 LimitedTo at *; omega⟩

theorem C09_clamp (a lo hi : Int) (h : lo ≤ hi) : LimitedTo lo hi a (fixptClamp a lo hi) := by
  unfold LimitedTo fixptClamp; simp only []; split_ifs <;> omega

/-- util.h `clamp` agrees. -/
theorem C09_clamp_macro (a lo hi : Int) (h : lo ≤ hi) : LimitedTo lo hi a (cClamp a lo hi) := by
  unfold LimitedTo cClamp cMax cMin; split_ifs <;> omega

theorem C09_add_limited (a b lo hi : Int) (ha : S24 a) (hb : S24 b)
    (h : -8388607 ≤ lo ∧ lo ≤ hi ∧ hi ≤ 8388607) :
    ∃ y, fixptAddLimited a b lo hi = some y ∧ LimitedTo lo hi (a + b) y := by
  refine ⟨fixptClamp (sat (a + b)) lo hi, by simp [fixptAddLimited, fixptAdd_eq ha hb], ?_⟩
  have := C09_clamp (sat (a + b)) lo hi (by omega)
  unfold LimitedTo sat at *; omega

example : S24 (-8388608) ∧ fixptNeg (-8388608) = some 8388607 := by decide
example : fixptAbs (-64) = some 64 ∧ fixptClamp 5 10 20 = 10 := by decide
example : fixptAddLimited 30720 64 0 30720 = some 30720 := by decide

end Verif.Props
