import Verif.CSem
import Verif.Spec.Arith
import Mathlib.Tactic.Linarith
import Mathlib.Tactic.Ring
import Mathlib.Tactic.NormNum
import Mathlib.Tactic.IntervalCases
/-
Helper lemmas about the C semantics and the rounding specifications.
-/
namespace Verif
open Spec

theorem ckRange_eq {lo hi x : Int} (h : lo ≤ x ∧ x ≤ hi) : ckRange lo hi x = some x := by
  simp [ckRange, h]

theorem ck32_eq {x : Int} (h : S32 x) : ck32 x = some x := ckRange_eq h
theorem ck24_eq {x : Int} (h : S24 x) : ck24 x = some x := ckRange_eq h
theorem ck16_eq {x : Int} (h : S16 x) : ck16 x = some x := ckRange_eq h

theorem ckRange_some {lo hi x y : Int} :
    ckRange lo hi x = some y ↔ (lo ≤ x ∧ x ≤ hi) ∧ y = x := by
  unfold ckRange; split <;> simp_all [eq_comm]

theorem ck32_some {x y : Int} : ck32 x = some y ↔ S32 x ∧ y = x := ckRange_some
theorem ck24_some {x y : Int} : ck24 x = some y ↔ S24 x ∧ y = x := ckRange_some
theorem ck16_some {x y : Int} : ck16 x = some y ↔ S16 x ∧ y = x := ckRange_some

theorem ck32_isSome {x : Int} : (ck32 x).isSome ↔ S32 x := by
  unfold ck32 ckRange S32; split <;> simp_all

theorem toS24_eq {x : Int} (h : S24 x) : toS24 x = x := by
  unfold toS24 S24 at *; omega
theorem toS16_eq {x : Int} (h : S16 x) : toS16 x = x := by
  unfold toS16 S16 at *; omega
theorem toS24_range (x : Int) : S24 (toS24 x) := by
  unfold toS24 S24; omega
theorem toS16_range (x : Int) : S16 (toS16 x) := by
  unfold toS16 S16; omega

/-! ### truncating division -/

theorem tdiv_spec (a b : Int) (hb : b ≠ 0) :
    (0 ≤ a → 0 ≤ a - a.tdiv b * b ∧ a - a.tdiv b * b < b.natAbs) ∧
    (a ≤ 0 → a - a.tdiv b * b ≤ 0 ∧ -(b.natAbs : Int) < a - a.tdiv b * b) := by
  have h : a - a.tdiv b * b = a.tmod b := by
    have := Int.mul_tdiv_add_tmod a b
    have h2 : a.tdiv b * b = b * a.tdiv b := Int.mul_comm _ _
    omega
  rw [h]
  constructor
  · intro ha
    exact ⟨Int.tmod_nonneg b ha, by
      have := Int.tmod_lt_of_pos a (b := (b.natAbs : Int)) (by omega)
      rcases Int.natAbs_eq b with hb' | hb'
      · rw [← hb'] at this; omega
      · have h3 : a.tmod b = a.tmod (b.natAbs : Int) := by
          conv => lhs; rw [hb']
          exact Int.tmod_neg ..
        omega⟩
  · intro ha
    have h4 : (-a).tmod b = -(a.tmod b) := Int.neg_tmod ..
    have h5 := Int.tmod_nonneg b (a := -a) (by omega)
    refine ⟨by omega, ?_⟩
    have := Int.tmod_lt_of_pos (-a) (b := (b.natAbs : Int)) (by omega)
    rcases Int.natAbs_eq b with hb' | hb'
    · rw [← hb'] at this; omega
    · have h3 : (-a).tmod b = (-a).tmod (b.natAbs : Int) := by
        conv => lhs; rw [hb']
        exact Int.tmod_neg ..
      omega

theorem tdiv_nonneg_pos {a b : Int} (ha : 0 ≤ a) : a.tdiv b = a / b :=
  Int.tdiv_eq_ediv_of_nonneg ha

theorem tdiv_two (b : Int) : b.tdiv 2 = if 0 ≤ b then b / 2 else -((-b) / 2) := by
  split
  · exact Int.tdiv_eq_ediv_of_nonneg (by assumption)
  · rename_i h
    have : b.tdiv 2 = -((-b).tdiv 2) := by rw [Int.neg_tdiv]; omega
    rw [this, Int.tdiv_eq_ediv_of_nonneg (by omega)]

theorem natAbs_tdiv_le (a b : Int) : (a.tdiv b).natAbs ≤ a.natAbs := by
  rw [Int.natAbs_tdiv]; exact Nat.div_le_self _ _

/-- truncating division by a positive literal, for `omega` -/
theorem tdiv_pos_eq (a b : Int) : a.tdiv b = if 0 ≤ a then a / b else -((-a) / b) := by
  split
  · exact Int.tdiv_eq_ediv_of_nonneg (by assumption)
  · have : a.tdiv b = -((-a).tdiv b) := by rw [Int.neg_tdiv]; omega
    rw [this, Int.tdiv_eq_ediv_of_nonneg (by omega)]

/-! ### rounding -/

theorem mul_zero_or_large (n b : Int) : n * b = 0 ∨ b.natAbs ≤ (n * b).natAbs := by
  by_cases h : n = 0
  · simp [h]
  · right
    rw [Int.natAbs_mul]
    exact Nat.le_mul_of_pos_left _ (by omega)

theorem NearestAway.unique {a b n m : Int} (hb : b ≠ 0)
    (hn : NearestAway a b n) (hm : NearestAway a b m) : n = m := by
  obtain ⟨h1, h2⟩ := hn
  obtain ⟨h3, h4⟩ := hm
  by_contra hne
  have key : ((n - m) * b).natAbs = (n-m).natAbs * b.natAbs := Int.natAbs_mul _ _
  have hd : (n - m) * b = n * b - m * b := Int.sub_mul ..
  have h5 : 1 ≤ (n-m).natAbs := by omega
  have h6 : b.natAbs ≤ (n-m).natAbs * b.natAbs := Nat.le_mul_of_pos_left _ h5
  have hb' : 0 < b.natAbs := by omega
  have hx := mul_zero_or_large n b
  have hy := mul_zero_or_large m b
  generalize n * b = x at *
  generalize m * b = y at *
  generalize (n-m).natAbs * b.natAbs = z at *
  generalize b.natAbs = B at *
  by_cases t1 : 2 * (a - x).natAbs = B
  · by_cases t2 : 2 * (a - y).natAbs = B
    · have := h2 t1; have := h4 t2; omega
    · omega
  · omega

theorem NearestUp.unique {a b n m : Int} (_hb : 0 < b)
    (hn : NearestUp a b n) (hm : NearestUp a b m) : n = m := by
  unfold NearestUp at *
  rcases lt_trichotomy n m with h | h | h
  · nlinarith
  · exact h
  · nlinarith

/-- The "add half the divisor, then truncate" idiom is nearest rounding. -/
theorem nearestAway_tdiv (a b : Int) (hb : b ≠ 0) :
    NearestAway a b
      ((if (a ≥ 0 ∧ b ≥ 0) ∨ (a < 0 ∧ b < 0) then a + b.tdiv 2 else a - b.tdiv 2).tdiv b) := by
  rw [tdiv_two]
  split_ifs with h1 h2 h2
  · -- a ≥ 0, b ≥ 0
    have ha : 0 ≤ a := by omega
    obtain ⟨h3, -⟩ := tdiv_spec (a + b/2) b hb
    have h3 := h3 (by omega)
    generalize hq : (a + b/2).tdiv b = q at *
    unfold NearestAway
    generalize q * b = x at *
    omega
  · have ha : a < 0 := by omega
    obtain ⟨-, h3⟩ := tdiv_spec (a + -(-b/2)) b hb
    have h3 := h3 (by omega)
    generalize (a + -(-b/2)).tdiv b = q at *
    unfold NearestAway
    generalize q * b = x at *
    omega
  · have ha : a < 0 := by omega
    obtain ⟨-, h3⟩ := tdiv_spec (a - b/2) b hb
    have h3 := h3 (by omega)
    generalize (a - b/2).tdiv b = q at *
    unfold NearestAway
    generalize q * b = x at *
    omega
  · have ha : 0 ≤ a := by omega
    obtain ⟨h3, -⟩ := tdiv_spec (a - -(-b/2)) b hb
    have h3 := h3 (by omega)
    generalize (a - -(-b/2)).tdiv b = q at *
    unfold NearestAway
    generalize q * b = x at *
    omega

/-- Nearest rounding is monotone in the dividend (positive divisor). -/
theorem NearestAway.mono {a a' b n n' : Int} (hb : 0 < b) (h : a ≤ a')
    (hn : NearestAway a b n) (hn' : NearestAway a' b n') : n ≤ n' := by
  obtain ⟨h1, h2⟩ := hn
  obtain ⟨h3, h4⟩ := hn'
  by_contra hlt
  have key : n' * b + b ≤ n * b := by nlinarith
  have hx := mul_zero_or_large n b
  have hy := mul_zero_or_large n' b
  generalize n * b = x at *
  generalize n' * b = y at *
  by_cases t : 2 * (a - x).natAbs = b.natAbs
  · have := h2 t
    by_cases t' : 2 * (a' - y).natAbs = b.natAbs
    · have := h4 t'; omega
    · omega
  · by_cases t' : 2 * (a' - y).natAbs = b.natAbs
    · have := h4 t'; omega
    · omega

theorem NearestUp.mono {a a' b n n' : Int} (hb : 0 < b) (h : a ≤ a')
    (hn : NearestUp a b n) (hn' : NearestUp a' b n') : n ≤ n' := by
  unfold NearestUp at *
  by_contra hlt
  nlinarith

theorem natAbs_mul_le {a b : Int} {A B : Nat} (ha : a.natAbs ≤ A) (hb : b.natAbs ≤ B) :
    (a * b).natAbs ≤ A * B := by
  rw [Int.natAbs_mul]; exact Nat.mul_le_mul ha hb

end Verif
