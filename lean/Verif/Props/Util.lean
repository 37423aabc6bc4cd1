import Verif.Proofs.Pow
/-
Property theorems C07, C08: integer helpers (util.h, util.c).
-/
namespace Verif.Props
open Verif Verif.Spec

/-! ### C07 pow_int -/

theorem C07_pow_int (b : Int) (e : Nat) (he : e ≤ 255) (h : S32 (b ^ e)) :
    powInt b e = some (b ^ e) := by
  unfold powInt
  split_ifs with h0
  · subst h0; simp
  · obtain ⟨m', e', h1, h2, h3, h4⟩ := powStrip_eq b 8 1 e h0 (by omega) (by simpa using h)
    rw [pow_one] at h1
    simp only [h1, Option.bind_eq_bind, Option.bind_some]
    have hsum : m' + 2 * m' * (e' / 2) = e := by
      have h5 : e' = 2 * (e' / 2) + 1 := by omega
      rw [h5] at h3
      have : m' * (2 * (e' / 2) + 1) = m' + 2 * m' * (e' / 2) := by ring
      omega
    rw [powLoop_eq b 8 m' m' (e' / 2) (by omega) (by rw [hsum]; exact h), hsum]

example : S32 ((10 : Int) ^ 9) ∧ powInt 10 9 = some 1000000000 := by decide
example : S32 ((-2 : Int) ^ 31) ∧ powInt (-2) 31 = some (-2147483648) := by decide
-- outside: 10^10 does not fit and the code overflows
example : powInt 10 10 = none := by decide

/-! ### C08 rounding divisions

`ck` is the overflow check of the operands' type; the hypotheses say that the exact
intermediate values fit that type. -/

theorem C08_sdiv_round_up (lo hi x d : Int) (hd : d ≠ 0)
    (hx : lo ≤ x ∧ x ≤ hi) (h0 : lo = -hi - 1)
    (hsum : 0 ≤ x → 0 < d → x + d ≤ hi) (hsum' : x < 0 → d < 0 → lo ≤ x + d) :
    ∃ n, sdivRoundUp (ckRange lo hi) x d = some n ∧ IsCeil x d n := by
  unfold sdivRoundUp
  rw [if_neg hd]
  by_cases h1 : (x < 0 ∧ ¬ d < 0) ∨ (¬ x < 0 ∧ d < 0)
  · rw [if_pos h1]
    have b0 := natAbs_tdiv_le x d
    obtain ⟨s1, s2⟩ := tdiv_spec x d hd
    refine ⟨x.tdiv d, ckRange_eq ?_, ?_⟩
    · rcases h1 with ⟨h1, h2⟩ | ⟨h1, h2⟩
      · have : x.tdiv d ≤ 0 := by
          by_contra hc
          have h3 := s2 (by omega)
          have h4 : 1 * d ≤ x.tdiv d * d :=
            Int.mul_le_mul_of_nonneg_right (by omega) (by omega)
          omega
        omega
      · omega
    · unfold IsCeil
      have e1 : (x.tdiv d - 1) * d = x.tdiv d * d - d := by ring
      rw [e1]
      generalize x.tdiv d * d = q at *
      split_ifs <;> omega
  rw [if_neg h1]
  by_cases h2 : x < 0 ∧ d < 0
  · rw [if_pos h2]
    have b1 := natAbs_tdiv_le (x + d + 1) d
    obtain ⟨-, s4⟩ := tdiv_spec (x + d + 1) d hd
    have e1 : ckRange lo hi (x + d) = some (x + d) := ckRange_eq (by omega)
    have e2 : ckRange lo hi (x + d + 1) = some (x + d + 1) := ckRange_eq (by omega)
    refine ⟨(x + d + 1).tdiv d, ?_, ?_⟩
    · simp only [e1, e2, Option.bind_eq_bind, Option.bind_some]
      exact ckRange_eq (by omega)
    · unfold IsCeil
      have h3 := s4 (by omega)
      have e1 : ((x + d + 1).tdiv d - 1) * d = (x + d + 1).tdiv d * d - d := by ring
      rw [e1]
      generalize (x + d + 1).tdiv d * d = q at *
      split_ifs <;> omega
  · rw [if_neg h2]
    have hx0 : 0 ≤ x := by omega
    have hd0 : 0 < d := by omega
    have b2 := natAbs_tdiv_le (x + d - 1) d
    obtain ⟨s5, -⟩ := tdiv_spec (x + d - 1) d hd
    have e1 : ckRange lo hi (x + d) = some (x + d) := ckRange_eq (by omega)
    have e2 : ckRange lo hi (x + d - 1) = some (x + d - 1) := ckRange_eq (by omega)
    refine ⟨(x + d - 1).tdiv d, ?_, ?_⟩
    · simp only [e1, e2, Option.bind_eq_bind, Option.bind_some]
      exact ckRange_eq (by omega)
    · unfold IsCeil
      have h3 := s5 (by omega)
      have e1 : ((x + d - 1).tdiv d - 1) * d = (x + d - 1).tdiv d * d - d := by ring
      rw [e1]
      generalize (x + d - 1).tdiv d * d = q at *
      split_ifs <;> omega

theorem C08_sdiv_round (lo hi x d : Int) (hd : d ≠ 0)
    (hfit : (x.natAbs : Int) + d.natAbs / 2 ≤ hi) (hlo : lo ≤ -hi) :
    ∃ n, sdivRound (ckRange lo hi) x d = some n ∧ NearestAway x d n := by
  have hs := nearestAway_tdiv x d hd
  have t2 := tdiv_two d
  refine ⟨_, ?_, hs⟩
  unfold sdivRound
  rw [if_neg hd]
  have hle := natAbs_tdiv_le (if (x ≥ 0 ∧ d ≥ 0) ∨ (x < 0 ∧ d < 0) then x + d.tdiv 2
    else x - d.tdiv 2) d
  by_cases h : (x ≥ 0 ∧ d ≥ 0) ∨ (x < 0 ∧ d < 0)
  · have h' : ¬ ((x < 0 ∧ ¬ d < 0) ∨ (¬ x < 0 ∧ d < 0)) := by omega
    rw [if_pos h] at hle ⊢
    rw [if_neg h']
    have hb : (x + d.tdiv 2).natAbs ≤ x.natAbs + d.natAbs / 2 := by split_ifs at t2 <;> omega
    rw [ckRange_eq (by omega), Option.bind_eq_bind, Option.bind_some, ckRange_eq (by omega)]
  · have h' : (x < 0 ∧ ¬ d < 0) ∨ (¬ x < 0 ∧ d < 0) := by omega
    rw [if_neg h] at hle ⊢
    rw [if_pos h']
    have hb : (x - d.tdiv 2).natAbs ≤ x.natAbs + d.natAbs / 2 := by split_ifs at t2 <;> omega
    rw [ckRange_eq (by omega), Option.bind_eq_bind, Option.bind_some, ckRange_eq (by omega)]

theorem C08_udiv_round_up (m x d : Int) (hd : 0 < d) (hx : 0 ≤ x) (hfit : x + d < m) :
    ∃ n, udivRoundUp m x d = some n ∧ IsCeil x d n := by
  refine ⟨(x + d - 1) / d, ?_, ?_⟩
  · unfold udivRoundUp
    rw [if_neg (by omega), Int.emod_eq_of_lt (a := x + d) (by omega) (by omega),
      Int.emod_eq_of_lt (by omega) (by omega)]
  · unfold IsCeil
    rw [if_pos hd]
    have e1 := Int.mul_ediv_add_emod (x + d - 1) d
    have e2 := Int.emod_lt_of_pos (x + d - 1) hd
    have e3 := Int.emod_nonneg (x + d - 1) (b := d) (by omega)
    have e4 : ((x + d - 1) / d - 1) * d = d * ((x + d - 1) / d) - d := by ring
    have e5 : (x + d - 1) / d * d = d * ((x + d - 1) / d) := by ring
    rw [e4, e5]; omega

theorem C08_udiv_round (m x d : Int) (hd : 0 < d) (hx : 0 ≤ x) (hfit : x + d / 2 < m) :
    ∃ n, udivRound m x d = some n ∧ NearestAway x d n := by
  refine ⟨(x + d / 2) / d, ?_, ?_⟩
  · unfold udivRound
    rw [if_neg (by omega), Int.emod_eq_of_lt (by omega) (by omega)]
  · unfold NearestAway
    have e1 := Int.mul_ediv_add_emod (x + d / 2) d
    have e2 := Int.emod_lt_of_pos (x + d / 2) hd
    have e3 := Int.emod_nonneg (x + d / 2) (b := d) (by omega)
    have e5 : (x + d / 2) / d * d = d * ((x + d / 2) / d) := by ring
    rw [e5]
    generalize d * ((x + d / 2) / d) = q at *
    omega

/-- `round_up(n, s)` is the least multiple of `s` that is at least `n`. -/
theorem C08_round_up (n s : Int) (hs : 0 < s) :
    (∃ k, roundUpMacro n s = k * s) ∧ n ≤ roundUpMacro n s ∧
    ∀ k, n ≤ k * s → roundUpMacro n s ≤ k * s := by
  unfold roundUpMacro
  have e1 := Int.mul_ediv_add_emod (n + s - 1) s
  have e2 := Int.emod_lt_of_pos (n + s - 1) hs
  have e3 := Int.emod_nonneg (n + s - 1) (b := s) (by omega)
  refine ⟨⟨_, rfl⟩, ?_, fun k hk => ?_⟩
  · have e5 : (n + s - 1) / s * s = s * ((n + s - 1) / s) := by ring
    omega
  · have hkq : (n + s - 1) / s ≤ k := by
      by_contra hc
      have : k + 1 ≤ (n + s - 1) / s := by omega
      nlinarith
    exact Int.mul_le_mul_of_nonneg_right hkq (by omega)

-- -7/2 rounded up is -3, 7/2 rounded to nearest is 4, -7/2 is -4
example : sdivRoundUp ck32 (-7) 2 = some (-3) ∧ sdivRoundUp ck32 7 2 = some 4 ∧
    sdivRoundUp ck32 (-7) (-2) = some 4 := by decide
example : sdivRound ck32 7 2 = some 4 ∧ sdivRound ck32 (-7) 2 = some (-4) ∧
    sdivRound ck32 0 (-2) = some 0 := by decide
example : udivRoundUp 65536 7 2 = some 4 ∧ udivRound 65536 5 2 = some 3 ∧
    roundUpMacro 13 8 = 16 := by decide

end Verif.Props
