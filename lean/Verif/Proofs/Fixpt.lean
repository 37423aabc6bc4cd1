import Verif.Model.Fixpt
import Verif.Proofs.Arith
/-
Closed forms for the fixed-point operations (helper lemmas).
-/
namespace Verif
open Spec

theorem FIXPT_MAX_eq : FIXPT_MAX = 8388607 := by decide
theorem FIXPT_MIN_eq : FIXPT_MIN = -8388607 := by decide
theorem FIXPTBIG_MAX_eq : FIXPTBIG_MAX = -1 := by decide
theorem FIXPTBIG_MIN_eq : FIXPTBIG_MIN = 1 := by decide

theorem fixptDeflate_eq (x : Int) : fixptDeflate x = sat x := by
  unfold fixptDeflate sat toS24
  rw [FIXPT_MAX_eq, FIXPT_MIN_eq]
  split_ifs <;> omega

theorem sat_range (x : Int) : -8388607 ≤ sat x ∧ sat x ≤ 8388607 := by
  unfold sat; omega

theorem sat_S24 (x : Int) : S24 (sat x) := by
  unfold sat S24; omega

theorem sat_eq {x : Int} (h1 : -8388607 ≤ x) (h2 : x ≤ 8388607) : sat x = x := by
  unfold sat; omega

theorem sat_mono {x y : Int} (h : x ≤ y) : sat x ≤ sat y := by
  unfold sat; omega

/-- nearest division, as a function (helper; the specification is `NearestAway`) -/
def rdiv (a b : Int) : Int :=
  (if (a ≥ 0 ∧ b ≥ 0) ∨ (a < 0 ∧ b < 0) then a + b.tdiv 2 else a - b.tdiv 2).tdiv b

theorem rdiv_spec (a b : Int) (hb : b ≠ 0) : NearestAway a b (rdiv a b) :=
  nearestAway_tdiv a b hb

theorem rdiv_natAbs_le (a b : Int) (hb : b ≠ 0) : (rdiv a b).natAbs ≤ a.natAbs := by
  obtain ⟨h1, h2⟩ := rdiv_spec a b hb
  generalize rdiv a b = n at *
  by_contra hlt
  have hpos : 0 < b.natAbs := by omega
  have hmul : (n * b).natAbs = n.natAbs * b.natAbs := Int.natAbs_mul _ _
  have h3 : (a.natAbs + 1) * b.natAbs ≤ n.natAbs * b.natAbs :=
    Nat.mul_le_mul_right _ (by omega)
  have h4 : a.natAbs * 1 ≤ a.natAbs * b.natAbs := Nat.mul_le_mul_left _ hpos
  have h5 : (a.natAbs + 1) * b.natAbs = a.natAbs * b.natAbs + b.natAbs := by ring
  omega

theorem rdiv_mono {a a' b : Int} (hb : 0 < b) (h : a ≤ a') : rdiv a b ≤ rdiv a' b :=
  NearestAway.mono hb h (rdiv_spec _ _ (by omega)) (rdiv_spec _ _ (by omega))

theorem rdiv_eq {a b n : Int} (hb : b ≠ 0) (h : NearestAway a b n) : rdiv a b = n :=
  NearestAway.unique hb (rdiv_spec _ _ hb) h

theorem rdiv_pos (a b : Int) (hb : 0 < b) :
    rdiv a b = if 0 ≤ a then (a + b / 2) / b else -((-a + b / 2) / b) := by
  apply rdiv_eq (by omega)
  have e1 := Int.mul_ediv_add_emod (a + b/2) b
  have e2 := Int.emod_lt_of_pos (a + b/2) hb
  have e3 := Int.emod_nonneg (a + b/2) (b := b) (by omega)
  have f1 := Int.mul_ediv_add_emod (-a + b/2) b
  have f2 := Int.emod_lt_of_pos (-a + b/2) hb
  have f3 := Int.emod_nonneg (-a + b/2) (b := b) (by omega)
  unfold NearestAway
  split_ifs with h
  · have : (a + b/2) / b * b = b * ((a + b/2) / b) := by ring
    generalize (a + b/2) / b * b = x at *
    generalize b * ((a + b/2) / b) = y at *
    omega
  · have : -((-a + b/2) / b) * b = -(b * ((-a + b/2) / b)) := by ring
    generalize -((-a + b/2) / b) * b = x at *
    generalize b * ((-a + b/2) / b) = y at *
    omega

theorem rdiv_zero (b : Int) : rdiv 0 b = 0 := by
  by_cases hb : b = 0
  · subst hb; decide
  · exact rdiv_eq hb (by unfold NearestAway; simp; omega)

theorem rdiv_mul_self (n b : Int) (hb : b ≠ 0) : rdiv (n * b) b = n :=
  rdiv_eq hb (by unfold NearestAway; simp; omega)

theorem fixptBigMul_eq {a b : Int} (h1 : S32 (a * b)) (h2 : S32 (a * b + 32)) :
    fixptBigMul a b = some ((a * b + 32) / 64) := by
  simp [fixptBigMul, ck32_eq h1, ck32_eq h2]

theorem fixptBigDiv_eq {a b : Int} (hb : b ≠ 0) (h1 : S32 (a * 64))
    (h2 : (a * 64).natAbs + b.natAbs / 2 ≤ 2147483647) :
    fixptBigDiv a b = some (rdiv (a * 64) b) := by
  have hle := rdiv_natAbs_le (a * 64) b hb
  have h3 : S32 (rdiv (a * 64) b) := by unfold S32; omega
  have h4 : S32 (a * 64 + b.tdiv 2) := by rw [tdiv_two]; unfold S32; split <;> omega
  have h5 : S32 (a * 64 - b.tdiv 2) := by rw [tdiv_two]; unfold S32; split <;> omega
  simp only [fixptBigDiv, hb, if_false, ck32_eq h1, ck32_eq h4, ck32_eq h5,
    Option.bind_eq_bind, Option.bind_some]
  unfold rdiv at h3 ⊢
  split_ifs with h
  · rw [if_pos h] at h3; exact ck32_eq h3
  · rw [if_neg h] at h3; exact ck32_eq h3

theorem fixptAdd_eq {a b : Int} (ha : S24 a) (hb : S24 b) :
    fixptAdd a b = some (sat (a + b)) := by
  have : S32 (a + b) := by unfold S24 S32 at *; omega
  simp [fixptAdd, fixptBigAdd, ck32_eq this, fixptDeflate_eq]

theorem fixptSub_eq {a b : Int} (ha : S24 a) (hb : S24 b) :
    fixptSub a b = some (sat (a - b)) := by
  have : S32 (a - b) := by unfold S24 S32 at *; omega
  simp [fixptSub, fixptBigSub, ck32_eq this, fixptDeflate_eq]

theorem fixptMul_eq {a b : Int} (h1 : S32 (a * b)) (h2 : S32 (a * b + 32)) :
    fixptMul a b = some (sat ((a * b + 32) / 64)) := by
  simp [fixptMul, fixptBigMul_eq h1 h2, fixptDeflate_eq]

theorem fixptDiv_eq {a b : Int} (ha : S24 a) (hb : S24 b) (h0 : b ≠ 0) :
    fixptDiv a b = some (sat (rdiv (a * 64) b)) := by
  unfold S24 at *
  simp [fixptDiv, fixptBigDiv_eq (a := a) (b := b) h0 (by unfold S32; omega) (by omega),
    fixptDeflate_eq]

theorem fixptDiv_zero (a : Int) : fixptDiv a 0 = some (if a < 0 then 1 else -1) := by
  simp only [fixptDiv, fixptBigDiv, if_true, FIXPTBIG_MIN_eq, FIXPTBIG_MAX_eq]
  split <;> simp [fixptDeflate_eq, sat]

end Verif
