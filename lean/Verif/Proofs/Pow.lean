import Verif.Model.Util
import Verif.Proofs.Arith
/-
Correctness of the square-and-multiply loops of pow_int (helper lemmas).
-/
namespace Verif

theorem pow_S32_of_le {b : Int} {m E : Nat} (h : S32 (b ^ E)) (hm : m ≤ E) (hm0 : m = E ∨ m < E) :
    S32 (b ^ m) := by
  rcases hm0 with rfl | hlt
  · exact h
  have habs : (b ^ m).natAbs = b.natAbs ^ m := Int.natAbs_pow b m
  have habsE : (b ^ E).natAbs = b.natAbs ^ E := Int.natAbs_pow b E
  have hE : b.natAbs ^ E ≤ 2147483648 := by unfold S32 at h; omega
  rcases Nat.lt_or_ge b.natAbs 2 with hb | hb
  · have : b.natAbs ^ m ≤ 1 := by
      have : b.natAbs = 0 ∨ b.natAbs = 1 := by omega
      rcases this with h0 | h0
      · rw [h0]; cases m <;> simp
      · rw [h0]; simp
    unfold S32; omega
  · have h1 : b.natAbs ^ (m + 1) ≤ b.natAbs ^ E := Nat.pow_le_pow_right (by omega) (by omega)
    have h2 : b.natAbs ^ (m + 1) = b.natAbs ^ m * b.natAbs := Nat.pow_succ ..
    have h3 : b.natAbs ^ m * 2 ≤ b.natAbs ^ m * b.natAbs := Nat.mul_le_mul_left _ hb
    unfold S32; omega

theorem pow_S32_le {b : Int} {m E : Nat} (h : S32 (b ^ E)) (hm : m ≤ E) : S32 (b ^ m) :=
  pow_S32_of_le h hm (by omega)

theorem powLoop_eq (b : Int) : ∀ (fuel m n e : Nat), e < 2 ^ fuel →
    S32 (b ^ (n + 2 * m * e)) →
    powLoop (fuel + 1) (b ^ m) (b ^ n) e = some (b ^ (n + 2 * m * e)) := by
  intro fuel
  induction fuel with
  | zero =>
    intro m n e he _
    have : e = 0 := by omega
    subst this; simp [powLoop]
  | succ fuel ih =>
    intro m n e he hS
    rw [powLoop]
    split_ifs with h0 h1
    · subst h0; simp
    · -- odd
      have hme : 2 * m ≤ n + 2 * m * e := by
        have : 2 * m * 1 ≤ 2 * m * e := Nat.mul_le_mul_left _ (by omega)
        omega
      have hsq : b ^ m * b ^ m = b ^ (2 * m) := by rw [two_mul, pow_add]
      have hy : b ^ n * b ^ (2 * m) = b ^ (n + 2 * m) := by rw [pow_add]
      have hdec : n + 2 * m * e = (n + 2 * m) + 2 * (2 * m) * (e / 2) := by
        have : e = 2 * (e / 2) + 1 := by omega
        conv => lhs; rw [this]
        ring
      have hny : n + 2 * m ≤ n + 2 * m * e := by
        have : 2 * m * 1 ≤ 2 * m * e := Nat.mul_le_mul_left _ (by omega)
        omega
      rw [hsq, ck32_eq (pow_S32_le hS hme)]
      simp only [Option.bind_eq_bind, Option.bind_some]
      rw [hy, ck32_eq (pow_S32_le hS hny)]
      simp only [Option.bind_some]
      rw [ih (2 * m) (n + 2 * m) (e / 2) (by omega) (by rw [← hdec]; exact hS), ← hdec]
    · have hme : 2 * m ≤ n + 2 * m * e := by
        have : 2 * m * 1 ≤ 2 * m * e := Nat.mul_le_mul_left _ (by omega)
        omega
      have hsq : b ^ m * b ^ m = b ^ (2 * m) := by rw [two_mul, pow_add]
      have hdec : n + 2 * m * e = n + 2 * (2 * m) * (e / 2) := by
        have : e = 2 * (e / 2) := by omega
        conv => lhs; rw [this]
        ring
      rw [hsq, ck32_eq (pow_S32_le hS hme)]
      simp only [Option.bind_eq_bind, Option.bind_some]
      rw [ih (2 * m) n (e / 2) (by omega) (by rw [← hdec]; exact hS), ← hdec]

theorem powStrip_eq (b : Int) : ∀ (fuel m e : Nat), e ≠ 0 → e < 2 ^ fuel →
    S32 (b ^ (m * e)) →
    ∃ m' e', powStrip (fuel + 1) (b ^ m) e = some (b ^ m', e') ∧ e' % 2 = 1 ∧
      m' * e' = m * e ∧ e' ≤ e := by
  intro fuel
  induction fuel with
  | zero => intro m e h0 h1; omega
  | succ fuel ih =>
    intro m e h0 h1 hS
    rw [powStrip]
    split_ifs with h2
    · have hdec : m * e = (2 * m) * (e / 2) := by
        have : e = 2 * (e / 2) := by omega
        conv => lhs; rw [this]
        ring
      have hme : 2 * m ≤ m * e := by
        rw [hdec]
        have : 2 * m * 1 ≤ 2 * m * (e / 2) := Nat.mul_le_mul_left _ (by omega)
        omega
      have hsq : b ^ m * b ^ m = b ^ (2 * m) := by rw [two_mul, pow_add]
      rw [hsq, ck32_eq (pow_S32_le hS hme)]
      simp only [Option.bind_eq_bind, Option.bind_some]
      obtain ⟨m', e', h3, h4, h5, h6⟩ := ih (2 * m) (e / 2) (by omega) (by omega)
        (by rw [← hdec]; exact hS)
      exact ⟨m', e', h3, h4, by rw [h5, hdec], by omega⟩
    · exact ⟨m, e, rfl, by omega, rfl, le_refl _⟩

end Verif
