import Verif.Model.Filter
import Verif.Proofs.Fixpt
/-
Helper lemmas for the low-pass filters.
-/
namespace Verif
open Spec

/-- accumulator after a list of inputs -/
def lpU16Runs (shift : Nat) (buf : Int) : List Int → Int
  | [] => buf
  | x :: xs => lpU16Runs shift (lpU16Run buf x shift).1 xs

/-- one exact (wrap-free) step of the integer filter -/
def lpStep (buf inp : Int) (P : Int) : Int := buf - buf / P + inp

theorem div_bounds (b P : Int) (hP : 0 < P) : b / P * P ≤ b ∧ b < (b / P + 1) * P := by
  have h1 := Int.mul_ediv_add_emod b P
  have h2 := Int.emod_lt_of_pos b hP
  have h3 := Int.emod_nonneg b (b := P) (by omega)
  constructor <;> nlinarith

theorem lpStep_upper {b x M P : Int} (hP : 0 < P) (hb : b ≤ M * P) (hx : x ≤ M) :
    lpStep b x P ≤ M * P := by
  unfold lpStep
  obtain ⟨h1, h2⟩ := div_bounds b P hP
  generalize b / P = q at *
  by_cases h : q < M
  · nlinarith
  · nlinarith

theorem lpStep_lower {b x m P : Int} (hP : 0 < P) (hb : m * P ≤ b) (hx : m ≤ x) :
    m * P ≤ lpStep b x P := by
  unfold lpStep
  obtain ⟨h1, h2⟩ := div_bounds b P hP
  have h3 : m ≤ b / P := by
    rw [Int.le_ediv_iff_mul_le hP]; exact hb
  generalize b / P = q at *
  nlinarith

theorem two_pow_pos (n : Nat) : (0 : Int) < 2 ^ n := by positivity

theorem lpU16Run_eq {b x M : Int} {s : Nat} (hs : s ≤ 8) (hM : M ≤ 65535)
    (hb0 : 0 ≤ b) (hb : b ≤ M * 2 ^ s) (hx0 : 0 ≤ x) (hx : x ≤ M) :
    lpU16Run b x s = (lpStep b x (2 ^ s), lpStep b x (2 ^ s) / 2 ^ s) := by
  have hP := two_pow_pos s
  have hup := lpStep_upper hP hb hx
  have hlo : 0 ≤ lpStep b x (2 ^ s) := by
    have := lpStep_lower (m := 0) hP (by simpa using hb0) hx0
    simpa using this
  have hP256 : (2:Int) ^ s ≤ 256 := by
    calc (2:Int)^s ≤ 2^8 := by gcongr; norm_num
      _ = 256 := by norm_num
  have hMP : M * 2 ^ s ≤ 65535 * 256 := by nlinarith
  obtain ⟨d1, d2⟩ := div_bounds b _ hP
  have dq0 : 0 ≤ b / 2 ^ s := Int.ediv_nonneg hb0 (by omega)
  have dq : b / 2 ^ s ≤ b := Int.ediv_le_self _ hb0
  have hout : lpStep b x (2 ^ s) / 2 ^ s ≤ M := by
    apply Int.ediv_le_of_le_mul hP hup
  have hout0 : 0 ≤ lpStep b x (2 ^ s) / 2 ^ s := Int.ediv_nonneg hlo (by omega)
  have e1 : toU24 (b - b / 2 ^ s) = b - b / 2 ^ s := by unfold toU24; omega
  have e2 : toU24 (b - b / 2 ^ s + x) = lpStep b x (2 ^ s) := by
    unfold lpStep at *; unfold toU24; omega
  unfold lpU16Run
  simp only [e1, e2]
  congr 1
  unfold toU16 cMin
  split <;> omega

/-- constant input: the accumulator moves monotonically to the output band -/
theorem lpStep_const (b x P : Int) (hP : 0 < P) :
    (b / P = x → lpStep b x P = b) ∧
    (b / P < x → b < lpStep b x P ∧ lpStep b x P ≤ x * P) ∧
    (x < b / P → lpStep b x P < b ∧ x * P ≤ lpStep b x P) := by
  refine ⟨fun h => by unfold lpStep; omega, fun h => ⟨by unfold lpStep; omega, ?_⟩,
    fun h => ⟨by unfold lpStep; omega, ?_⟩⟩
  · apply lpStep_upper hP _ le_rfl
    obtain ⟨h1, h2⟩ := div_bounds b P hP
    generalize b / P = q at *
    nlinarith
  · apply lpStep_lower hP _ le_rfl
    obtain ⟨h1, h2⟩ := div_bounds b P hP
    generalize b / P = q at *
    nlinarith

/-! ### fixed-point filter with divisor `k` (as a whole number) -/

theorem rdiv_scale64 (a k : Int) (hk : 0 < k) : rdiv (a * 64) (k * 64) = rdiv a k := by
  apply rdiv_eq (by omega)
  obtain ⟨h1, h2⟩ := rdiv_spec a k (by omega)
  generalize rdiv a k = n at *
  unfold NearestAway
  have e : n * (k * 64) = n * k * 64 := by ring
  rw [e]
  generalize n * k = x at *
  omega

theorem rdiv_band (a k : Int) (hk : 0 < k) :
    2 * a ≤ 2 * (rdiv a k * k) + k ∧ 2 * (rdiv a k * k) - k ≤ 2 * a ∧
    (0 ≤ a → 2 * a < 2 * (rdiv a k * k) + k) := by
  obtain ⟨h1, h2⟩ := rdiv_spec a k (by omega)
  have hz := mul_zero_or_large (rdiv a k) k
  generalize rdiv a k * k = x at *
  omega

theorem rdiv_nonneg {a k : Int} (hk : 0 < k) (ha : 0 ≤ a) : 0 ≤ rdiv a k := by
  have := rdiv_mono hk ha
  rwa [rdiv_zero] at this

theorem rdiv_le_self {a k : Int} (hk : 0 < k) (ha : 0 ≤ a) : rdiv a k ≤ a := by
  have h1 := rdiv_natAbs_le a k (by omega)
  have := rdiv_nonneg hk ha
  omega

/-- one exact step of the fixed-point filter -/
def lfStep (b x k : Int) : Int := b - rdiv b k + x

theorem lfStep_upper {b x M k : Int} (hk : 0 < k) (hb0 : 0 ≤ b) (hb : 2 * b < 2 * (M * k) + k)
    (hx : x ≤ M) : 2 * lfStep b x k < 2 * (M * k) + k ∧ rdiv b k ≤ M := by
  obtain ⟨h1, h2, h3⟩ := rdiv_band b k hk
  have hq : rdiv b k ≤ M := by
    by_contra hlt
    nlinarith
  refine ⟨?_, hq⟩
  unfold lfStep
  have h3 := h3 hb0
  generalize rdiv b k = q at *
  nlinarith

theorem lfStep_nonneg {b x k : Int} (hk : 0 < k) (hb0 : 0 ≤ b) (hx : 0 ≤ x) :
    0 ≤ lfStep b x k := by
  unfold lfStep
  have := rdiv_le_self hk hb0
  omega

theorem lpFixptRun_eq {b x M k : Int} (hk : 0 < k) (hM : M * k + k ≤ 8388607)
    (hb0 : 0 ≤ b) (hb : 2 * b < 2 * (M * k) + k) (hx0 : 0 ≤ x) (hx : x ≤ M) (hk2 : k * 64 ≤ 8388607) :
    lpFixptRun b x (k * 64) = some (lfStep b x k, rdiv (lfStep b x k) k) := by
  obtain ⟨u1, u2⟩ := lfStep_upper hk hb0 hb hx
  have l1 := lfStep_nonneg hk hb0 hx0
  have r1 := rdiv_nonneg hk hb0
  have r2 := rdiv_le_self hk hb0
  have r3 := rdiv_nonneg hk l1
  have r4 := rdiv_le_self hk l1
  have hMk : M ≤ M * k := by nlinarith
  unfold lpFixptRun
  rw [fixptDiv_eq (by unfold S24; omega) (by unfold S24; omega) (by omega), rdiv_scale64 _ _ hk,
    sat_eq (by omega) (by omega)]
  simp only [Option.bind_eq_bind, Option.bind_some]
  rw [fixptSub_eq (by unfold S24; omega) (by unfold S24; omega), sat_eq (by omega) (by omega)]
  simp only [Option.bind_some]
  have e : b - rdiv b k + x = lfStep b x k := rfl
  rw [fixptAdd_eq (by unfold S24; omega) (by unfold S24; omega), sat_eq (by omega) (by omega), e]
  simp only [Option.bind_some]
  rw [fixptDiv_eq (by unfold S24; omega) (by unfold S24; omega) (by omega), rdiv_scale64 _ _ hk,
    sat_eq (by omega) (by omega)]
  rfl

theorem lfStep_const (b x k : Int) (hk : 0 < k) (hb0 : 0 ≤ b) :
    (rdiv b k = x → lfStep b x k = b) ∧
    (rdiv b k < x → b < lfStep b x k ∧ 2 * lfStep b x k < 2 * (x * k) + k) ∧
    (x < rdiv b k → lfStep b x k < b ∧ 2 * (x * k) - k ≤ 2 * lfStep b x k) := by
  obtain ⟨h1, h2, h3⟩ := rdiv_band b k hk
  have h3 := h3 hb0
  refine ⟨fun h => by unfold lfStep; omega, fun h => ⟨by unfold lfStep; omega, ?_⟩,
    fun h => ⟨by unfold lfStep; omega, ?_⟩⟩
  · unfold lfStep
    generalize rdiv b k = q at *
    nlinarith
  · unfold lfStep
    generalize rdiv b k = q at *
    nlinarith

end Verif
