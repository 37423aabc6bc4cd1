import Verif.Model.Scale
import Verif.Proofs.Fixpt
/-
Inversion lemmas and closed forms for the scaling functions (helper lemmas).
-/
namespace Verif
open Spec

theorem fixptBigSub_some {a b y : Int} : fixptBigSub a b = some y ↔ S32 (a - b) ∧ y = a - b :=
  ck32_some
theorem fixptBigAdd_some {a b y : Int} : fixptBigAdd a b = some y ↔ S32 (a + b) ∧ y = a + b :=
  ck32_some
theorem intToFixptBig_some {i y : Int} : intToFixptBig i = some y ↔ S32 (i * 64) ∧ y = i * 64 :=
  ck32_some

theorem fixptBigMul_some {a b y : Int} : fixptBigMul a b = some y ↔
    (S32 (a * b) ∧ S32 (a * b + 32)) ∧ y = (a * b + 32) / 64 := by
  unfold fixptBigMul
  simp only [Option.bind_eq_bind, Option.bind_eq_some_iff, ck32_some, pure]
  constructor
  · rintro ⟨t, ⟨h1, rfl⟩, u, ⟨h2, rfl⟩, h3⟩
    exact ⟨⟨h1, h2⟩, (Option.some.inj h3).symm⟩
  · rintro ⟨⟨h1, h2⟩, rfl⟩
    exact ⟨_, ⟨h1, rfl⟩, _, ⟨h2, rfl⟩, rfl⟩

theorem fixptBigDiv_inv {a b y : Int} (hb : b ≠ 0) (h : fixptBigDiv a b = some y) :
    S32 (a * 64) ∧ y = rdiv (a * 64) b := by
  unfold fixptBigDiv at h
  rw [if_neg hb] at h
  simp only [Option.bind_eq_bind, Option.bind_eq_some_iff, ck32_some] at h
  obtain ⟨t, ⟨h1, rfl⟩, h2⟩ := h
  refine ⟨h1, ?_⟩
  unfold rdiv
  split_ifs at h2 ⊢ with hc
  · simp only [Option.bind_eq_some_iff, ck32_some] at h2
    obtain ⟨u, ⟨-, rfl⟩, -, h4⟩ := h2
    exact h4
  · simp only [Option.bind_eq_some_iff, ck32_some] at h2
    obtain ⟨u, ⟨-, rfl⟩, -, h4⟩ := h2
    exact h4

theorem fixptBigToInt_inv {p n : Int} (h : fixptBigToInt p = some n) : n = rdiv p 64 := by
  rw [rdiv_pos _ _ (by decide)]
  unfold fixptBigToInt at h
  by_cases h0 : p < 0
  · rw [if_pos h0] at h
    rw [if_neg (by omega)]
    simp only [Option.bind_eq_bind, Option.bind_eq_some_iff, ck32_some] at h
    obtain ⟨t, ⟨-, rfl⟩, u, ⟨-, rfl⟩, -, h4⟩ := h
    exact h4
  · rw [if_neg h0] at h
    rw [if_pos (by omega)]
    simp only [Option.bind_eq_bind, Option.bind_eq_some_iff, ck32_some, pure] at h
    obtain ⟨t, ⟨-, rfl⟩, h4⟩ := h
    exact (Option.some.inj h4).symm

theorem fixptBigToInt_eq {p : Int} (h : -2147483615 ≤ p ∧ p ≤ 2147483615) :
    fixptBigToInt p = some (rdiv p 64) := by
  rw [rdiv_pos _ _ (by decide)]
  unfold fixptBigToInt
  by_cases h0 : p < 0
  · rw [if_pos h0, if_neg (by omega)]
    have a1 : S32 (-p) := by unfold S32; omega
    have a2 : S32 (-p + 32) := by unfold S32; omega
    have a3 : S32 (-((-p + 32) / 64)) := by unfold S32; omega
    simp [ck32_eq a1, ck32_eq a2, ck32_eq a3]
  · rw [if_neg h0, if_pos (by omega)]
    have a1 : S32 (p + 32) := by unfold S32; omega
    simp [ck32_eq a1]

theorem NearestAway.scale {a b n k : Int} (hk : k ≠ 0) :
    NearestAway (a * k) (b * k) n ↔ NearestAway a b n := by
  unfold NearestAway
  have e1 : a * k - n * (b * k) = (a - n * b) * k := by ring
  have e2 : n * (b * k) = n * b * k := by ring
  rw [e1, e2, Int.natAbs_mul, Int.natAbs_mul, Int.natAbs_mul, Int.natAbs_mul]
  have hk' : 0 < k.natAbs := by omega
  constructor
  · rintro ⟨h1, h2⟩
    refine ⟨?_, fun h3 => ?_⟩
    · rw [← Nat.mul_assoc] at h1
      exact Nat.le_of_mul_le_mul_right h1 hk'
    · have := h2 (by rw [← Nat.mul_assoc, h3])
      exact Nat.lt_of_mul_lt_mul_right this
  · rintro ⟨h1, h2⟩
    refine ⟨?_, fun h3 => ?_⟩
    · rw [← Nat.mul_assoc]; exact Nat.mul_le_mul_right _ h1
    · rw [← Nat.mul_assoc] at h3
      exact Nat.mul_lt_mul_of_pos_right (h2 (Nat.eq_of_mul_eq_mul_right hk' h3)) hk'

theorem rdiv_scale (a b k : Int) (hk : k ≠ 0) (hb : b ≠ 0) : rdiv (a * k) (b * k) = rdiv a b :=
  rdiv_eq (Int.mul_ne_zero hb hk) ((NearestAway.scale hk).2 (rdiv_spec a b hb))

theorem scale_inv {raw rawLo rawHi physLo physHi y : Int} (hne : rawHi ≠ rawLo)
    (h : scale raw rawLo rawHi physLo physHi = some y) :
    y = sat (physLo + rdiv ((physHi - physLo) * (raw - rawLo)) (rawHi - rawLo)) := by
  unfold scale fixptBigMulDiv at h
  simp only [Option.bind_eq_bind, Option.bind_eq_some_iff, fixptBigSub_some, ck16_some,
    intToFixptBig_some, fixptBigMul_some, fixptBigAdd_some, pure] at h
  obtain ⟨a, ⟨-, rfl⟩, r, ⟨-, rfl⟩, b, ⟨-, rfl⟩, s, ⟨-, rfl⟩, c, ⟨-, rfl⟩, d,
    ⟨t, ⟨-, rfl⟩, h1⟩, u, ⟨-, rfl⟩, h2⟩ := h
  have hc : (rawHi - rawLo) * 64 ≠ 0 := by omega
  obtain ⟨-, rfl⟩ := fixptBigDiv_inv hc h1
  have e : ((physHi - physLo) * ((raw - rawLo) * 64) + 32) / 64 =
      (physHi - physLo) * (raw - rawLo) := by
    have : (physHi - physLo) * ((raw - rawLo) * 64) =
      (physHi - physLo) * (raw - rawLo) * 64 := by ring
    rw [this]; omega
  rw [e, rdiv_scale _ _ _ (by decide) (by omega)] at h2
  rw [← Option.some.inj h2, fixptDeflate_eq, Int.add_comm]

theorem scale_eq {raw rawLo rawHi physLo physHi : Int} (hne : rawHi ≠ rawLo)
    (hl : S24 physLo) (hh : S24 physHi)
    (hr : S16 (raw - rawLo)) (hs : S16 (rawHi - rawLo))
    (hp : ((physHi - physLo) * (raw - rawLo)).natAbs ≤ 33521664) :
    scale raw rawLo rawHi physLo physHi =
      some (sat (physLo + rdiv ((physHi - physLo) * (raw - rawLo)) (rawHi - rawLo))) := by
  have hle := rdiv_natAbs_le ((physHi - physLo) * (raw - rawLo)) (rawHi - rawLo) (by omega)
  have e : (physHi - physLo) * ((raw - rawLo) * 64) =
      (physHi - physLo) * (raw - rawLo) * 64 := by ring
  have hsc := rdiv_scale ((physHi - physLo) * (raw - rawLo)) (rawHi - rawLo) 64 (by decide)
    (by omega)
  unfold scale fixptBigMulDiv fixptBigSub fixptBigAdd intToFixptBig
  rw [ck16_eq hr, ck16_eq hs]
  simp only [Option.bind_eq_bind, Option.bind_some]
  unfold S24 S16 at *
  rw [ck32_eq (by unfold S32; omega), Option.bind_some]
  rw [ck32_eq (by unfold S32; omega), Option.bind_some]
  rw [ck32_eq (by unfold S32; omega), Option.bind_some]
  generalize (physHi - physLo) * (raw - rawLo) = P at *
  rw [fixptBigMul_eq (by rw [e]; unfold S32; omega) (by rw [e]; unfold S32; omega),
    Option.bind_some, e]
  have e2 : (P * 64 + 32) / 64 = P := by omega
  rw [e2, fixptBigDiv_eq (by omega) (by unfold S32; omega) (by omega), Option.bind_some, hsc,
    ck32_eq (by unfold S32; omega), Option.bind_some, fixptDeflate_eq, Int.add_comm]
  rfl

/-- The exact numerator of `unscale`. -/
def unscaleNum (phys physLo physHi rawLo rawHi : Int) : Int :=
  (physHi - phys) * rawLo + (phys - physLo) * rawHi

theorem unscale_inv {phys physLo physHi rawLo rawHi y : Int} (hne : physHi ≠ physLo)
    (h : unscale phys physLo physHi rawLo rawHi = some y) :
    y = toS16 (rdiv (rdiv (unscaleNum phys physLo physHi rawLo rawHi * 64)
      (physHi - physLo)) 64) := by
  unfold unscale at h
  simp only [Option.bind_eq_bind, Option.bind_eq_some_iff, fixptBigSub_some,
    intToFixptBig_some, fixptBigMul_some, fixptBigAdd_some, pure] at h
  obtain ⟨a, ⟨-, rfl⟩, r, ⟨-, rfl⟩, a', ⟨-, rfl⟩, b, ⟨-, rfl⟩, s, ⟨-, rfl⟩, b', ⟨-, rfl⟩,
    t, ⟨-, rfl⟩, w, ⟨-, rfl⟩, c, h1, i, h2, h3⟩ := h
  obtain ⟨-, rfl⟩ := fixptBigDiv_inv (by omega) h1
  have h2 := fixptBigToInt_inv h2
  have e1 : ((physHi - phys) * (rawLo * 64) + 32) / 64 = (physHi - phys) * rawLo := by
    have : (physHi - phys) * (rawLo * 64) = (physHi - phys) * rawLo * 64 := by ring
    rw [this]; omega
  have e2 : ((phys - physLo) * (rawHi * 64) + 32) / 64 = (phys - physLo) * rawHi := by
    have : (phys - physLo) * (rawHi * 64) = (phys - physLo) * rawHi * 64 := by ring
    rw [this]; omega
  rw [e1, e2] at h2
  rw [← Option.some.inj h3, h2]; rfl

theorem unscale_eq {phys physLo physHi rawLo rawHi : Int} (hne : physHi ≠ physLo)
    (hp : S24 phys) (hl : S24 physLo) (hh : S24 physHi) (hrl : S16 rawLo) (hrh : S16 rawHi)
    (h1 : ((physHi - phys) * rawLo).natAbs ≤ 33000000)
    (h2 : ((phys - physLo) * rawHi).natAbs ≤ 33000000)
    (h3 : (unscaleNum phys physLo physHi rawLo rawHi).natAbs ≤ 33000000) :
    unscale phys physLo physHi rawLo rawHi =
      some (toS16 (rdiv (rdiv (unscaleNum phys physLo physHi rawLo rawHi * 64)
      (physHi - physLo)) 64)) := by
  have hle := rdiv_natAbs_le (unscaleNum phys physLo physHi rawLo rawHi * 64)
    (physHi - physLo) (by omega)
  have e1 : (physHi - phys) * (rawLo * 64) = (physHi - phys) * rawLo * 64 := by ring
  have e2 : (phys - physLo) * (rawHi * 64) = (phys - physLo) * rawHi * 64 := by ring
  have e3 : unscaleNum phys physLo physHi rawLo rawHi =
    (physHi - phys) * rawLo + (phys - physLo) * rawHi := rfl
  unfold unscale fixptBigSub fixptBigAdd intToFixptBig
  simp only [Option.bind_eq_bind]
  unfold S24 S16 at *
  rw [ck32_eq (by unfold S32; omega), Option.bind_some]
  rw [ck32_eq (by unfold S32; omega), Option.bind_some]
  rw [fixptBigMul_eq (by rw [e1]; unfold S32; omega) (by rw [e1]; unfold S32; omega),
    Option.bind_some, e1]
  rw [ck32_eq (by unfold S32; omega), Option.bind_some]
  rw [ck32_eq (by unfold S32; omega), Option.bind_some]
  rw [fixptBigMul_eq (by rw [e2]; unfold S32; omega) (by rw [e2]; unfold S32; omega),
    Option.bind_some, e2]
  have e4 : ((physHi - phys) * rawLo * 64 + 32) / 64 = (physHi - phys) * rawLo := by omega
  have e5 : ((phys - physLo) * rawHi * 64 + 32) / 64 = (phys - physLo) * rawHi := by omega
  rw [e4, e5, ← e3]
  generalize unscaleNum phys physLo physHi rawLo rawHi = N at *
  rw [ck32_eq (by unfold S32; omega), Option.bind_some]
  rw [ck32_eq (by unfold S32; omega), Option.bind_some]
  rw [fixptBigDiv_eq (by omega) (by unfold S32; omega) (by omega), Option.bind_some]
  rw [fixptBigToInt_eq (by omega), Option.bind_some]
  rfl

theorem unscale_range {phys physLo physHi rawLo rawHi y : Int} (hlt : physLo < physHi)
    (hp : physLo ≤ phys ∧ phys ≤ physHi) (hr : S16 rawLo ∧ S16 rawHi)
    (h : unscale phys physLo physHi rawLo rawHi = some y) :
    min rawLo rawHi ≤ y ∧ y ≤ max rawLo rawHi ∧
    y = rdiv (rdiv (((physHi - phys) * rawLo + (phys - physLo) * rawHi) * 64)
      (physHi - physLo)) 64 := by
  have hD : 0 < physHi - physLo := by omega
  have lo : (min rawLo rawHi * 64) * (physHi - physLo) ≤
      ((physHi - phys) * rawLo + (phys - physLo) * rawHi) * 64 := by
    have a1 : (physHi - phys) * min rawLo rawHi ≤ (physHi - phys) * rawLo :=
      Int.mul_le_mul_of_nonneg_left (by omega) (by omega)
    have a2 : (phys - physLo) * min rawLo rawHi ≤ (phys - physLo) * rawHi :=
      Int.mul_le_mul_of_nonneg_left (by omega) (by omega)
    nlinarith
  have hi : ((physHi - phys) * rawLo + (phys - physLo) * rawHi) * 64 ≤
      (max rawLo rawHi * 64) * (physHi - physLo) := by
    have a1 : (physHi - phys) * rawLo ≤ (physHi - phys) * max rawLo rawHi :=
      Int.mul_le_mul_of_nonneg_left (by omega) (by omega)
    have a2 : (phys - physLo) * rawHi ≤ (phys - physLo) * max rawLo rawHi :=
      Int.mul_le_mul_of_nonneg_left (by omega) (by omega)
    nlinarith
  have lo2 := rdiv_mono hD lo
  have hi2 := rdiv_mono hD hi
  rw [rdiv_mul_self _ _ (by omega)] at lo2 hi2
  have lo3 := rdiv_mono (b := 64) (by decide) lo2
  have hi3 := rdiv_mono (b := 64) (by decide) hi2
  rw [rdiv_mul_self _ _ (by decide)] at lo3 hi3
  have e := unscale_inv (by omega) h
  unfold unscaleNum at e
  rw [toS16_eq (by unfold S16 at *; omega)] at e
  omega

theorem rescale_inv {p0 p0Lo p0Hi p1Lo p1Hi y : Int} (hne : p0Hi ≠ p0Lo)
    (h : rescale p0 p0Lo p0Hi p1Lo p1Hi = some y) :
    y = sat (rdiv (((p1Lo * (p0Hi - p0) + 32) / 64 + (p1Hi * (p0 - p0Lo) + 32) / 64) * 64)
      (p0Hi - p0Lo)) := by
  unfold rescale at h
  simp only [Option.bind_eq_bind, Option.bind_eq_some_iff, fixptBigSub_some,
    intToFixptBig_some, fixptBigMul_some, fixptBigAdd_some, pure] at h
  obtain ⟨a, ⟨-, rfl⟩, a', ⟨-, rfl⟩, b, ⟨-, rfl⟩, b', ⟨-, rfl⟩, c, ⟨-, rfl⟩, d, ⟨-, rfl⟩,
    r, h1, h2⟩ := h
  obtain ⟨-, rfl⟩ := fixptBigDiv_inv (by omega) h1
  rw [← Option.some.inj h2, fixptDeflate_eq]

theorem rescale_eq {p0 p0Lo p0Hi p1Lo p1Hi : Int} (hne : p0Hi ≠ p0Lo)
    (hp : S24 p0) (hl : S24 p0Lo) (hh : S24 p0Hi)
    (h1 : (p1Lo * (p0Hi - p0)).natAbs ≤ 2147000000)
    (h2 : (p1Hi * (p0 - p0Lo)).natAbs ≤ 2147000000)
    (h3 : ((p1Lo * (p0Hi - p0) + 32) / 64 + (p1Hi * (p0 - p0Lo) + 32) / 64).natAbs
      ≤ 33000000) :
    rescale p0 p0Lo p0Hi p1Lo p1Hi = some (sat (rdiv
      (((p1Lo * (p0Hi - p0) + 32) / 64 + (p1Hi * (p0 - p0Lo) + 32) / 64) * 64)
      (p0Hi - p0Lo))) := by
  unfold rescale fixptBigSub fixptBigAdd
  simp only [Option.bind_eq_bind]
  unfold S24 at *
  rw [ck32_eq (by unfold S32; omega), Option.bind_some]
  rw [fixptBigMul_eq (by unfold S32; omega) (by unfold S32; omega), Option.bind_some]
  rw [ck32_eq (by unfold S32; omega), Option.bind_some]
  rw [fixptBigMul_eq (by unfold S32; omega) (by unfold S32; omega), Option.bind_some]
  rw [ck32_eq (by unfold S32; omega), Option.bind_some]
  rw [ck32_eq (by unfold S32; omega), Option.bind_some]
  rw [fixptBigDiv_eq (by omega) (by unfold S32; omega) (by omega), Option.bind_some,
    fixptDeflate_eq]
  rfl

end Verif
