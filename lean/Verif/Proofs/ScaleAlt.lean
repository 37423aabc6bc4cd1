import Verif.Model.ScaleAlt
import Verif.Proofs.Scale
/-
Closed forms of the alternative implementations of scale.c.
-/
namespace Verif
open Spec

private theorem mul64 (a b : Int) : (a * (b * 64) + 32) / 64 = a * b := by
  have : a * (b * 64) = a * b * 64 := by ring
  rw [this]; omega

theorem scaleAlt_inv {raw rawLo rawHi physLo physHi y : Int} (hne : rawHi ≠ rawLo)
    (h : scaleAlt raw rawLo rawHi physLo physHi = some y) :
    y = sat (rdiv (physLo * (rawHi - raw) + physHi * (raw - rawLo)) (rawHi - rawLo)) := by
  unfold scaleAlt at h
  simp only [Option.bind_eq_bind, Option.bind_eq_some_iff, ck16_some,
    intToFixptBig_some, fixptBigMul_some, fixptBigAdd_some, pure] at h
  obtain ⟨t1, ⟨-, rfl⟩, t2, ⟨-, rfl⟩, a, ⟨-, rfl⟩, t3, ⟨-, rfl⟩, t4, ⟨-, rfl⟩, b, ⟨-, rfl⟩, cc, ⟨-, rfl⟩,
    t5, ⟨-, rfl⟩, t6, ⟨-, rfl⟩, r, h1, h2⟩ := h
  obtain ⟨-, rfl⟩ := fixptBigDiv_inv (by omega) h1
  rw [mul64, mul64, rdiv_scale _ _ _ (by decide) (by omega)] at h2
  rw [← Option.some.inj h2, fixptDeflate_eq]

theorem unscaleAlt_inv {phys physLo physHi rawLo rawHi y : Int} (hne : physHi ≠ physLo)
    (h : unscaleAlt phys physLo physHi rawLo rawHi = some y) :
    y = toS16 (rdiv (sat (rawLo * 64 + rdiv ((rawHi - rawLo) * (phys - physLo) * 64) (physHi - physLo))) 64) := by
  unfold unscaleAlt fixptBigMulDiv fixptToInt at h
  simp only [Option.bind_eq_bind, Option.bind_eq_some_iff, fixptBigSub_some, ck16_some,
    intToFixptBig_some, fixptBigMul_some, fixptBigAdd_some, pure] at h
  obtain ⟨t1, ⟨-, rfl⟩, a, ⟨-, rfl⟩, b, ⟨-, rfl⟩, cc, ⟨-, rfl⟩, d, ⟨t, ⟨-, rfl⟩, h1⟩, l, ⟨-, rfl⟩, r, ⟨-, rfl⟩,
    i, h2, h3⟩ := h
  obtain ⟨-, rfl⟩ := fixptBigDiv_inv (by omega) h1
  have h2 := fixptBigToInt_inv h2
  have e : ((rawHi - rawLo) * 64 * (phys - physLo) + 32) / 64 = (rawHi - rawLo) * (phys - physLo) := by
    have : (rawHi - rawLo) * 64 * (phys - physLo) = (rawHi - rawLo) * (phys - physLo) * 64 := by ring
    rw [this]; omega
  rw [e, fixptDeflate_eq, Int.add_comm] at h2
  rw [← Option.some.inj h3, h2]

theorem rescaleAlt_inv {p0 p0Lo p0Hi p1Lo p1Hi y : Int} (hne : p0Hi ≠ p0Lo)
    (h : rescaleAlt p0 p0Lo p0Hi p1Lo p1Hi = some y) :
    y = sat (p1Lo + rdiv (((p1Hi - p1Lo) * (p0 - p0Lo) + 32) / 64 * 64) (p0Hi - p0Lo)) := by
  unfold rescaleAlt fixptBigMulDiv at h
  simp only [Option.bind_eq_bind, Option.bind_eq_some_iff, fixptBigSub_some,
    fixptBigMul_some, fixptBigAdd_some, pure] at h
  obtain ⟨a, ⟨-, rfl⟩, b, ⟨-, rfl⟩, cc, ⟨-, rfl⟩, d, ⟨t, ⟨-, rfl⟩, h1⟩, r, ⟨-, rfl⟩, h2⟩ := h
  obtain ⟨-, rfl⟩ := fixptBigDiv_inv (by omega) h1
  rw [← Option.some.inj h2, fixptDeflate_eq, Int.add_comm]

/-- A sufficient condition for the absence of overflow. -/
theorem scaleAlt_defined {raw rawLo rawHi physLo physHi : Int} (hne : rawHi ≠ rawLo)
    (h1 : S16 (rawHi - raw)) (h2 : S16 (raw - rawLo)) (h3 : S16 (rawHi - rawLo))
    (ha : (physLo * (rawHi - raw)).natAbs ≤ 33000000) (hb : (physHi * (raw - rawLo)).natAbs ≤ 33000000)
    (hc : (physLo * (rawHi - raw) + physHi * (raw - rawLo)).natAbs ≤ 33000000) :
    ∃ y, scaleAlt raw rawLo rawHi physLo physHi = some y := by
  have ea : physLo * ((rawHi - raw) * 64) = physLo * (rawHi - raw) * 64 := by ring
  have eb : physHi * ((raw - rawLo) * 64) = physHi * (raw - rawLo) * 64 := by ring
  unfold scaleAlt fixptBigAdd intToFixptBig
  rw [ck16_eq h1, ck16_eq h2, ck16_eq h3]
  simp only [Option.bind_eq_bind, Option.bind_some]
  unfold S16 at *
  rw [ck32_eq (x := (rawHi - raw) * 64) (by unfold S32; omega), ck32_eq (x := (raw - rawLo) * 64) (by unfold S32; omega),
    ck32_eq (x := (rawHi - rawLo) * 64) (by unfold S32; omega)]
  simp only [Option.bind_some]
  rw [fixptBigMul_eq (a := physLo) (by rw [ea]; unfold S32; omega) (by rw [ea]; unfold S32; omega),
    fixptBigMul_eq (a := physHi) (by rw [eb]; unfold S32; omega) (by rw [eb]; unfold S32; omega)]
  simp only [Option.bind_some, mul64]
  rw [ck32_eq (by unfold S32; omega), Option.bind_some,
    fixptBigDiv_eq (by omega) (by unfold S32; omega) (by omega)]
  exact ⟨_, rfl⟩

/-- As the duty cycle of the heater `unscale` with UNSCALE_IMPL 2 does not overflow. -/
theorem unscaleAlt_pwm {amps : Int} (h : 0 ≤ amps ∧ amps ≤ 3200) : ∃ y, unscaleAlt amps 0 3200 0x1FFF 0 = some y := by
  unfold unscaleAlt fixptBigMulDiv fixptBigAdd fixptBigSub intToFixptBig fixptToInt
  rw [ck16_eq (by decide)]
  simp only [Option.bind_eq_bind, Option.bind_some]
  rw [ck32_eq (by decide), Option.bind_some, ck32_eq (by unfold S32; omega), Option.bind_some,
    ck32_eq (by decide), Option.bind_some]
  rw [fixptBigMul_eq (by unfold S32; omega) (by unfold S32; omega), Option.bind_some,
    fixptBigDiv_eq (by omega) (by unfold S32; omega) (by omega), Option.bind_some]
  have := rdiv_natAbs_le (((0 - 8191) * 64 * (amps - 0) + 32) / 64 * 64) (3200 - 0) (by decide)
  rw [ck32_eq (by decide), Option.bind_some, ck32_eq (by unfold S32; omega), Option.bind_some]
  rw [fixptDeflate_eq, fixptBigToInt_eq (by unfold sat; omega)]
  exact ⟨_, rfl⟩

end Verif
