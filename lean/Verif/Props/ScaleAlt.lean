import Verif.Proofs.ScaleAlt
import Verif.Props.Scale
/-
C85: the alternative implementations in scale.c.
-/
namespace Verif.Props
open Spec

/-- The exact quotient `a / b` lies half way between two integers. -/
def HalfWay (a b : Int) : Prop := ∃ k : Int, 2 * a = (2 * k + 1) * b

/-- two nearest integers of shifted quotients -/
private theorem shift_rdiv (k a b : Int) (hb : b ≠ 0) :
    (rdiv (k * b + a) b - (k + rdiv a b)).natAbs ≤ 1 ∧
      (¬ HalfWay a b → rdiv (k * b + a) b = k + rdiv a b) := by
  obtain ⟨h1, -⟩ := rdiv_spec (k * b + a) b hb
  obtain ⟨h2, -⟩ := rdiv_spec a b hb
  generalize rdiv (k * b + a) b = m at *
  generalize rdiv a b = n at *
  obtain ⟨j, rfl⟩ : ∃ j, m = k + n + j := ⟨m - (k + n), by ring⟩
  have e1 : k * b + a - (k + n + j) * b = (a - n * b) - j * b := by ring
  rw [e1] at h1
  generalize hr : a - n * b = r at *
  have key : j.natAbs * b.natAbs ≤ b.natAbs := by
    rw [← Int.natAbs_mul]; omega
  have hj : j.natAbs ≤ 1 := by
    have hb' : 0 < b.natAbs := by omega
    by_contra hh
    have : 2 * b.natAbs ≤ j.natAbs * b.natAbs := Nat.mul_le_mul_right _ (by omega)
    omega
  refine ⟨by omega, fun hnt => ?_⟩
  by_contra hne
  have hj' : j = 1 ∨ j = -1 := by omega
  apply hnt
  rcases hj' with rfl | rfl
  · rcases (by omega : 2 * r = b ∨ 2 * r = -b) with h | h
    · exact ⟨n, by have : a = n * b + r := by omega
                   rw [this]; linarith⟩
    · exact ⟨n - 1, by have : a = n * b + r := by omega
                       rw [this]; linarith⟩
  · rcases (by omega : 2 * r = b ∨ 2 * r = -b) with h | h
    · exact ⟨n, by have : a = n * b + r := by omega
                   rw [this]; linarith⟩
    · exact ⟨n - 1, by have : a = n * b + r := by omega
                       rw [this]; linarith⟩

private theorem sat_diff {a b : Int} : (sat a - sat b).natAbs ≤ (a - b).natAbs := by
  unfold sat; omega

/-- Both implementations of `scale` differ by at most one count, and only when the exact result lies half way between
    two counts. -/
theorem C85_scale (raw rawLo rawHi physLo physHi y y' : Int) (hne : rawHi ≠ rawLo)
    (h : scale raw rawLo rawHi physLo physHi = some y) (h' : scaleAlt raw rawLo rawHi physLo physHi = some y') :
    (y' - y).natAbs ≤ 1 ∧ (¬ HalfWay ((physHi - physLo) * (raw - rawLo)) (rawHi - rawLo) → y' = y) := by
  rw [scale_inv hne h, scaleAlt_inv hne h']
  have e : physLo * (rawHi - raw) + physHi * (raw - rawLo) =
    physLo * (rawHi - rawLo) + (physHi - physLo) * (raw - rawLo) := by ring
  rw [e]
  obtain ⟨h1, h2⟩ := shift_rdiv physLo ((physHi - physLo) * (raw - rawLo)) (rawHi - rawLo) (by omega)
  exact ⟨Nat.le_trans sat_diff h1, fun hh => by rw [h2 hh]⟩

/-- they do differ -/
example : scale 1 0 2 (-2) (-1) = some (-1) ∧ scaleAlt 1 0 2 (-2) (-1) = some (-2) := by decide

private theorem same_scale {raw rawLo rawHi physLo physHi : Int} (hne : rawHi ≠ rawLo)
    (hs : ∃ y, scale raw rawLo rawHi physLo physHi = some y)
    (ha : ∃ y, scaleAlt raw rawLo rawHi physLo physHi = some y)
    (hh : ¬ HalfWay ((physHi - physLo) * (raw - rawLo)) (rawHi - rawLo)) :
    scaleAlt raw rawLo rawHi physLo physHi = scale raw rawLo rawHi physLo physHi := by
  obtain ⟨y, hs⟩ := hs
  obtain ⟨y', ha⟩ := ha
  rw [hs, ha, (C85_scale _ _ _ _ _ _ _ hne hs ha).2 hh]

/-- With the shipped calibrations both give the same for every ADC value. -/
theorem C85_shipped (raw : Int) (h : 0 ≤ raw ∧ raw ≤ 1023) :
    scaleAlt raw 210 411 9600 30720 = scale raw 210 411 9600 30720 ∧
    scaleAlt raw 209 410 9600 30720 = scale raw 209 410 9600 30720 ∧
    scaleAlt raw 0 65 0 704 = scale raw 0 65 0 704 := by
  obtain ⟨h1, h2, h3⟩ := C10_shipped raw h
  refine ⟨same_scale (by decide) h1 (scaleAlt_defined ?_ ?_ ?_ ?_ ?_ ?_ ?_) ?_,
    same_scale (by decide) h2 (scaleAlt_defined ?_ ?_ ?_ ?_ ?_ ?_ ?_) ?_,
    same_scale (by decide) h3 (scaleAlt_defined ?_ ?_ ?_ ?_ ?_ ?_ ?_) ?_⟩ <;>
  first
    | decide
    | (unfold S16; omega)
    | (rintro ⟨k, hk⟩; omega)
    | omega

private theorem rdiv64_diff {a b : Int} (h : (a - b).natAbs ≤ 1) : (rdiv a 64 - rdiv b 64).natAbs ≤ 1 := by
  obtain ⟨h1, -⟩ := rdiv_spec a 64 (by decide)
  obtain ⟨h2, -⟩ := rdiv_spec b 64 (by decide)
  omega

/-- Inside the calibrated range both implementations of `unscale` differ by at most one count, and only when the exact
    result lies half way between two 1/64 counts. -/
theorem C85_unscale (phys physLo physHi rawLo rawHi y y' : Int) (hlt : physLo < physHi)
    (hp : physLo ≤ phys ∧ phys ≤ physHi) (hr : S16 rawLo ∧ S16 rawHi)
    (h : unscale phys physLo physHi rawLo rawHi = some y) (h' : unscaleAlt phys physLo physHi rawLo rawHi = some y') :
    (y' - y).natAbs ≤ 1 ∧ (¬ HalfWay ((rawHi - rawLo) * (phys - physLo) * 64) (physHi - physLo) → y' = y) := by
  obtain ⟨y1, y2, y3⟩ := unscale_range hlt hp hr h
  have e' := unscaleAlt_inv (by omega) h'
  have e : ((physHi - phys) * rawLo + (phys - physLo) * rawHi) * 64 =
    rawLo * 64 * (physHi - physLo) + (rawHi - rawLo) * (phys - physLo) * 64 := by ring
  rw [e] at y3
  obtain ⟨h1, h2⟩ := shift_rdiv (rawLo * 64) ((rawHi - rawLo) * (phys - physLo) * 64) (physHi - physLo) (by omega)
  generalize rdiv (rawLo * 64 * (physHi - physLo) + (rawHi - rawLo) * (phys - physLo) * 64) (physHi - physLo) = u at *
  generalize hwd : rawLo * 64 + rdiv ((rawHi - rawLo) * (phys - physLo) * 64) (physHi - physLo) = w at *
  have hw : min rawLo rawHi * 64 ≤ w ∧ w ≤ max rawLo rawHi * 64 := by
    rw [← hwd]
    have q0 : rdiv 0 (physHi - physLo) = 0 := rdiv_eq (by omega) (by unfold NearestAway; omega)
    have q1 : rdiv ((rawHi - rawLo) * 64 * (physHi - physLo)) (physHi - physLo) = (rawHi - rawLo) * 64 :=
      rdiv_eq (by omega) (by
        unfold NearestAway
        rw [Int.sub_self]
        omega)
    have eq : (rawHi - rawLo) * (phys - physLo) * 64 = (rawHi - rawLo) * 64 * (phys - physLo) := by ring
    rw [eq]
    rcases Int.le_total rawLo rawHi with hh | hh
    · have a1 := rdiv_mono (b := physHi - physLo) (by omega)
        (show 0 ≤ (rawHi - rawLo) * 64 * (phys - physLo) from Int.mul_nonneg (by omega) (by omega))
      have a2 := rdiv_mono (b := physHi - physLo) (by omega)
        (show (rawHi - rawLo) * 64 * (phys - physLo) ≤ (rawHi - rawLo) * 64 * (physHi - physLo) from
          Int.mul_le_mul_of_nonneg_left (by omega) (by omega))
      omega
    · have a1 := rdiv_mono (b := physHi - physLo) (by omega)
        (show (rawHi - rawLo) * 64 * (phys - physLo) ≤ 0 from Int.mul_nonpos_of_nonpos_of_nonneg (by omega) (by omega))
      have a2 := rdiv_mono (b := physHi - physLo) (by omega)
        (show (rawHi - rawLo) * 64 * (physHi - physLo) ≤ (rawHi - rawLo) * 64 * (phys - physLo) from
          Int.mul_le_mul_of_nonpos_left (by omega) (by omega))
      omega
  obtain ⟨⟨r1, r2⟩, r3, r4⟩ := hr
  have hsat : sat w = w := by unfold sat; omega
  rw [hsat] at e'
  obtain ⟨g2, -⟩ := rdiv_spec w 64 (by decide)
  have hs : toS16 (rdiv w 64) = rdiv w 64 := toS16_eq (by unfold S16; omega)
  rw [hs] at e'
  have hd := rdiv64_diff h1
  rw [← y3, ← e'] at hd
  refine ⟨by omega, fun hh => ?_⟩
  rw [e', y3, h2 hh]

/-- the currents for which the duty cycle is half way between two counts -/
private theorem pwm_ties : ∀ n < 64, unscaleAlt ((50 * n + 25 : Nat) : Int) 0 3200 0x1FFF 0 =
    if n = 31 then some 4159 else unscale ((50 * n + 25 : Nat) : Int) 0 3200 0x1FFF 0 := by decide

/-- As the duty cycle of the heater the alternative gives the same for every current except 1575/640 A, where it is
    one count (0.6 mA) less. -/
theorem C85_pwm (amps : Int) (h : 0 ≤ amps ∧ amps ≤ 3200) :
    unscaleAlt amps 0 3200 0x1FFF 0 = if amps = 1575 then some 4159 else unscale amps 0 3200 0x1FFF 0 := by
  have hu := unscale_eq (phys := amps) (physLo := 0) (physHi := 3200) (rawLo := 0x1FFF)
    (rawHi := 0) (by decide) (by unfold S24; omega) (by decide) (by decide) (by decide) (by decide)
    (by omega) (by omega) (by unfold unscaleNum; omega)
  obtain ⟨y', ha⟩ := unscaleAlt_pwm h
  by_cases hh : HalfWay ((0 - 0x1FFF) * (amps - 0) * 64) (3200 - 0)
  · obtain ⟨k, hk⟩ := hh
    have := pwm_ties (amps / 50).toNat (by omega)
    rw [show ((50 * (amps / 50).toNat + 25 : Nat) : Int) = amps by omega] at this
    rw [this]
    by_cases h31 : amps = 1575
    · rw [if_pos h31, if_pos (by omega)]
    · rw [if_neg h31, if_neg (by omega)]
  · rw [if_neg (by rintro rfl; exact hh ⟨-258017, by decide⟩), ha, hu]
    rw [(C85_unscale _ _ _ _ _ _ _ (by decide) h (by decide) hu ha).2 hh]

example : unscale 1575 0 3200 0x1FFF 0 = some 4160 := by decide

/-- The alternative of `rescale` rounds an intermediate result only once instead of twice: it is never further away
    from the exact line than 1/2 + 32 / (p0Hi - p0Lo) counts; the compiled one (`C12_error`) than 1/2 + 64 / (p0Hi - p0Lo). -/
theorem C85_rescale (p0 p0Lo p0Hi p1Lo p1Hi y : Int) (hne : p0Hi ≠ p0Lo)
    (h : rescaleAlt p0 p0Lo p0Hi p1Lo p1Hi = some y) :
    ∃ n, LimitedTo (-8388607) 8388607 n y ∧
      2 * (n * (p0Hi - p0Lo) - (p1Lo * (p0Hi - p0) + p1Hi * (p0 - p0Lo))).natAbs
        ≤ (p0Hi - p0Lo).natAbs + 64 := by
  rw [rescaleAlt_inv hne h]
  obtain ⟨h1, -⟩ := rdiv_spec (((p1Hi - p1Lo) * (p0 - p0Lo) + 32) / 64 * 64) (p0Hi - p0Lo) (by omega)
  refine ⟨p1Lo + rdiv (((p1Hi - p1Lo) * (p0 - p0Lo) + 32) / 64 * 64) (p0Hi - p0Lo), by unfold LimitedTo sat; omega, ?_⟩
  generalize rdiv (((p1Hi - p1Lo) * (p0 - p0Lo) + 32) / 64 * 64) (p0Hi - p0Lo) = n at *
  have e : (p1Lo + n) * (p0Hi - p0Lo) - (p1Lo * (p0Hi - p0) + p1Hi * (p0 - p0Lo)) =
    n * (p0Hi - p0Lo) - (p1Hi - p1Lo) * (p0 - p0Lo) := by ring
  rw [e]
  generalize (p1Hi - p1Lo) * (p0 - p0Lo) = A at *
  generalize n * (p0Hi - p0Lo) = B at *
  omega

/-- When the target range starts at 0, as in the temperature controller (controller_temp.c:115-119), both give the
    same. -/
theorem C85_rescale_zero (p0 p0Lo p0Hi p1Hi y y' : Int) (hne : p0Hi ≠ p0Lo)
    (h : rescale p0 p0Lo p0Hi 0 p1Hi = some y) (h' : rescaleAlt p0 p0Lo p0Hi 0 p1Hi = some y') : y' = y := by
  rw [rescale_inv hne h, rescaleAlt_inv hne h']
  have e : ((0 : Int) * (p0Hi - p0) + 32) / 64 = 0 := by omega
  rw [e, Int.zero_add, Int.zero_add, Int.sub_zero]

/-- So it is for every output of the temperature controller. -/
theorem C85_amps (temp : Int) (h : 0 ≤ temp ∧ temp ≤ 480 * 64) :
    rescaleAlt temp 0 (250 * 64) 0 (5 * 640) = rescale temp 0 (250 * 64) 0 (5 * 640) := by
  obtain ⟨y, hy⟩ := C12_shipped temp h
  have h' : ∃ y', rescaleAlt temp 0 (250 * 64) 0 (5 * 640) = some y' := by
    have hle := rdiv_natAbs_le ((5 * 640 * temp + 32) / 64 * 64) (250 * 64) (by decide)
    unfold rescaleAlt fixptBigSub fixptBigAdd fixptBigMulDiv
    simp only [Option.bind_eq_bind]
    rw [ck32_eq (by unfold S32; omega), Option.bind_some, ck32_eq (by unfold S32; omega), Option.bind_some,
      ck32_eq (by unfold S32; omega), Option.bind_some, fixptBigMul_eq (by unfold S32; omega) (by unfold S32; omega),
      Option.bind_some, fixptBigDiv_eq (by decide) (by unfold S32; omega) (by omega), Option.bind_some, Int.sub_zero,
      Int.sub_zero, Int.sub_zero, ck32_eq (by unfold S32; omega), Option.bind_some]
    exact ⟨_, rfl⟩
  obtain ⟨y', hy'⟩ := h'
  rw [hy, hy', C85_rescale_zero _ _ _ _ _ _ (by decide) hy hy']

example : rescaleAlt 8001 0 16000 0 3200 = some 1600 ∧ rescaleAlt 1 0 2 16 32 = some 16 ∧
    rescale 1 0 2 16 32 = some 32 := by decide

end Verif.Props
