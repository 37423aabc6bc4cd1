import Verif.Proofs.Scale
import Verif.Model.PwmCurrent
/-
Property theorems C10-C13: linear scaling (scale.c) and the PWM actuator (pwm_current.c).
-/
namespace Verif.Props
open Verif Verif.Spec

/-! ### C10 scale() -/

/-- Whenever `scale` does not run into overflow it returns the correctly rounded line. -/
theorem C10_line (raw rawLo rawHi physLo physHi y : Int) (hne : rawHi ≠ rawLo)
    (h : scale raw rawLo rawHi physLo physHi = some y) :
    ∃ n, NearestAway ((physHi - physLo) * (raw - rawLo)) (rawHi - rawLo) n ∧
      LimitedTo (-8388607) 8388607 (physLo + n) y := by
  refine ⟨_, rdiv_spec _ _ (by omega), ?_⟩
  rw [scale_inv hne h]
  unfold LimitedTo sat; omega

/-- A sufficient condition for the absence of overflow. -/
theorem C10_defined (raw rawLo rawHi physLo physHi : Int) (hne : rawHi ≠ rawLo)
    (hl : S24 physLo) (hh : S24 physHi)
    (hr : S16 (raw - rawLo)) (hs : S16 (rawHi - rawLo))
    (hp : ((physHi - physLo) * (raw - rawLo)).natAbs ≤ 33521664) :
    ∃ y, scale raw rawLo rawHi physLo physHi = some y :=
  ⟨_, scale_eq hne hl hh hr hs hp⟩

/-- Both calibration points are hit exactly. -/
theorem C10_endpoints (rawLo rawHi physLo physHi y : Int) (hne : rawHi ≠ rawLo)
    (hl : -8388607 ≤ physLo ∧ physLo ≤ 8388607) (hh : -8388607 ≤ physHi ∧ physHi ≤ 8388607) :
    (scale rawLo rawLo rawHi physLo physHi = some y → y = physLo) ∧
    (scale rawHi rawLo rawHi physLo physHi = some y → y = physHi) := by
  constructor
  · intro h
    rw [scale_inv hne h, Int.sub_self, Int.mul_zero, rdiv_zero]
    unfold sat; omega
  · intro h
    rw [scale_inv hne h, rdiv_mul_self _ _ (by omega)]
    unfold sat; omega

/-- Monotone in the raw value (rising or falling with the calibration). -/
theorem C10_mono (raw raw' rawLo rawHi physLo physHi y y' : Int) (hlt : rawLo < rawHi)
    (hle : raw ≤ raw')
    (h : scale raw rawLo rawHi physLo physHi = some y)
    (h' : scale raw' rawLo rawHi physLo physHi = some y') :
    (physLo ≤ physHi → y ≤ y') ∧ (physHi ≤ physLo → y' ≤ y) := by
  have hne : rawHi ≠ rawLo := by omega
  rw [scale_inv hne h, scale_inv hne h']
  constructor <;> intro hp
  · apply sat_mono
    have : (physHi - physLo) * (raw - rawLo) ≤ (physHi - physLo) * (raw' - rawLo) :=
      Int.mul_le_mul_of_nonneg_left (by omega) (by omega)
    have := rdiv_mono (b := rawHi - rawLo) (by omega) this
    omega
  · apply sat_mono
    have : (physHi - physLo) * (raw' - rawLo) ≤ (physHi - physLo) * (raw - rawLo) :=
      Int.mul_le_mul_of_nonpos_left (by omega) (by omega)
    have := rdiv_mono (b := rawHi - rawLo) (by omega) this
    omega

/-- Every 10-bit ADC value can be scaled with the shipped calibrations
    (SMD and legacy temperature sensor, current sensor). -/
theorem C10_shipped (raw : Int) (h : 0 ≤ raw ∧ raw ≤ 1023) :
    (∃ y, scale raw 210 411 9600 30720 = some y) ∧
    (∃ y, scale raw 209 410 9600 30720 = some y) ∧
    (∃ y, scale raw 0 65 0 704 = some y) := by
  refine ⟨C10_defined _ _ _ _ _ ?_ ?_ ?_ ?_ ?_ ?_, C10_defined _ _ _ _ _ ?_ ?_ ?_ ?_ ?_ ?_,
    C10_defined _ _ _ _ _ ?_ ?_ ?_ ?_ ?_ ?_⟩ <;> first | decide | (unfold S16; omega) | omega

example : scale 300 210 411 9600 30720 = some 19057 := by decide   -- 297.8 C
example : scale 0 210 411 9600 30720 = some (-12466) := by decide  -- below the lower point
example : scale 32767 0 1 8000000 0 = none := by decide            -- overflow

/-! ### C11 unscale() -/

/-- Double rounding: nearest 1/64, then nearest integer. -/
theorem C11_rounding (phys physLo physHi rawLo rawHi y : Int) (hne : physHi ≠ physLo)
    (h : unscale phys physLo physHi rawLo rawHi = some y) :
    ∃ c n, NearestAway (((physHi - phys) * rawLo + (phys - physLo) * rawHi) * 64)
        (physHi - physLo) c ∧ NearestAway c 64 n ∧ y = toS16 n :=
  ⟨_, _, rdiv_spec _ _ (by omega), rdiv_spec _ _ (by decide), unscale_inv hne h⟩

theorem C11_endpoints (physLo physHi rawLo rawHi y : Int) (hne : physHi ≠ physLo)
    (hr : S16 rawLo ∧ S16 rawHi) :
    (unscale physLo physLo physHi rawLo rawHi = some y → y = rawLo) ∧
    (unscale physHi physLo physHi rawLo rawHi = some y → y = rawHi) := by
  constructor
  · intro h
    rw [unscale_inv hne h]
    have : unscaleNum physLo physLo physHi rawLo rawHi * 64 = (rawLo * 64) * (physHi - physLo) := by
      unfold unscaleNum; ring
    rw [this, rdiv_mul_self _ _ (by omega), rdiv_mul_self _ _ (by decide), toS16_eq hr.1]
  · intro h
    rw [unscale_inv hne h]
    have : unscaleNum physHi physLo physHi rawLo rawHi * 64 = (rawHi * 64) * (physHi - physLo) := by
      unfold unscaleNum; ring
    rw [this, rdiv_mul_self _ _ (by omega), rdiv_mul_self _ _ (by decide), toS16_eq hr.2]

/-- Inside the calibrated range the result stays between the raw end points. -/
theorem C11_range (phys physLo physHi rawLo rawHi y : Int) (hlt : physLo < physHi)
    (hp : physLo ≤ phys ∧ phys ≤ physHi) (hr : S16 rawLo ∧ S16 rawHi)
    (h : unscale phys physLo physHi rawLo rawHi = some y) :
    min rawLo rawHi ≤ y ∧ y ≤ max rawLo rawHi := by
  obtain ⟨h1, h2, -⟩ := unscale_range hlt hp hr h
  exact ⟨h1, h2⟩

/-- Error of at most 1/2 + 1/128 count against the exact line inside the calibrated range. -/
theorem C11_error (phys physLo physHi rawLo rawHi y : Int) (hlt : physLo < physHi)
    (hp : physLo ≤ phys ∧ phys ≤ physHi) (hr : S16 rawLo ∧ S16 rawHi)
    (h : unscale phys physLo physHi rawLo rawHi = some y) :
    128 * (y * (physHi - physLo) -
      ((physHi - phys) * rawLo + (phys - physLo) * rawHi)).natAbs
      ≤ 65 * (physHi - physLo).natAbs := by
  obtain ⟨-, -, hy⟩ := unscale_range hlt hp hr h
  obtain ⟨h1, -⟩ := rdiv_spec (((physHi - phys) * rawLo + (phys - physLo) * rawHi) * 64)
    (physHi - physLo) (by omega)
  obtain ⟨h2, -⟩ := rdiv_spec (rdiv (((physHi - phys) * rawLo + (phys - physLo) * rawHi) * 64)
    (physHi - physLo)) 64 (by decide)
  rw [← hy] at h2
  generalize rdiv (((physHi - phys) * rawLo + (phys - physLo) * rawHi) * 64)
    (physHi - physLo) = c at *
  generalize (physHi - phys) * rawLo + (phys - physLo) * rawHi = X at *
  generalize physHi - physLo = D at *
  -- 64*X - c*D  and c - 64*y
  have k1 : 128 * (y * D - X).natAbs ≤ 2 * ((64 * y - c) * D).natAbs + 2 * (X * 64 - c * D).natAbs := by
    have : 64 * (y * D - X) = (64 * y - c) * D - (X * 64 - c * D) := by ring
    omega
  have k2 : 2 * ((64 * y - c) * D).natAbs ≤ 64 * D.natAbs := by
    rw [Int.natAbs_mul]
    have h3 : 2 * (64 * y - c).natAbs ≤ 64 := by omega
    have := Nat.mul_le_mul_right D.natAbs h3
    have e : 2 * (64 * y - c).natAbs * D.natAbs = 2 * ((64 * y - c).natAbs * D.natAbs) := by ring
    omega
  omega

/-- Monotone (falling if the raw range is inverted) inside the calibrated range. -/
theorem C11_mono (phys phys' physLo physHi rawLo rawHi y y' : Int) (hlt : physLo < physHi)
    (hp : physLo ≤ phys ∧ phys ≤ phys' ∧ phys' ≤ physHi) (hr : S16 rawLo ∧ S16 rawHi)
    (h : unscale phys physLo physHi rawLo rawHi = some y)
    (h' : unscale phys' physLo physHi rawLo rawHi = some y') :
    (rawLo ≤ rawHi → y ≤ y') ∧ (rawHi ≤ rawLo → y' ≤ y) := by
  obtain ⟨-, -, e⟩ := unscale_range hlt (by omega) hr h
  obtain ⟨-, -, e'⟩ := unscale_range hlt (by omega) hr h'
  constructor <;> intro hc
  · rw [e, e']
    apply rdiv_mono (by decide)
    apply rdiv_mono (by omega)
    nlinarith
  · rw [e, e']
    apply rdiv_mono (by decide)
    apply rdiv_mono (by omega)
    nlinarith

/-- The overflow-free domain: the two products of the line and their sum below 33 million. -/
theorem C11_defined (phys physLo physHi rawLo rawHi : Int) (hne : physHi ≠ physLo)
    (hp : S24 phys) (hl : S24 physLo) (hh : S24 physHi) (hrl : S16 rawLo) (hrh : S16 rawHi)
    (h1 : ((physHi - phys) * rawLo).natAbs ≤ 33000000) (h2 : ((phys - physLo) * rawHi).natAbs ≤ 33000000)
    (h3 : ((physHi - phys) * rawLo + (phys - physLo) * rawHi).natAbs ≤ 33000000) :
    ∃ y, unscale phys physLo physHi rawLo rawHi = some y :=
  ⟨_, unscale_eq hne hp hl hh hrl hrh h1 h2 h3⟩

/-- The only use in the firmware, the duty cycle of every current (pwm_current.c:45-48), is inside of it. -/
theorem C11_shipped (amps : Int) (h : 0 ≤ amps ∧ amps ≤ 3200) : ∃ y, unscale amps 0 3200 0x1FFF 0 = some y := by
  refine C11_defined _ _ _ _ _ ?_ ?_ ?_ ?_ ?_ ?_ ?_ ?_ ?_ <;> first | decide | (unfold S24; omega) | omega

example : unscale 1600 0 3200 0x1FFF 0 = some 4096 := by decide
example : unscale 8000000 0 8000000 0 32767 = none := by decide  -- overflow
example : unscale 0 0 3200 0x1FFF 0 = some 0x1FFF ∧ unscale 3200 0 3200 0x1FFF 0 = some 0 := by
  decide

/-! ### C12 rescale() -/

/-- The overflow-free domain: the two products of the line together below 2111 million. -/
theorem C12_defined (p0 p0Lo p0Hi p1Lo p1Hi : Int) (hne : p0Hi ≠ p0Lo) (hp : S24 p0) (hl : S24 p0Lo) (hh : S24 p0Hi)
    (h : (p1Lo * (p0Hi - p0)).natAbs + (p1Hi * (p0 - p0Lo)).natAbs ≤ 2111000000) :
    ∃ y, rescale p0 p0Lo p0Hi p1Lo p1Hi = some y :=
  ⟨_, rescale_eq hne hp hl hh (by omega) (by omega) (by omega)⟩

/-- The only use in the firmware, the current for every output of the temperature controller
    (controller_temp.c:115-119), is inside of it. -/
theorem C12_shipped (temp : Int) (h : 0 ≤ temp ∧ temp ≤ 480 * 64) : ∃ y, rescale temp 0 (250 * 64) 0 (5 * 640) = some y := by
  refine C12_defined _ _ _ _ _ ?_ ?_ ?_ ?_ ?_ <;> first | decide | (unfold S24; omega) | omega

example : rescale (480 * 64) 0 (250 * 64) 0 (5 * 640) = some 6144 := by decide
example : rescale 8000000 0 16000 0 3200 = none := by decide  -- overflow

/-- Error bound: half a step plus the rounding of the two products. -/
theorem C12_error (p0 p0Lo p0Hi p1Lo p1Hi y : Int) (hne : p0Hi ≠ p0Lo)
    (h : rescale p0 p0Lo p0Hi p1Lo p1Hi = some y) :
    ∃ n, LimitedTo (-8388607) 8388607 n y ∧
      2 * (n * (p0Hi - p0Lo) - (p1Lo * (p0Hi - p0) + p1Hi * (p0 - p0Lo))).natAbs
        ≤ (p0Hi - p0Lo).natAbs + 128 := by
  rw [rescale_inv hne h]
  refine ⟨rdiv (((p1Lo * (p0Hi - p0) + 32) / 64 + (p1Hi * (p0 - p0Lo) + 32) / 64) * 64)
    (p0Hi - p0Lo), by unfold LimitedTo sat; omega, ?_⟩
  obtain ⟨h1, -⟩ := rdiv_spec
    (((p1Lo * (p0Hi - p0) + 32) / 64 + (p1Hi * (p0 - p0Lo) + 32) / 64) * 64)
    (p0Hi - p0Lo) (by omega)
  generalize rdiv (((p1Lo * (p0Hi - p0) + 32) / 64 + (p1Hi * (p0 - p0Lo) + 32) / 64) * 64)
    (p0Hi - p0Lo) = n at *
  generalize p1Lo * (p0Hi - p0) = A at *
  generalize p1Hi * (p0 - p0Lo) = B at *
  generalize n * (p0Hi - p0Lo) = X at *
  omega

/-- Both end points are hit exactly when the source range spans more than one unit (64 steps). -/
theorem C12_endpoints (p0Lo p0Hi p1Lo p1Hi y : Int) (hD : 64 < (p0Hi - p0Lo).natAbs)
    (hl : -8388607 ≤ p1Lo ∧ p1Lo ≤ 8388607) (hh : -8388607 ≤ p1Hi ∧ p1Hi ≤ 8388607) :
    (rescale p0Lo p0Lo p0Hi p1Lo p1Hi = some y → y = p1Lo) ∧
    (rescale p0Hi p0Lo p0Hi p1Lo p1Hi = some y → y = p1Hi) := by
  constructor
  · intro h
    rw [rescale_inv (by omega) h, Int.sub_self, Int.mul_zero]
    have : rdiv (((p1Lo * (p0Hi - p0Lo) + 32) / 64 + (0 + 32) / 64) * 64) (p0Hi - p0Lo)
        = p1Lo := by
      apply rdiv_eq (by omega)
      unfold NearestAway
      generalize p1Lo * (p0Hi - p0Lo) = A at *
      omega
    rw [this]; unfold sat; omega
  · intro h
    rw [rescale_inv (by omega) h, Int.sub_self, Int.mul_zero]
    have : rdiv (((0 + 32) / 64 + (p1Hi * (p0Hi - p0Lo) + 32) / 64) * 64) (p0Hi - p0Lo)
        = p1Hi := by
      apply rdiv_eq (by omega)
      unfold NearestAway
      generalize p1Hi * (p0Hi - p0Lo) = A at *
      omega
    rw [this]; unfold sat; omega

/-- Monotone when the target range contains zero (as in the firmware's single use). -/
theorem C12_mono (p0 p0' p0Lo p0Hi p1Lo p1Hi y y' : Int) (hlt : p0Lo < p0Hi)
    (h1 : p1Lo ≤ 0 ∧ 0 ≤ p1Hi) (hle : p0 ≤ p0')
    (h : rescale p0 p0Lo p0Hi p1Lo p1Hi = some y)
    (h' : rescale p0' p0Lo p0Hi p1Lo p1Hi = some y') : y ≤ y' := by
  rw [rescale_inv (by omega) h, rescale_inv (by omega) h']
  apply sat_mono
  apply rdiv_mono (by omega)
  have a1 : p1Lo * (p0Hi - p0) ≤ p1Lo * (p0Hi - p0') :=
    Int.mul_le_mul_of_nonpos_left (by omega) (by omega)
  have a2 : p1Hi * (p0 - p0Lo) ≤ p1Hi * (p0' - p0Lo) :=
    Int.mul_le_mul_of_nonneg_left (by omega) (by omega)
  omega

/-- Without that condition monotonicity can fail by one rounding step. -/
theorem C12_mono_general_false :
    ¬ ∀ p0 p0' p0Lo p0Hi p1Lo p1Hi y y' : Int, p0Lo < p0Hi → p1Lo ≤ p1Hi → p0 ≤ p0' →
      rescale p0 p0Lo p0Hi p1Lo p1Hi = some y →
      rescale p0' p0Lo p0Hi p1Lo p1Hi = some y' → y ≤ y' := by
  intro h
  exact absurd (h 0 1 0 2 16 16 32 0 (by decide) (by decide) (by decide)
    (by decide) (by decide)) (by decide)

example : rescale 8000 0 16000 0 3200 = some 1600 := by decide
example : rescale 30720 0 16000 0 3200 = some 6144 := by decide

/-! ### C13 PWM duty -/

theorem C13_defined (amps : Int) (h : 0 ≤ amps ∧ amps ≤ 3200) :
    ∃ d, pwmDuty amps = some d ∧ 0 ≤ d ∧ d ≤ 0x1FFF ∧
      128 * (d * 3200 - (3200 - amps) * 0x1FFF).natAbs ≤ 65 * 3200 := by
  have hu := unscale_eq (phys := amps) (physLo := 0) (physHi := 3200) (rawLo := 0x1FFF)
    (rawHi := 0) (by decide) (by unfold S24; omega) (by decide) (by decide) (by decide) (by decide)
    (by omega) (by omega) (by unfold unscaleNum; omega)
  obtain ⟨h1, h2⟩ := C11_range amps 0 3200 0x1FFF 0 _ (by decide) h (by decide) hu
  have h4 := C11_error amps 0 3200 0x1FFF 0 _ (by decide) h (by decide) hu
  refine ⟨toU16 _, by unfold pwmDuty CURR_NEGLIM CURR_POSLIM PWMCURR_MAX_DUTY; rw [hu]; rfl, ?_⟩
  generalize toS16 _ = z at *
  have : toU16 z = z := by unfold toU16; omega
  rw [this]
  omega

theorem C13_antitone (a b : Int) (h : 0 ≤ a ∧ a ≤ b ∧ b ≤ 3200) :
    ∃ da db, pwmDuty a = some da ∧ pwmDuty b = some db ∧ db ≤ da := by
  have hu (amps : Int) (h : 0 ≤ amps ∧ amps ≤ 3200) := unscale_eq (phys := amps) (physLo := 0)
    (physHi := 3200) (rawLo := 0x1FFF)
    (rawHi := 0) (by decide) (by unfold S24; omega) (by decide) (by decide) (by decide) (by decide)
    (by omega) (by omega) (by unfold unscaleNum; omega)
  have ha := hu a (by omega)
  have hb := hu b (by omega)
  have hm := (C11_mono a b 0 3200 0x1FFF 0 _ _ (by decide) h (by decide) ha hb).2 (by decide)
  obtain ⟨a1, a2⟩ := C11_range a 0 3200 0x1FFF 0 _ (by decide) (by omega) (by decide) ha
  obtain ⟨b1, b2⟩ := C11_range b 0 3200 0x1FFF 0 _ (by decide) (by omega) (by decide) hb
  refine ⟨toU16 _, toU16 _, by unfold pwmDuty CURR_NEGLIM CURR_POSLIM PWMCURR_MAX_DUTY; rw [ha]; rfl,
    by unfold pwmDuty CURR_NEGLIM CURR_POSLIM PWMCURR_MAX_DUTY; rw [hb]; rfl, ?_⟩
  unfold toU16
  omega

theorem C13_endpoints : pwmDuty 0 = some 0x1FFF ∧ pwmDuty 3200 = some 0 := by decide

example : pwmDuty 1280 = some 4915 := by decide  -- 2 A

end Verif.Props
