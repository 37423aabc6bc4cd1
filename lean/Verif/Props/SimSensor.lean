import Verif.Model.SimSensor
import Verif.Spec.Sim
import Verif.Props.Measure
import Verif.Props.Current
import Verif.Props.Safety
import Mathlib.Tactic.Linarith
import Mathlib.Tactic.NormNum
import Mathlib.Tactic.Ring
import Mathlib.Tactic.FieldSimp
/-
Property C91: what the simulator tells the firmware about the iron, and what it reads from it.
-/
namespace Verif.Props
open Spec

/-! ### rounding -/

private theorem round_near (q : Rat) : Within (1 / 2) (pyRound q : Int) q := by
  have h1 := Rat.floor_le q
  have h2 := @Rat.lt_floor q
  unfold pyRound Within
  simp only
  split
  · constructor <;> linarith
  · split
    · push_cast; constructor <;> linarith
    · have h3 : q - q.floor = 1 / 2 := by linarith
      split
      · constructor <;> linarith
      · push_cast; constructor <;> linarith

private theorem near_unique {n m : Int} {q e : Rat} (he : e < 1 / 2) (h1 : Within (1 / 2) n q) (h2 : Within e m q) : n = m := by
  obtain ⟨a1, a2⟩ := h1
  obtain ⟨b1, b2⟩ := h2
  have h3 : (n : Rat) - m < 1 := by linarith
  have h4 : (m : Rat) - n < 1 := by linarith
  have h3' : n - m < 1 := by exact_mod_cast h3
  have h4' : m - n < 1 := by exact_mod_cast h4
  omega

private theorem adcSet_id {n : Int} (h : 0 ≤ n ∧ n ≤ 65535) : simAdcSet n = n := by
  unfold simAdcSet cMin toU32 toU16
  split <;> omega

/-! ### the temperature -/

/-- A temperature from -194 to 1484 degrees becomes a reading of the ADC (0..1023) which the firmware, with the
    calibration of the SMD build, takes for that temperature, up to 0.83 degrees. -/
theorem C91_temp (deg : Rat) (h : -194 ≤ deg ∧ deg ≤ 1484) :
    ∃ raw, simTempSet deg = some raw ∧ 0 ≤ raw ∧ raw ≤ 1023 ∧
      ∀ (c : Conf) (adj v : Int), c.smd = true → TempValue c raw adj v →
        Within (83 / 100) ((v + adj : Int) / 64) deg := by
  have e : pyUnscale deg 150 480 210 411 = some (pyRound (201 * (deg - 150) / 330 + 210)) := by
    unfold pyUnscale pyDoScale
    norm_num
  obtain ⟨r1, r2⟩ := round_near (201 * (deg - 150) / 330 + 210)
  have b1 : (-1 : Rat) < (pyRound (201 * (deg - 150) / 330 + 210) : Int) := by linarith
  have b2 : ((pyRound (201 * (deg - 150) / 330 + 210) : Int) : Rat) < 1024 := by linarith
  unfold simTempSet
  rw [e, Option.map_some]
  generalize pyRound (201 * (deg - 150) / 330 + 210) = raw at *
  have b1' : -1 < raw := by exact_mod_cast b1
  have b2' : raw < 1024 := by exact_mod_cast b2
  refine ⟨raw, congrArg some (adcSet_id (by omega)), by omega, by omega, fun c adj v hc hv => ?_⟩
  obtain ⟨n, ⟨hn, -⟩, rfl⟩ := hv
  unfold sensorRaw at hn
  rw [hc, if_pos rfl] at hn
  have k1 : 2 * (21120 * (raw - 210) - n * 201) ≤ 201 := by simp only at hn; omega
  have k2 : -201 ≤ 2 * (21120 * (raw - 210) - n * 201) := by simp only at hn; omega
  have k1' : (2 : Rat) * (21120 * (raw - 210) - n * 201) ≤ 201 := by exact_mod_cast k1
  have k2' : (-201 : Rat) ≤ 2 * (21120 * (raw - 210) - n * 201) := by exact_mod_cast k2
  unfold Within
  push_cast
  constructor <;> linarith

/-- the temperature of the simulated iron in the program, 100 degrees: the reading is 180, and the firmware takes it for
    100.75 degrees -/
example : simTempSet 100 = some 180 ∧ TempValue .m328p 180 0 6448 := by
  refine ⟨by decide +kernel, -3152, ?_, by decide⟩
  unfold NearestAway sensorRaw
  decide

/-- Below -195 degrees the reading wraps: it is 65535, which no ADC of 10 bits yields. -/
theorem C91_temp_low : simTempSet (-200) = some 65535 := by decide +kernel

/-- In the running firmware: if all samples of a temperature measurement are the reading for a temperature, and that
    temperature (without the user's adjustment) is from -19 to 499 degrees, then the evaluation gives the temperature
    controller this temperature, up to 0.83 degrees. -/
theorem C91_feedback (c : Conf) (s s' : Sys) (xs : List Nat) (deg : Rat) (raw : Nat) (hc : c.smd = true)
    (h : Sampled c s xs) (hraw : simTempSet deg = some (raw : Int)) (hxs : ∀ x ∈ xs, x = raw)
    (hr : s.meas.resultAvail = true) (ha : s.meas.active = 1)
    (hdeg : -19 ≤ deg - (adjInForce c s.set.cache : Int) / 64 ∧ deg - (adjInForce c s.set.cache : Int) / 64 ≤ 499)
    (hlim : -194 ≤ deg ∧ deg ≤ 1484) (hs : step c s .measureWork = some s') :
    Within (83 / 100) (s'.ct.feedback / 64) (deg - (adjInForce c s.set.cache : Int) / 64) := by
  obtain ⟨r, e, h0, h1, hv⟩ := C91_temp deg hlim
  rw [hraw] at e
  cases e
  obtain ⟨m1, m2, m3⟩ := C31_mean c s xs h hr
  have hm := m3 raw raw (fun x hx => by rw [hxs x hx]; exact ⟨le_refl _, le_refl _⟩)
  have hmean : s.meas.avgSum / s.meas.avgCount = (raw : Int) := by
    obtain ⟨k1, k2, k3⟩ := C31_sum c s xs h
    rw [k1, k2, ← Int.natCast_ediv]
    exact congrArg _ (le_antisymm hm.2 hm.1)
  have hn := rdiv_spec ((480 - 150) * 64 * ((raw : Int) - (sensorRaw c).1))
    ((sensorRaw c).2 - (sensorRaw c).1) (by unfold sensorRaw; rw [hc]; decide)
  generalize rdiv _ _ = n at hn
  have hval : TempValue c raw (adjInForce c s.set.cache) (150 * 64 + n - adjInForce c s.set.cache) := ⟨n, hn, rfl⟩
  obtain ⟨w1, w2⟩ := hv c _ _ hc hval
  have hready : TempReady c s (150 * 64 + n - adjInForce c s.set.cache) := ⟨hr, ha, by rw [hmean]; exact hval⟩
  generalize 150 * 64 + n - adjInForce c s.set.cache = v at *
  push_cast at w1 w2
  have hp : PlausibleTemp v := by
    have p1 : (-1280 : Rat) ≤ v := by linarith [hdeg.1]
    have p2 : (v : Rat) ≤ 32000 := by linarith [hdeg.2]
    exact ⟨by exact_mod_cast p1, by exact_mod_cast p2⟩
  rw [(C32_temperature c s s' v (sampled_running h) hready hs).1 hp]
  constructor <;> linarith

private theorem sampled_ticks {c : Conf} : ∀ (n : Nat) (s : Sys) (xs : List Nat), Sampled c s xs →
    Sampled c { s with now := Nat.iterate timerTick n s.now } xs := by
  intro n
  induction n with
  | zero => intro s xs h; exact h
  | succ n ih =>
    intro s xs h
    exact ih { s with now := timerTick s.now } xs (h.other (e := .tick) rfl rfl (by simp) (by simp))

set_option maxRecDepth 100000 in
/-- the first temperature measurement of the simulated iron, with 100 degrees -/
example : ∃ s, Sampled .m88p s [180] ∧ s.meas.resultAvail = true ∧ s.meas.active = 1 ∧ simTempSet 100 = some 180 ∧
    Conf.m88p.smd = true ∧ adjInForce .m88p s.set.cache = 0 := by
  obtain ⟨s0, e0⟩ : ∃ s, boot .m88p (shippedEeprom .m88p) 0xFF = some s := by
    obtain ⟨s, e, -⟩ := boot_ok (pinb := 0xFF) validEeprom_m88p
    exact ⟨s, e⟩
  have hx : ((boot .m88p (shippedEeprom .m88p) 0xFF).map fun s =>
      (s.now, s.meas.adcOn, s.meas.active, s.meas.avgCount, s.meas.avgTimer, adjInForce .m88p s.set.cache)) =
      some (0, true, 1, 0, 50, 0) := by decide
  rw [e0] at hx
  simp only [Option.map_some, Option.some.injEq, Prod.mk.injEq] at hx
  obtain ⟨x1, x2, x3, x4, x5, x6⟩ := hx
  have a1 := sampled_ticks 50 _ _ (Sampled.boot validEeprom_m88p e0)
  have a2 := a1.sample (x := 180) (by simp [possible, x2, x4]) rfl
  refine ⟨_, a2, ?_, ?_, by decide +kernel, rfl, x6⟩
  · show (adcIsr (Nat.iterate timerTick 50 s0.now) s0.meas 180).resultAvail = true
    unfold adcIsr
    rw [x1]
    simp only [x5]
    rfl
  · show (adcIsr (Nat.iterate timerTick 50 s0.now) s0.meas 180).active = 1
    unfold adcIsr
    rw [x1]
    simp only [x5]
    exact x3

/-! ### the current -/

/-- A current from 0 to 17 A becomes a reading of the ADC which the firmware takes for that current, up to 0.01 A. -/
theorem C91_curr (amps : Rat) (h : 0 ≤ amps ∧ amps ≤ 17) :
    ∃ raw, simCurrSet amps = some raw ∧ 0 ≤ raw ∧ raw ≤ 1023 ∧
      ∀ v, CurrValue raw v → Within (1 / 100) ((v : Int) / 640) amps := by
  have e : pyUnscale amps 0 (11 / 10) 0 65 = some (pyRound (65 * amps / (11 / 10))) := by
    unfold pyUnscale pyDoScale
    norm_num
  obtain ⟨r1, r2⟩ := round_near (65 * amps / (11 / 10))
  have b1 : (-1 : Rat) < (pyRound (65 * amps / (11 / 10)) : Int) := by linarith
  have b2 : ((pyRound (65 * amps / (11 / 10)) : Int) : Rat) < 1024 - 18 := by linarith
  unfold simCurrSet
  rw [e, Option.map_some]
  generalize pyRound (65 * amps / (11 / 10)) = raw at *
  have b1' : -1 < raw := by exact_mod_cast b1
  have b2' : raw < 1024 - 18 := by exact_mod_cast b2
  refine ⟨raw, congrArg some (adcSet_id (by omega)), by omega, by omega, fun v hv => ?_⟩
  obtain ⟨hn, -⟩ := hv
  have k1 : 2 * (704 * raw - v * 65) ≤ 65 := by omega
  have k2 : -65 ≤ 2 * (704 * raw - v * 65) := by omega
  have k1' : (2 : Rat) * (704 * raw - v * 65) ≤ 65 := by exact_mod_cast k1
  have k2' : (-65 : Rat) ≤ 2 * (704 * raw - v * 65) := by exact_mod_cast k2
  unfold Within
  constructor <;> linarith

/-- the current of the simulated iron in the program, 4 A: the reading is 236, and the firmware takes it for 3.99 A -/
example : simCurrSet 4 = some 236 ∧ CurrValue 236 2556 := by
  refine ⟨by decide +kernel, ?_⟩
  unfold CurrValue NearestAway
  decide

/-- The simulator reads the current which the heater is programmed for, up to 0.0004 A. -/
theorem C91_pwm (ocr amps : Int) (h : HeaterAt ocr amps) :
    ∃ a, simPwmGet ocr 0x1FFF = some a ∧ Within (4 / 10000) a (amps / 640) := by
  obtain ⟨-, -, h⟩ := h
  refine ⟨5 * (8191 - ocr) / 8191, ?_, ?_⟩
  · unfold simPwmGet pyScale pyDoScale
    norm_num
    ring
  · have k1 : 128 * (ocr * 3200 - (3200 - amps) * 8191) ≤ 65 * 3200 := by omega
    have k2 : -(65 * 3200) ≤ 128 * (ocr * 3200 - (3200 - amps) * 8191) := by omega
    have k1' : (128 : Rat) * (ocr * 3200 - (3200 - amps) * 8191) ≤ 65 * 3200 := by exact_mod_cast k1
    have k2' : -(65 * 3200 : Rat) ≤ 128 * (ocr * 3200 - (3200 - amps) * 8191) := by exact_mod_cast k2
    unfold Within
    constructor <;> linarith

/-- In the running firmware this is a current from 0 to 5 A. -/
theorem C91_pwm_running (c : Conf) (s : Sys) (h : Running c s) :
    ∃ a amps, simPwmGet s.ocr 0x1FFF = some a ∧ 0 ≤ amps ∧ amps ≤ 5 * 640 ∧ HeaterAt s.ocr amps ∧
      Within (4 / 10000) a ((amps : Int) / 640) ∧ 0 ≤ a ∧ a ≤ 5 := by
  obtain ⟨amps, h1, h2, h3⟩ := C35_heater_range c s h
  obtain ⟨a, e, ha⟩ := C91_pwm _ _ h3
  refine ⟨a, amps, e, h1, h2, h3, ha, ?_⟩
  have e' : simPwmGet s.ocr 0x1FFF = some (5 * (8191 - (s.ocr : Rat)) / 8191) := by
    unfold simPwmGet pyScale pyDoScale
    norm_num
    ring
  rw [e] at e'
  cases e'
  obtain ⟨o1, o2, -⟩ := h3
  have o1' : (0 : Rat) ≤ s.ocr := by exact_mod_cast o1
  have o2' : (s.ocr : Rat) ≤ 8191 := by exact_mod_cast o2
  constructor <;> linarith

example : simPwmGet 0x1FFF 0x1FFF = some 0 ∧ simPwmGet 0 0x1FFF = some 5 ∧ simPwmGet 0 0 = none := by decide +kernel

/-! ### the settings -/

/-- A number which is written is rounded to the nearest step. -/
theorem C91_float (f : Rat) : Within (1 / 128) (pyFloatToFixpt f / 64) f := by
  unfold pyFloatToFixpt pyTrunc Within
  split
  · rename_i h
    rw [if_pos (by linarith)]
    have h1 := Rat.floor_le (-(f * 64 - 1 / 2))
    have h2 := @Rat.lt_floor (-(f * 64 - 1 / 2))
    push_cast
    constructor <;> linarith
  · rename_i h
    rw [if_neg (by linarith)]
    have h1 := Rat.floor_le (f * 64 + 1 / 2)
    have h2 := @Rat.lt_floor (f * 64 + 1 / 2)
    constructor <;> linarith

example : pyFloatToFixpt (4 / 5) = 51 ∧ pyFloatToFixpt (-3 / 128) = -2 := by decide +kernel

private theorem fixptToFloat_eq {v : Int} (h : S24 v) : pyFixptToFloat v = v / 64 := by
  have key : ∀ n : Int, 0 ≤ n → n ≤ 8388608 → ((n % 16777216 / 64 : Int) : Rat) + ((n % 64 : Int) : Rat) / 64 = n / 64 := by
    intro n h0 h1
    have e : n % 16777216 / 64 * 64 + n % 64 = n := by omega
    have e' : ((n % 16777216 / 64 : Int) : Rat) * 64 + ((n % 64 : Int) : Rat) = n := by exact_mod_cast e
    linarith
  unfold S24 at h
  unfold pyFixptToFloat
  simp only
  by_cases hv : v < 0
  · have e1 : (if v / 8388608 % 2 = 1 then -(-v % 16777216) else v) = v := by rw [if_pos (by omega)]; omega
    rw [e1, if_pos hv, key (v * -1) (by omega) (by omega)]
    push_cast
    ring
  · have e1 : (if v / 8388608 % 2 = 1 then -(-v % 16777216) else v) = v := by rw [if_neg (by omega)]
    rw [e1, if_neg hv, key (v * 1) (by omega) (by omega)]
    push_cast
    ring

/-- The number which a setting in steps of 1/64 is shown as is exact, and writing it back gives the same setting. -/
theorem C91_fixpt (v : Int) (h : S24 v) : pyFixptToFloat v = v / 64 ∧ pyFloatToFixpt (pyFixptToFloat v) = v := by
  refine ⟨fixptToFloat_eq h, ?_⟩
  rw [fixptToFloat_eq h]
  unfold pyFloatToFixpt pyTrunc
  by_cases hv : v < 0
  · have hv' : (v : Rat) < 0 := by exact_mod_cast hv
    rw [if_pos (by linarith), if_pos (by linarith)]
    have h1 := Rat.floor_le (-((v : Rat) / 64 * 64 - 1 / 2))
    have h2 := @Rat.lt_floor (-((v : Rat) / 64 * 64 - 1 / 2))
    generalize Rat.floor _ = n at *
    have h3 : ((n + v : Int) : Rat) < 1 := by push_cast; linarith
    have h4 : (-1 : Rat) < ((n + v : Int) : Rat) := by push_cast; linarith
    have h3' : n + v < 1 := by exact_mod_cast h3
    have h4' : -1 < n + v := by exact_mod_cast h4
    omega
  · have hv' : (0 : Rat) ≤ v := by exact_mod_cast (by omega : 0 ≤ v)
    rw [if_neg (by linarith), if_neg (by linarith)]
    have h1 := Rat.floor_le ((v : Rat) / 64 * 64 + 1 / 2)
    have h2 := @Rat.lt_floor ((v : Rat) / 64 * 64 + 1 / 2)
    generalize Rat.floor _ = n at *
    have h3 : ((n - v : Int) : Rat) < 1 := by push_cast; linarith
    have h4 : (-1 : Rat) < ((n - v : Int) : Rat) := by push_cast; linarith
    have h3' : n - v < 1 := by exact_mod_cast h3
    have h4' : -1 < n - v := by exact_mod_cast h4
    omega

example : pyFixptToFloat (-8388608) = -131072 ∧ pyFixptToFloat (-77) = -77 / 64 := by decide +kernel

end Verif.Props
