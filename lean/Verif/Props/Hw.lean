import Verif.Spec.Hw
import Verif.Props.Scale
import Verif.Proofs.Effects
import Verif.Proofs.Demo
/-
C83: the configuration of the hardware.
-/
namespace Verif.Props
open Spec

private def regsOf (chan : Nat) (on : Bool) (d : BitVec 8) : AdcRegs :=
  ⟨if chan = 0 then 2 else 1, if on then 0xEE else 0, 0, d⟩

private theorem freeRunning_of (a d : BitVec 8) : FreeRunning ⟨a, 0xEE, 0, d⟩ := by
  show (0xEE#8).getLsbD 7 = true ∧ (0xEE#8).getLsbD 6 = true ∧ (0xEE#8).getLsbD 5 = true ∧ (0xEE#8).getLsbD 3 = true ∧
    0#8 &&& 7#8 = 0#8
  decide

private theorem divider_of (a d : BitVec 8) : adcDivider ⟨a, 0xEE, 0, d⟩ = 64 := by
  show (if (0xEE#8 &&& 7#8).toNat = 0 then 2 else 2 ^ (0xEE#8 &&& 7#8).toNat) = 64
  decide

private theorem adc_inv {c : Conf} {s : Sys} {r : AdcRegs} (h : AdcRunning c s r) :
    Running c s ∧ s.meas.adcOn = !s.meas.resultAvail ∧
    ∃ d, d.getLsbD (if s.meas.active = 0 then 2 else 1) = true ∧
      r = regsOf s.meas.active s.meas.adcOn d := by
  induction h with
  | @boot ee pinb s r hv e er =>
    obtain ⟨-, st, -, b, t, hb, -, rfl⟩ := (boot_ok hv).elim e
    have ha : b.meas.resultAvail = false := hb.avail
    have er' : r = ⟨1, 0xEE, 0, 2⟩ := (Option.some.inj er).symm.trans (by decide)
    refine ⟨Running.boot hv e, by show true = !b.meas.resultAvail; rw [ha]; rfl, 2, ?_, ?_⟩
    · show (2#8).getLsbD 1 = true
      decide
    rw [er']
    rfl
  | @step s r e s' r' _ hp hs hr ih =>
    obtain ⟨hrun, hon, d, hd, hreg⟩ := ih
    have hi := Running.inv hrun
    refine ⟨hrun.step hp hs, ?_⟩
    by_cases h1 : ∃ x, e = .adc x
    · obtain ⟨x, rfl⟩ := h1
      have hs : some _ = some s' := hs
      have hs := Option.some.inj hs
      have hr : some _ = some r' := hr
      have hr := Option.some.inj hr
      have hadc : s.meas.adcOn = true := by
        simp only [possible, Bool.and_eq_true] at hp
        exact hp.1.1
      rw [← hs, ← hr]
      by_cases ht : timerExpired s.now s.meas.avgTimer = true
      · have k1 : (adcIsr s.now s.meas x).resultAvail = true := by unfold adcIsr; simp [ht]
        have k2 : (adcIsr s.now s.meas x).adcOn = false := by unfold adcIsr; simp [ht]
        have k3 : (adcIsr s.now s.meas x).active = s.meas.active := by unfold adcIsr; simp [ht]
        rw [if_pos ht]
        show (adcIsr s.now s.meas x).adcOn = (!(adcIsr s.now s.meas x).resultAvail) ∧ ∃ d,
          d.getLsbD (if (adcIsr s.now s.meas x).active = 0 then 2 else 1) = true ∧
          adcDisable r = regsOf (adcIsr s.now s.meas x).active (adcIsr s.now s.meas x).adcOn d
        rw [k1, k2, k3, hreg]
        exact ⟨rfl, d, hd, rfl⟩
      · have k1 : (adcIsr s.now s.meas x).resultAvail = s.meas.resultAvail := by unfold adcIsr; simp [ht]
        have k2 : (adcIsr s.now s.meas x).adcOn = s.meas.adcOn := by unfold adcIsr; simp [ht]
        have k3 : (adcIsr s.now s.meas x).active = s.meas.active := by unfold adcIsr; simp [ht]
        rw [if_neg ht]
        show (adcIsr s.now s.meas x).adcOn = (!(adcIsr s.now s.meas x).resultAvail) ∧ ∃ d,
          d.getLsbD (if (adcIsr s.now s.meas x).active = 0 then 2 else 1) = true ∧
          r = regsOf (adcIsr s.now s.meas x).active (adcIsr s.now s.meas x).adcOn d
        rw [k1, k2, k3]
        exact ⟨hon, d, hd, hreg⟩
    · by_cases h2 : e = .measureWork ∧ s.meas.resultAvail = true
      · obtain ⟨rfl, hav⟩ := h2
        rcases measureWork_eff hi hs with ⟨h, -⟩ | ⟨-, p, pl, hm⟩
        · rw [hav] at h; cases h
        obtain ⟨_, _, _, -, k⟩ := hm.meas
        have k1 : s'.meas.resultAvail = false := by rw [k]
        have k2 : s'.meas.adcOn = true := by rw [k]
        have k3 : s'.meas.active = 1 - s.meas.active := by rw [k]
        have hr : (if s.meas.resultAvail = true then (adcSel (ringNext s.meas.active 1)).map
          fun x => adcTrigger r x true true else some r) = some r' := hr
        rw [if_pos hav] at hr
        rw [k1, k2, k3]
        refine ⟨rfl, ?_⟩
        have ha := hi.meas.act
        have hcases : s.meas.active = 0 ∨ s.meas.active = 1 := by omega
        rcases hcases with h0 | h0
        · rw [h0] at hr ⊢
          have hr := Option.some.inj hr
          refine ⟨r.didr0 ||| 2, ?_, ?_⟩
          · simp
          · rw [← hr]; rfl
        · rw [h0] at hr ⊢
          have hr := Option.some.inj hr
          refine ⟨r.didr0 ||| 4, ?_, ?_⟩
          · simp
          · rw [← hr]; rfl
      · have hm := step_meas hi hs (fun x hx => h1 ⟨x, hx⟩) h2
        have k1 : s'.meas.resultAvail = s.meas.resultAvail := (congrArg Meas.resultAvail hm :)
        have k2 : s'.meas.adcOn = s.meas.adcOn := (congrArg Meas.adcOn hm :)
        have k3 : s'.meas.active = s.meas.active := (congrArg Meas.active hm :)
        have hr' : r' = r := by
          cases e with
          | adc x => exact absurd ⟨x, rfl⟩ h1
          | measureWork =>
            have hav : ¬ s.meas.resultAvail = true := fun h => h2 ⟨rfl, h⟩
            have hr : (if s.meas.resultAvail = true then (adcSel (ringNext s.meas.active 1)).map
              fun x => adcTrigger r x true true else some r) = some r' := hr
            rw [if_neg hav] at hr
            exact (Option.some.inj hr).symm
          | tick => exact (Option.some.inj hr).symm
          | eeIsr => exact (Option.some.inj hr).symm
          | eeDone => exact (Option.some.inj hr).symm
          | menuWork => exact (Option.some.inj hr).symm
          | displayWork => exact (Option.some.inj hr).symm
          | buttonsWork p => exact (Option.some.inj hr).symm
          | settingsWork => exact (Option.some.inj hr).symm
        rw [k1, k2, k3, hr']
        exact ⟨hon, d, hd, hreg⟩

/-- Either a result is waiting for the main loop, and the ADC is off; or the ADC converts again and again the input of
    the active channel (the current at ADC2 or the temperature at ADC1), against AREF, with results of 0 to 1023, with
    a clock of 125 kHz, and with the digital input of the pin switched off. -/
theorem C83_adc (c : Conf) (s : Sys) (r : AdcRegs) (h : AdcRunning c s r) :
    if s.meas.resultAvail = true then AdcOff r
    else FreeRunning r ∧ adcInput r = (if s.meas.active = 0 then 2 else 1) ∧ adcReference r = 0 ∧ adcLeft r = false ∧
      adcDivider r * 125000 = fCpu ∧ r.didr0.getLsbD (adcInput r) = true := by
  obtain ⟨hrun, hon, d, hd, hreg⟩ := adc_inv h
  rw [hreg]
  split
  · rename_i ha
    rw [hon, ha]
    show (0#8).getLsbD 7 = false ∧ (0#8).getLsbD 3 = false
    decide
  · rename_i ha
    have ha : s.meas.resultAvail = false := by simpa using ha
    rw [hon, ha]
    by_cases h0 : s.meas.active = 0
    · rw [if_pos h0] at hd ⊢
      rw [h0]
      have hin : adcInput ⟨2, 0xEE, 0, d⟩ = 2 := by
        show (2#8 &&& 15#8).toNat = 2
        decide
      show FreeRunning ⟨2, 0xEE, 0, d⟩ ∧ adcInput ⟨2, 0xEE, 0, d⟩ = 2 ∧ (2#8 >>> 6).toNat = 0 ∧
        (2#8).getLsbD 5 = false ∧ adcDivider ⟨2, 0xEE, 0, d⟩ * 125000 = fCpu ∧
        d.getLsbD (adcInput ⟨2, 0xEE, 0, d⟩) = true
      rw [hin, divider_of]
      exact ⟨freeRunning_of _ _, rfl, by decide, by decide, rfl, hd⟩
    · rw [if_neg h0] at hd ⊢
      have h1 : s.meas.active = 1 := by have := (Running.inv hrun).meas.act; omega
      rw [h1]
      have hin : adcInput ⟨1, 0xEE, 0, d⟩ = 1 := by
        show (1#8 &&& 15#8).toNat = 1
        decide
      show FreeRunning ⟨1, 0xEE, 0, d⟩ ∧ adcInput ⟨1, 0xEE, 0, d⟩ = 1 ∧ (1#8 >>> 6).toNat = 0 ∧
        (1#8).getLsbD 5 = false ∧ adcDivider ⟨1, 0xEE, 0, d⟩ * 125000 = fCpu ∧
        d.getLsbD (adcInput ⟨1, 0xEE, 0, d⟩) = true
      rw [hin, divider_of]
      exact ⟨freeRunning_of _ _, rfl, by decide, by decide, rfl, hd⟩

/-- The registers follow every step of the firmware (none of the accesses is undefined). -/
theorem C83_follows (c : Conf) (s : Sys) (h : Running c s) : ∃ r, AdcRunning c s r := by
  induction h with
  | boot hv e => exact ⟨_, AdcRunning.boot hv e rfl⟩
  | @step s e s' hrun hp hs ih =>
    obtain ⟨r, hr⟩ := ih
    have ha := (Running.inv hrun).meas.act
    have : ∃ r', adcStep s r e = some r' := by
      cases e with
      | measureWork =>
        show ∃ r', (if s.meas.resultAvail = true then (adcSel (ringNext s.meas.active 1)).map
          fun x => adcTrigger r x true true else some r) = some r'
        split
        · have hcases : s.meas.active = 0 ∨ s.meas.active = 1 := by omega
          rcases hcases with h0 | h0
          · rw [h0]; exact ⟨_, rfl⟩
          · rw [h0]; exact ⟨_, rfl⟩
        · exact ⟨_, rfl⟩
      | adc x => exact ⟨_, rfl⟩
      | tick => exact ⟨_, rfl⟩
      | eeIsr => exact ⟨_, rfl⟩
      | eeDone => exact ⟨_, rfl⟩
      | menuWork => exact ⟨_, rfl⟩
      | displayWork => exact ⟨_, rfl⟩
      | buttonsWork p => exact ⟨_, rfl⟩
      | settingsWork => exact ⟨_, rfl⟩
    obtain ⟨r', hr'⟩ := this
    exact ⟨r', hr.step hp hs hr'⟩

set_option maxRecDepth 100000 in
/-- the current is being measured; then its result is waiting -/
example : (∃ s r, AdcRunning .m88p s r ∧ s.meas.resultAvail = false ∧ s.meas.active = 0) ∧
    ∃ s r, AdcRunning .m88p s r ∧ s.meas.resultAvail = true ∧ s.meas.active = 0 := by
  constructor
  · obtain ⟨s, h, hp⟩ := demo_any (c := .m88p) (pinb := 0xFF) validEeprom_m88p (es := reading 50 250)
      (P := fun s => s.meas.resultAvail = false ∧ s.meas.active = 0) (by decide)
    obtain ⟨r, hr⟩ := C83_follows _ _ h
    exact ⟨s, r, hr, of_decide_eq_true hp⟩
  · obtain ⟨s, h, hp⟩ := demo_any (c := .m88p) (pinb := 0xFF) validEeprom_m88p
      (es := reading 50 250 ++ ticks 5 ++ [.adc 10])
      (P := fun s => s.meas.resultAvail = true ∧ s.meas.active = 0) (by decide)
    obtain ⟨r, hr⟩ := C83_follows _ _ h
    exact ⟨s, r, hr, of_decide_eq_true hp⟩

/-- A tick takes 8064 cycles, 1.008 ms (finding F9: not 1 ms, but within 1 %); a conversion (13 cycles of the ADC, the
    first one 25) is shorter. -/
theorem C83_tick (c : Conf) (s : Sys) (r : AdcRegs) (h : AdcRunning c s r) (ha : s.meas.resultAvail = false) :
    Timer0Ctc timerInit ∧ tickCycles timerInit = 8064 ∧ timerInit.timsk0.getLsbD 1 = true ∧
      25 * adcDivider r < tickCycles timerInit := by
  obtain ⟨hrun, hon, d, hd, hreg⟩ := adc_inv h
  rw [hreg, hon, ha]
  refine ⟨by unfold Timer0Ctc; decide, by decide, by decide, ?_⟩
  show 25 * adcDivider ⟨_, 0xEE, 0, d⟩ < _
  rw [divider_of]
  decide

/-- The heater output: for a current command of 0 the pin never goes low; for every command from 0 to 5 A the part of
    the time in which it is low is the part of 5 A, up to 1 mA. -/
theorem C83_pwm (amps : Int) (h : 0 ≤ amps ∧ amps ≤ 3200) :
    ∃ d, pwmDuty amps = some d ∧ Timer1FastPwm (pwmSet pwmInit d) ∧ (amps = 0 → lowCounts (pwmSet pwmInit d) = 0) ∧
      0 ≤ lowCounts (pwmSet pwmInit d) ∧
      (lowCounts (pwmSet pwmInit d) * 5000 * 640 - amps * 1000 * periodCounts (pwmSet pwmInit d)).natAbs ≤
        640 * (periodCounts (pwmSet pwmInit d)).natAbs := by
  obtain ⟨d, h1, h2, h3, h4⟩ := C13_defined amps h
  refine ⟨d, h1, ?_, ?_, ?_, ?_⟩
  · show 0x82#8 &&& 3 = 2 ∧ (0x1C#8 >>> 3) &&& 3 = 3 ∧ 0x82#8 >>> 6 = 2 ∧ 0 ≤ d ∧ d ≤ PWMCURR_MAX_DUTY
    exact ⟨by decide, by decide, by decide, h2, h3⟩
  · intro h0
    rw [h0, C13_endpoints.1] at h1
    cases h1
    decide
  · show 0 ≤ 0x1FFF - d
    omega
  · show (((0x1FFF : Int) - d) * 5000 * 640 - amps * 1000 * (0x1FFF + 1)).natAbs ≤ 640 * ((0x1FFF : Int) + 1).natAbs
    omega

/-- 2 A: the pin is low for 3276 of 8192 counts -/
example : ∃ d, pwmDuty 1280 = some d ∧ lowCounts (pwmSet pwmInit d) = 3276 := ⟨4915, by decide, by decide⟩

/-- The debug interface sends with 8 bits, no parity and two stop bits, as the tool on the host expects; its bit rate
    differs from 9600 per second by less than 0.2 %. -/
theorem C83_uart (enable : Bool) :
    uartFormat (uartTx uartInit enable) = some hostSerial.2 ∧
    1000 * (bitCycles (uartTx uartInit enable) * hostSerial.1 - fCpu : Int).natAbs < 2 * fCpu ∧
    ((uartTx uartInit enable).ucsr0b.getLsbD 3 = enable) := by
  cases enable <;> decide

end Verif.Props
