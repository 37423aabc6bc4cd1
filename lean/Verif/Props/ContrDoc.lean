import Verif.Spec.ContrDoc
import Verif.Props.Safety
import Verif.Props.Control
import Verif.Props.Measure
/-
C94: the controllers and their documentation, the diagram doc/controller.dia.
-/
namespace Verif.Props
open Spec

/-- The signals of the diagram that are in their documented ranges in every state of the running firmware: the
    temperature set point, the output of the mapping (the current set point), the current feedback, the output of
    the current controller, the PWM value, and the ADC values behind a measurement. -/
theorem C94_signals (c : Conf) (s : Sys) (h : Running c s) :
    DocTemp s.ct.pid.setpoint ∧ DocAmps s.cc.pid.setpoint ∧ DocAmps s.cc.feedback ∧ DocAmps s.cc.prevY ∧
    DocDuty s.ocr ∧ DocAdcSum s.meas.avgSum s.meas.avgCount := by
  have hi := Running.inv h
  obtain ⟨a, -, -, h1, h2, -⟩ := C35_heater_range c s h
  refine ⟨?_, hi.cc.sp, (C32_feedback c s h).2, hi.cc.prevY, ⟨h1, h2⟩, hi.meas.sum⟩
  obtain ⟨p, hp, hw⟩ := hi.ct.sp
  have hl := hi.set.lim
  have hp6 : s.set.cache.active < 6 := hl.active
  rw [Vector.getElem?_eq_getElem hp6] at hp
  have hp' := hl.sp _ hp6
  have hq := hl.idleSp
  cases hp
  unfold DocTemp
  rw [hw]
  split <;> omega

/-- The output of the temperature controller is in its documented range, whenever the controller runs, and the
    current set point is the mapped output (or none above 480 °C). -/
theorem C94_output (c : Conf) (s s' : Sys) (h : Running c s) (hs : step c s .measureWork = some s')
    (hrun : RunsTemp s .measureWork s') :
    ∃ dt y a, pidRun s.ct.pid dt s'.ct.feedback = some (s'.ct.pid, y) ∧ DocTemp y ∧ CurrentFor y a ∧ DocAmps a ∧
      s'.cc.pid.setpoint = if s'.ct.feedback > 480 * 64 then 0 else a := by
  obtain ⟨dt, y, a, h1, h2, h3, h4, h5⟩ := C41_used c s s' h hs hrun
  refine ⟨dt, y, a, h1, ⟨h3, h4⟩, h2, ?_, h5⟩
  obtain ⟨a', -, k2, k3, k4⟩ := C41_map y ⟨h3, h4⟩
  have : a = a' := by
    by_cases hy : y ≤ 250 * 64
    · have e1 := h2.1 hy
      have e2 := k2.1 hy
      unfold NearestAway at e1 e2
      omega
    · rw [h2.2 (by omega), k2.2 (by omega)]
  exact this ▸ ⟨k3, k4⟩

/-- The temperature feedback is between -20 °C and 500 °C, … -/
theorem C94_feedback (c : Conf) (s : Sys) (h : Running c s) :
    -20 * 64 ≤ s.ct.feedback ∧ s.ct.feedback ≤ 500 * 64 := (C32_feedback c s h).1

set_option maxRecDepth 100000 in
/-- … and not in the documented range: it is so above and below it. -/
theorem C94_feedback_false : (∃ s, Running .m88p s ∧ 480 * 64 < s.ct.feedback) ∧
    (∃ s, Running .m88p s ∧ s.ct.feedback < 0) := by
  constructor
  · obtain ⟨s, h, hp⟩ := demo_any (c := .m88p) (pinb := 0xFF) validEeprom_m88p
      (es := reading 50 416) (P := fun s => 480 * 64 < s.ct.feedback) (by decide)
    exact ⟨s, h, by simpa using hp⟩
  · obtain ⟨s, h, hp⟩ := demo_any (c := .m88p) (pinb := 0xFF) validEeprom_m88p
      (es := reading 50 110) (P := fun s => s.ct.feedback < 0) (by decide)
    exact ⟨s, h, by simpa using hp⟩

set_option maxRecDepth 100000 in
/-- The differences between the set points and the feedbacks are documented with the same ranges, but are
    negative whenever the feedback is above the set point. -/
theorem C94_difference_false : (∃ s, Running .m88p s ∧ ¬ DocTemp (s.ct.pid.setpoint - s.ct.feedback)) ∧
    (∃ s, Running .m88p s ∧ ¬ DocAmps (s.cc.pid.setpoint - s.cc.feedback)) := by
  constructor
  · obtain ⟨s, h, hp⟩ := demo_any (c := .m88p) (pinb := 0xFF) validEeprom_m88p
      (es := reading 50 400) (P := fun s => decide (¬ DocTemp (s.ct.pid.setpoint - s.ct.feedback))) (by decide)
    exact ⟨s, h, by simpa using hp⟩
  · obtain ⟨s, h, hp⟩ := demo_any (c := .m88p) (pinb := 0xFF) validEeprom_m88p
      (es := reading 50 400 ++ reading 5 100)
      (P := fun s => decide (¬ DocAmps (s.cc.pid.setpoint - s.cc.feedback))) (by decide)
    exact ⟨s, h, by simpa using hp⟩

/-- The factors of the current controller are P = 1.8, I = 2, D = 0 in every state of the running firmware, none of
    which is the documented one. -/
theorem C94_current_factors (c : Conf) (s : Sys) (h : Running c s) :
    FactorIs s.cc.pid.k.kp 180 ∧ FactorIs s.cc.pid.k.ki 200 ∧ FactorIs s.cc.pid.k.kd 0 ∧
    ¬ FactorIs s.cc.pid.k.kp 200 ∧ ¬ FactorIs s.cc.pid.k.ki 5 ∧ ¬ FactorIs s.cc.pid.k.kd 5 := by
  rw [(Running.inv h).cc.k]
  decide

/-- The factors of the temperature controller in the shipped settings are not the documented ones either, in none of
    the boost modes. -/
theorem C94_temp_factors (c : Conf) (i : Fin 3) (hi : i.val < c.nrBoost) :
    ¬ FactorIs (shippedSettings c).k[i].kp 400 ∧ ¬ FactorIs (shippedSettings c).k[i].ki 4 ∧
    ¬ DocTempFactors (shippedSettings c).k[i] := by
  match i, hi with
  | ⟨0, _⟩, _ =>
    show ¬ FactorIs 96 400 ∧ ¬ FactorIs 19 4 ∧ ¬ DocTempFactors ⟨96, 19, 13, 128⟩
    decide
  | ⟨1, _⟩, hi =>
    have hb : c.boost = true := by
      cases hb : c.boost
      · unfold Conf.nrBoost at hi; rw [hb] at hi; simp at hi
      · rfl
    have : (shippedSettings c).k[1] = ⟨96, 26, 32, 128⟩ := by
      unfold shippedSettings; rw [hb]; rfl
    show ¬ FactorIs (shippedSettings c).k[1].kp 400 ∧ ¬ FactorIs (shippedSettings c).k[1].ki 4 ∧
      ¬ DocTempFactors (shippedSettings c).k[1]
    rw [this]
    decide
  | ⟨2, _⟩, hi =>
    have hb : c.boost = true := by
      cases hb : c.boost
      · unfold Conf.nrBoost at hi; rw [hb] at hi; simp at hi
      · rfl
    have : (shippedSettings c).k[2] = ⟨96, 32, 64, 128⟩ := by
      unfold shippedSettings; rw [hb]; rfl
    show ¬ FactorIs (shippedSettings c).k[2].kp 400 ∧ ¬ FactorIs (shippedSettings c).k[2].ki 4 ∧
      ¬ DocTempFactors (shippedSettings c).k[2]
    rw [this]
    decide

set_option maxRecDepth 100000 in
/-- The hypotheses of `C94_signals`, `C94_output` and `C94_current_factors` are met: a temperature is evaluated with
    regulation on, and the current set point becomes larger than nothing. -/
example : ∃ s s', Running .m88p s ∧ step .m88p s .measureWork = some s' ∧ RunsTemp s .measureWork s' ∧
    0 < s'.cc.pid.setpoint := by
  obtain ⟨s, h, hp⟩ := demo_any (c := .m88p) (pinb := 0xFF) validEeprom_m88p (es := ticks 50 ++ [.adc 280])
    (P := fun s => (step .m88p s .measureWork).any fun (s' : Sys) =>
      s.meas.resultAvail && decide (s.meas.active = 1) && s.ct.enabled && decide (s'.ct.emergency = false) &&
      decide (0 < s'.cc.pid.setpoint)) (by decide)
  match e : step .m88p s .measureWork with
  | none => rw [e] at hp; cases hp
  | some s' =>
    rw [e] at hp
    simp only [Option.any_some, Bool.and_eq_true, decide_eq_true_eq] at hp
    obtain ⟨⟨⟨⟨p1, p2⟩, p3⟩, p4⟩, p5⟩ := hp
    exact ⟨s, s', h, e, ⟨⟨rfl, p1, p2⟩, p3, p4⟩, p5⟩

end Verif.Props
