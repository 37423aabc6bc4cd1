import Verif.Proofs.Demo
import Verif.Props.Safety
/-
C99: switching the current controller off and on (controller_current.h:37 `contrcurr_set_enabled`).
-/
namespace Verif.Props
open Verif Verif.Spec

/-- Switching on a controller that is on does nothing. -/
theorem C99_on_again (s : Sys) (p : Int) (h : s.cc.enabled = true) : contrcurrSetEnabled s true p = some s := by
  unfold contrcurrSetEnabled
  rw [h]
  rfl

private theorem scale_percent : ∀ p : Fin 101, scale (p : Nat) 0 100 CURR_NEGLIM CURR_POSLIM = some (32 * ((p : Nat) : Int)) := by
  decide +kernel

private theorem pwm0 : pwmDuty 0 = some 0x1FFF := by decide

/-- Switching off sets the heater to the given percentage of 5 A, 0 to 100.  If the controller was on, it forgets its
    past (integral and previous deviation); the selection of the feedback starts anew; set point, factors, limits,
    emergency flags, restriction and everything outside of the controller and the heater are left alone. -/
theorem C99_off (s : Sys) (p : Int) (h0 : 0 ≤ p) (h1 : p ≤ 100) : ∃ s', contrcurrSetEnabled s false p = some s' ∧
    s'.cc.enabled = false ∧ HeaterAt s'.ocr (5 * 640 * p / 100) ∧
    (s.cc.enabled = true → s'.cc.pid = { s.cc.pid with prevE := 0, integr := 0 } ∧ s'.cc.rState = .enabled ∧
      s'.cc.prevY = 0 ∧ s'.cc.timer = s.now) ∧
    (s.cc.enabled = false → s'.cc = s.cc) ∧
    s' = { s with ocr := s'.ocr, cc := { s.cc with
      enabled := false, pid := s'.cc.pid, rState := s'.cc.rState, prevY := s'.cc.prevY, timer := s'.cc.timer } } := by
  have hs : scale p 0 100 CURR_NEGLIM CURR_POSLIM = some (32 * p) := by
    have := scale_percent ⟨p.toNat, by omega⟩
    have e : ((p.toNat : Nat) : Int) = p := by omega
    simpa only [e] using this
  have hr : (0 : Int) ≤ 32 * p ∧ 32 * p ≤ 3200 := by omega
  obtain ⟨d, hd, -⟩ := C13_defined (32 * p) hr
  have hat := heaterAt_duty hr hd
  have he : 5 * 640 * p / 100 = 32 * p := by omega
  rw [he]
  unfold contrcurrSetEnabled
  cases hen : s.cc.enabled with
  | true =>
    simp only [hs, pwmcurrSet, pwm0, hd, ne_eq, Bool.false_eq_true, not_false_eq_true, if_true, Option.bind_eq_bind,
      Option.bind_some, Bool.not_false, Option.pure_def]
    exact ⟨_, rfl, rfl, hat, fun _ => ⟨rfl, rfl, rfl, rfl⟩, (fun h => by cases h), rfl⟩
  | false =>
    simp only [hs, pwmcurrSet, hd, ne_eq, not_true_eq_false, if_false, if_true, Option.bind_eq_bind,
      Option.bind_some, Bool.not_false, Option.pure_def]
    refine ⟨_, rfl, hen, hat, (fun h => by cases h), fun _ => rfl, ?_⟩
    rw [← hen]

/-- While it is off, measured currents do not change the heater, nor anything else but the remembered feedback. -/
theorem C99_holds (s : Sys) (r : Int) (h : s.cc.enabled = false) :
    contrcurrSetFeedback s r = some { s with cc := { s.cc with feedback := r } } := by
  unfold contrcurrSetFeedback contrcurrRun
  simp only [h, Bool.not_false, if_true]

/-- A new emergency switches the heater off all the same. -/
theorem C99_emergency (s s' : Sys) (f : BitVec 8) (hf : f ≠ 0) (hn : f ≠ s.cc.emerg)
    (e : contrcurrSetEmerg s f = some s') : HeaterOff s'.ocr ∧ s'.cc.emerg = f ∧ s'.cc.enabled = s.cc.enabled := by
  unfold contrcurrSetEmerg pwmcurrSet at e
  rw [if_pos hn] at e
  simp only [if_pos hf, show pwmDuty CURR_NEGLIM = some 0x1FFF from pwm0, Option.bind_eq_bind, Option.bind_some,
    Option.pure_def, Option.some.injEq] at e
  rw [← e]
  exact ⟨rfl, rfl, rfl⟩

/-- Switching on again switches the heater off until the next run of the controller, which starts without a past;
    the rest is left alone. -/
theorem C99_on (s : Sys) (p : Int) (h : s.cc.enabled = false) : ∃ s', contrcurrSetEnabled s true p = some s' ∧
    HeaterOff s'.ocr ∧ s' = { s with ocr := s'.ocr, cc := { s.cc with
      enabled := true, pid := { s.cc.pid with prevE := 0, integr := 0 }, rState := .enabled, prevY := 0, timer := s.now } } := by
  unfold contrcurrSetEnabled
  simp only [h, pwmcurrSet, pwm0, ne_eq, Bool.true_eq_false, Bool.false_eq_true, not_false_eq_true, if_true,
    Option.bind_eq_bind, Option.bind_some, Bool.not_true, if_false, Option.pure_def]
  exact ⟨_, rfl, rfl, rfl⟩

/-- The emergency flags are not looked at: switching off during an emergency switches the heater on (finding F31).
    No code does so. -/
theorem C99_in_emergency (s : Sys) (p : Int) (h0 : 0 < p) (h1 : p ≤ 100) :
    ∃ s', contrcurrSetEnabled s false p = some s' ∧ s'.cc.emerg = s.cc.emerg ∧ ¬ HeaterOff s'.ocr := by
  obtain ⟨s', h, -, hat, -, -, hs⟩ := C99_off s p (by omega) h1
  refine ⟨s', h, ?_, ?_⟩
  · rw [hs]
  · intro hoff
    have := hat.2.2
    rw [show s'.ocr = 0x1FFF from hoff] at this
    have he : 5 * 640 * p / 100 = 32 * p := by omega
    rw [he] at this
    omega

set_option maxRecDepth 100000 in
/-- an emergency of the running firmware: 488 C after 250 C.  Switching off with 50 % gives 2.5 A. -/
example : ∃ s s', Running .m88p s ∧ s.cc.emerg ≠ 0 ∧ HeaterOff s.ocr ∧ s.cc.enabled = true ∧
    contrcurrSetEnabled s false 50 = some s' ∧ s'.cc.emerg ≠ 0 ∧ HeaterAt s'.ocr (5 * 320) := by
  obtain ⟨s, h, hp⟩ := demo_any (c := .m88p) (pinb := 0xFF) validEeprom_m88p
    (es := reading 50 250 ++ reading 5 0 ++ reading 50 416)
    (P := fun s => decide (s.cc.emerg ≠ 0) && decide (HeaterOff s.ocr) && s.cc.enabled &&
      (contrcurrSetEnabled s false 50).any (fun s' : Sys => decide (s'.cc.emerg ≠ 0) && decide (HeaterAt s'.ocr (5 * 320))))
    (by decide)
  simp only [Bool.and_eq_true, decide_eq_true_eq] at hp
  obtain ⟨⟨⟨h1, h2⟩, h3⟩, h4⟩ := hp
  obtain ⟨s', e, h5⟩ := (Option.any_eq_true _ _).mp h4
  simp only [Bool.and_eq_true, decide_eq_true_eq] at h5
  exact ⟨s, s', h, h1, h2, h3, e, h5.1, h5.2⟩

set_option maxRecDepth 100000 in
/-- Above 100 % (the parameter is a `uint8_t`) the compare value is out of range; from 229 % on the computation of it
    overflows, which is undefined behaviour. -/
theorem C99_over (s : Sys) : ∀ p : Fin 256, 100 < p.val →
    (p.val < 229 → ∃ s', contrcurrSetEnabled s false (p : Nat) = some s' ∧ 0x1FFF < s'.ocr) ∧
    (229 ≤ p.val → contrcurrSetEnabled s false (p : Nat) = none) := by
  have key : ∀ p : Fin 256, 100 < p.val → ∃ y, scale (p : Nat) 0 100 CURR_NEGLIM CURR_POSLIM = some y := by
    have k : ∀ p : Fin 256, 100 < p.val → (scale (p : Nat) 0 100 CURR_NEGLIM CURR_POSLIM).isSome = true := by
      decide +kernel
    exact fun p hp => Option.isSome_iff_exists.mp (k p hp)
  have key1 : ∀ p : Fin 256, 100 < p.val → p.val < 229 →
      ((scale (p : Nat) 0 100 CURR_NEGLIM CURR_POSLIM).bind pwmDuty).any (fun d => decide (0x1FFF < d)) = true := by
    decide +kernel
  have key2 : ∀ p : Fin 256, 229 ≤ p.val →
      (scale (p : Nat) 0 100 CURR_NEGLIM CURR_POSLIM).bind pwmDuty = none := by decide +kernel
  intro p hp
  obtain ⟨y, e1⟩ := key p hp
  constructor
  · intro hp1
    obtain ⟨d, e2, k⟩ := (Option.any_eq_true _ _).mp (key1 p hp hp1)
    rw [e1, Option.bind_some] at e2
    have k : 0x1FFF < d := of_decide_eq_true k
    unfold contrcurrSetEnabled
    cases hen : s.cc.enabled with
    | true =>
      simp only [e1, pwmcurrSet, pwm0, e2, ne_eq, Bool.false_eq_true, not_false_eq_true, if_true, Option.bind_eq_bind,
        Option.bind_some, Bool.not_false, Option.pure_def]
      exact ⟨_, rfl, k⟩
    | false =>
      simp only [e1, pwmcurrSet, e2, ne_eq, not_true_eq_false, if_false, if_true, Option.bind_eq_bind,
        Option.bind_some, Bool.not_false, Option.pure_def]
      exact ⟨_, rfl, k⟩
  · intro hp2
    have e2 := key2 p hp2
    rw [e1, Option.bind_some] at e2
    unfold contrcurrSetEnabled
    cases hen : s.cc.enabled with
    | true =>
      simp only [e1, pwmcurrSet, pwm0, e2, ne_eq, Bool.false_eq_true, not_false_eq_true, if_true, Option.bind_eq_bind,
        Option.bind_some, Option.bind_none, Bool.not_false, Option.pure_def]
    | false =>
      simp only [e1, pwmcurrSet, e2, ne_eq, not_true_eq_false, if_false, if_true, Option.bind_eq_bind,
        Option.bind_some, Option.bind_none, Bool.not_false, Option.pure_def]

/-- 101 % gives -82 as an unsigned number -/
example (set : SettingsSt) : (contrcurrSetEnabled (zeroSys set) false 101).any (fun s' => s'.ocr == 65536 - 82) := by rfl

set_option maxRecDepth 100000 in
/-- the running firmware at 250 C: the controller is on and has a past.  Off with 20 % gives 1 A, a measured current
    of 3 A leaves that alone, a new emergency switches it off, and so does switching on again. -/
example : ∃ s s1 s2 s3 s4, Running .m88p s ∧ s.cc.enabled = true ∧ (s.cc.pid.prevE ≠ 0 ∨ s.cc.pid.integr ≠ 0) ∧
    contrcurrSetEnabled s true 20 = some s ∧
    contrcurrSetEnabled s false 20 = some s1 ∧ HeaterAt s1.ocr 640 ∧ s1.cc.enabled = false ∧
    contrcurrSetFeedback s1 1920 = some s2 ∧ HeaterAt s2.ocr 640 ∧
    contrcurrSetEmerg s2 1 = some s3 ∧ HeaterOff s3.ocr ∧
    contrcurrSetEnabled s2 true 0 = some s4 ∧ HeaterOff s4.ocr ∧ s4.cc.enabled = true := by
  obtain ⟨s, h, hp⟩ := demo_any (c := .m88p) (pinb := 0xFF) validEeprom_m88p
    (es := reading 50 250 ++ reading 5 10 ++ reading 50 250)
    (P := fun s => s.cc.enabled && (decide (s.cc.pid.prevE ≠ 0 ∨ s.cc.pid.integr ≠ 0)) && decide (s.cc.emerg ≠ 1))
    (by decide)
  simp only [Bool.and_eq_true, decide_eq_true_eq] at hp
  obtain ⟨⟨h1, h2⟩, h3⟩ := hp
  obtain ⟨s1, e1, o1, a1, -, -, f1⟩ := C99_off s 20 (by omega) (by omega)
  have e2 := C99_holds s1 1920 o1
  obtain ⟨s4, e4, o4, f4⟩ := C99_on { s1 with cc := { s1.cc with feedback := 1920 } } 0 o1
  have hem : s1.cc.emerg = s.cc.emerg := by rw [f1]
  obtain ⟨s3, e3⟩ : ∃ s3, contrcurrSetEmerg { s1 with cc := { s1.cc with feedback := 1920 } } 1 = some s3 := by
    unfold contrcurrSetEmerg pwmcurrSet
    rw [if_pos (by rw [hem]; exact fun h => h3 h.symm)]
    simp only [show ((1 : BitVec 8) ≠ 0) from by decide, if_true, show pwmDuty CURR_NEGLIM = some 0x1FFF from pwm0,
      Option.bind_eq_bind, Option.bind_some, Option.pure_def, ne_eq, not_false_eq_true]
    exact ⟨_, rfl⟩
  have o3 := (C99_emergency _ _ _ (by decide) (by rw [hem]; exact fun h => h3 h.symm) e3).1
  exact ⟨s, s1, _, s3, s4, h, h1, h2, C99_on_again s 20 h1, e1, a1, o1, e2, a1, e3, o3, e4, o4, by rw [f4]⟩

end Verif.Props
