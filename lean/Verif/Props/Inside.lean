import Verif.Proofs.InsideCall
import Verif.Proofs.Effects
import Verif.Props.Safety
import Verif.Proofs.Demo
/-
Theorems: ticks of the timer inside the work functions (C89).
-/
namespace Verif.Props
open Verif Verif.Spec

/-- A work function with fewer than 1000 ticks inside does what it does when the time stands still, except that the
    times it looks at and remembers are off by at most these ticks: there is a state which differs only by such times,
    from which the call at one instant has the same effect on everything else. -/
theorem C89_atOnce (c : Conf) (s : Sys) (e : Ev) (g : List Nat) (he : IsWork e = true) (hg : g.sum < 1000) :
    ∃ t, t.now = s.now ∧ SameBut g.sum s t ∧
      ((workT c s e g = none ∧ step c t e = none) ∨
        ∃ s' g' t', workT c s e g = some (s', g') ∧ step c t e = some t' ∧ SameBut g.sum s' t' ∧ t'.now = s.now) := by
  obtain ⟨t, h1, h2, h3⟩ := work_atOnce c s e g (work_cases he) hg
  refine ⟨t, h1, h2, ?_⟩
  rcases h3 with h3 | ⟨s', g', t', e1, e2, e3, e4, -⟩
  · exact .inl h3
  · exact .inr ⟨s', g', t', e1, e2, e3, e4⟩

/-- The ticks inside are not lost: after the call the timer has advanced by those taken. -/
theorem C89_clock (c : Conf) (s s' : Sys) (e : Ev) (g g' : List Nat) (he : IsWork e = true) (hg : g.sum < 1000)
    (hs : 0 ≤ s.now ∧ s.now ≤ 65535) (h : workT c s e g = some (s', g')) :
    ∃ k : Nat, k + g'.sum = g.sum ∧ s'.now = (s.now + k) % 65536 := by
  obtain ⟨t, h1, h2, h3⟩ := work_atOnce c s e g (work_cases he) hg
  rcases h3 with ⟨h3, -⟩ | ⟨s1, g1, t', e1, -, -, -, e5⟩
  · rw [h] at h3; cases h3
  · rw [h] at e1; cases e1
    exact e5 hs

private theorem RunningT.inv {c : Conf} {s : Sys} (h : RunningT c s) : Inv c s := by
  induction h with
  | boot hv e => exact ((boot_ok hv).elim e).1
  | isr _ _ hp e ih => exact (ih.step hp).elim e
  | call _ he hg e ih =>
    obtain ⟨_, _, _, _, _, _, _, h⟩ := work_call ih he hg e
    exact h

/-- interrupts between the calls and calls with ticks inside, as far as they are possible -/
private def runT (c : Conf) (s : Sys) : List (Ev × List Nat) → Option Sys
  | [] => some s
  | (e, g) :: es =>
    if IsWork e then
      if g.sum < 1000 then (workT c s e g).bind fun r => runT c r.1 es else none
    else if possible s e then (step c s e).bind fun s' => runT c s' es else none

private theorem runT_running {c : Conf} {s s' : Sys} (h : RunningT c s) {es : List (Ev × List Nat)}
    (e : runT c s es = some s') : RunningT c s' := by
  induction es generalizing s with
  | nil => cases e; exact h
  | cons x es ih =>
    obtain ⟨v, g⟩ := x
    unfold runT at e
    split at e
    · rename_i hw
      split at e
      · rename_i hg
        obtain ⟨r, e1, e⟩ := Option.bind_eq_some_iff.mp e
        exact ih (.call h hw hg e1) e
      · cases e
    · rename_i hw
      split at e
      · rename_i hp
        obtain ⟨s1, e1, e⟩ := Option.bind_eq_some_iff.mp e
        exact ih (.isr h (by simpa using hw) hp e1) e
      · cases e

private theorem runT_any {c : Conf} {pinb : BitVec 8} {es : List (Ev × List Nat)} {P : Sys → Bool}
    (hv : ValidEeprom c (shippedEeprom c))
    (h : ((boot c (shippedEeprom c) pinb).bind fun s => runT c s es).any P = true) : ∃ s, RunningT c s ∧ P s = true := by
  match e : (boot c (shippedEeprom c) pinb).bind fun s => runT c s es with
  | none => rw [e] at h; cases h
  | some s =>
    rw [e] at h
    obtain ⟨b, e1, e2⟩ := Option.bind_eq_some_iff.mp e
    exact ⟨s, runT_running (.boot hv e1) e2, h⟩

/-- a reading with ticks inside its evaluation -/
private def readingT (n raw : Nat) (g : List Nat) : List (Ev × List Nat) :=
  List.replicate n (.tick, []) ++ [(.adc raw, []), (.measureWork, g)]

set_option maxRecDepth 100000 in
/-- heating with ticks inside the evaluations: 27 of the 137 ticks since boot -/
example : ∃ s, RunningT .m88p s ∧ s.ocr < 0x1000 ∧ s.now = 137 := by
  obtain ⟨s, h, hp⟩ := runT_any (c := .m88p) (pinb := 0xFF) validEeprom_m88p
    (es := readingT 50 250 [3, 1, 2] ++ readingT 5 0 [0, 1, 0] ++ readingT 50 250 [10, 5, 5] ++ readingT 5 0 [])
    (P := fun s => s.ocr < 0x1000 && s.now == 137) (by decide)
  exact ⟨s, h, by simpa using hp⟩

set_option maxRecDepth 100000 in
/-- a tick inside can matter: one millisecond before its timeout the screen for the presets is left by a call of
    `menu_work` with a tick inside, and not by one without -/
example : ∃ s, RunningT .m88p s ∧ s.menu.state = .selpreset ∧
    (workT .m88p s .menuWork []).any (fun r => r.1.menu.state == .selpreset) ∧
    (workT .m88p s .menuWork [1]).any (fun r => r.1.menu.state == .curtemp) := by
  obtain ⟨s, h, hp⟩ := runT_any (c := .m88p) (pinb := 0xFF) validEeprom_m88p
    (es := List.replicate 10 (.tick, []) ++ [(.buttonsWork 0xEF, [])] ++ List.replicate 10 (.tick, []) ++
      [(.buttonsWork 0xFF, []), (.menuWork, [995]), (.displayWork, [995]), (.menuWork, [995]), (.menuWork, [14])])
    (P := fun s => s.menu.state == .selpreset &&
      (workT .m88p s .menuWork []).any (fun r => r.1.menu.state == .selpreset) &&
      (workT .m88p s .menuWork [1]).any (fun r => r.1.menu.state == .curtemp)) (by decide +kernel)
  simp only [Bool.and_eq_true] at hp
  exact ⟨s, h, by simpa using hp.1.1, hp.1.2, hp.2⟩

/-- No work function is ever undefined, wherever the ticks come. -/
theorem C89_defined (c : Conf) (s : Sys) (e : Ev) (g : List Nat) (h : RunningT c s) (he : IsWork e = true)
    (hg : g.sum < 1000) : ∃ s' g', workT c s e g = some (s', g') := by
  obtain ⟨t, h1, h2, h3⟩ := work_atOnce c s e g (work_cases he) hg
  rcases h3 with ⟨-, h3⟩ | ⟨s', g', _, e1, -⟩
  · have hi := RunningT.inv h
    have et : t = timeSet (timesOf t) s := h2.rest
    have it : Inv c t := by rw [et]; exact inv_times hi _ (by show 0 ≤ t.now ∧ t.now ≤ 65535; rw [h1]; exact hi.now)
    have hp : possible t e = true := by rcases work_cases he with rfl | rfl | ⟨p, rfl⟩ | rfl | rfl <;> rfl
    obtain ⟨t', e', -⟩ := it.step hp
    rw [h3] at e'; cases e'
  · exact ⟨s', g', e1⟩

/-- With ticks inside the work functions, too, at any time: the heater is programmed for 0..5 A and off while a flag of
    the current controller is set; the demand is zero in an emergency of the temperature controller, whose set point is
    that of the settings; it is off exactly in the screens for calibration and tuning; the settings are within their
    limits; the screen exists in the build; and at most one digit is driven, none while debugging. -/
theorem C89_safe (c : Conf) (s : Sys) (h : RunningT c s) :
    (∃ amps, 0 ≤ amps ∧ amps ≤ 5 * 640 ∧ HeaterAt s.ocr amps) ∧
    (s.cc.emerg ≠ 0 → HeaterOff s.ocr) ∧
    (s.ct.emergency = true → s.cc.pid.setpoint = 0) ∧
    WantedTemp s.set.cache s.ct.idle s.ct.pid.setpoint ∧
    (s.ct.enabled = true ↔ Tuning s.menu.state = false) ∧
    WithinLimits c s.set.cache ∧
    ScreenExists c s.menu.state = true ∧
    (∀ i j, DriverOn s.ports.v i = true → DriverOn s.ports.v j = true → i = j) ∧
    (s.debugEn = true → ∀ i, DriverOn s.ports.v i = false) := by
  have hi := RunningT.inv h
  refine ⟨?_, hi.cc.off, hi.emerg, hi.ct.sp, ?_, hi.set.lim, hi.menu.screen, ?_, ?_⟩
  · obtain ⟨y, hy, hd⟩ := hi.cc.duty
    exact ⟨y, hy.1, hy.2, heaterAt_duty hy hd⟩
  · rw [hi.en]; cases Tuning s.menu.state <;> simp
  · intro i j h1 h2
    rw [(hi.disp.drv i h1).2, (hi.disp.drv j h2).2]
  · intro hd i
    by_contra hne
    have := (hi.disp.drv i (by simpa using hne)).1
    rw [hi.disp.en, hd] at this
    cases this

/-- Only the evaluation of a measured current, and only when it leaves no flag set, switches the heater on. -/
theorem C89_resume (c : Conf) (s s' : Sys) (e : Ev) (g g' : List Nat) (h : RunningT c s) (he : IsWork e = true)
    (hg : g.sum < 1000) (hs : workT c s e g = some (s', g')) (hoff : HeaterOff s.ocr) (hon : ¬ HeaterOff s'.ocr) :
    s'.cc.emerg = 0 ∧ e = .measureWork ∧ s.meas.resultAvail = true ∧ s.meas.active = 0 := by
  have hi := RunningT.inv h
  obtain ⟨τ, τ', t', i1, e1, rfl, i2, -⟩ := work_call hi he hg hs
  have h0 : t'.cc.emerg = 0 := by
    by_contra hne
    exact hon (i2.cc.off hne)
  refine ⟨h0, ?_⟩
  rcases step_eff i1 e1 with ⟨-, hc⟩ | ⟨h1, h2, p, pl, hm⟩
  · exact absurd (hc.ocr.trans hoff) hon
  · refine ⟨h1, h2, ?_⟩
    by_contra ha
    have ha1 : s.meas.active = 1 := by have := hi.meas.act; omega
    rcases (hm.temp ha1).ocr with ho | ho
    · exact hon (ho.trans hoff)
    · exact hon ho

set_option maxRecDepth 100000 in
/-- the heater is switched on by an evaluation with ticks inside -/
example : ∃ s s' g', RunningT .m88p s ∧ HeaterOff s.ocr ∧ workT .m88p s .measureWork [1, 2] = some (s', g') ∧
    ¬ HeaterOff s'.ocr := by
  obtain ⟨s, h, hp⟩ := runT_any (c := .m88p) (pinb := 0xFF) validEeprom_m88p
    (es := readingT 50 250 [3, 1, 2] ++ List.replicate 5 (.tick, []) ++ [(.adc 0, [])])
    (P := fun s => decide (HeaterOff s.ocr) &&
      (workT .m88p s .measureWork [1, 2]).any fun r => decide (¬ HeaterOff r.1.ocr)) (by decide)
  simp only [Bool.and_eq_true, decide_eq_true_eq] at hp
  obtain ⟨r, e, hr⟩ := Option.any_eq_true _ _ |>.mp hp.2
  exact ⟨s, r.1, r.2, h, hp.1, e, by simpa using hr⟩

private theorem setEmerg_com (s : Sys) (f : BitVec 8) (n : Int) (x : ContrTemp) :
    contrcurrSetEmerg { s with now := n, ct := x } f =
      (contrcurrSetEmerg s f).map fun s' => { s' with now := n, ct := x } := by
  unfold contrcurrSetEmerg
  by_cases h : f ≠ s.cc.emerg
  · rw [if_pos h, if_pos h]
    simp only []
    by_cases h2 : f ≠ 0
    · rw [if_pos h2, if_pos h2]
      unfold pwmcurrSet
      cases pwmDuty CURR_NEGLIM <;> rfl
    · rw [if_neg h2, if_neg h2]; rfl
  · rw [if_neg h, if_neg h]; rfl

private theorem setEmerg_ct {s s' : Sys} {f : BitVec 8} (e : contrcurrSetEmerg s f = some s') : s'.ct = s.ct := by
  unfold contrcurrSetEmerg at e
  split at e
  · simp only [] at e
    split at e
    · unfold pwmcurrSet at e
      obtain ⟨d, -, e⟩ := Option.bind_eq_some_iff.mp e
      cases e; rfl
    · cases e; rfl
  · cases e; rfl

/-- The reading of the timer for the time step and the one to remember the time are two: the ticks `j` between them
    belong to no time step.  Otherwise the controller of the temperature does what it does at the instant of the first
    reading (finding F22). -/
theorem C89_lost_temp (s : Sys) (r : Int) (i j : Nat) (h : s.ct.enabled = true ∧ s.ct.emergency = false) :
    contrtempRunT s r [i, j] =
      (contrtempRun { s with now := (s.now + i) % 65536 } r).map fun s' =>
        ({ s' with now := ((s.now + i) % 65536 + j) % 65536,
                   ct := { s'.ct with dtTimer := ((s.now + i) % 65536 + j) % 65536 } }, []) := by
  unfold contrtempRunT contrtempRun
  rw [h.1, h.2]
  simp only [Bool.not_true, Bool.false_eq_true, if_false]
  rw [tm_tick]
  show ((liftM (elapsedDt ((s.now + i) % 65536) s.ct.dtTimer) : TM Int) >>= _) [j] =
    Option.map _ ((elapsedDt ((s.now + i) % 65536) s.ct.dtTimer).bind _)
  cases elapsedDt ((s.now + i) % 65536) s.ct.dtTimer with
  | none => rfl
  | some dt =>
  simp only [tm_some, Option.bind_some, tm_tick]
  cases pidRun s.ct.pid dt r with
  | none => rfl
  | some z =>
  simp only [tm_some, Option.bind_some, Option.bind_eq_bind]
  cases tempToAmps z.2 with
  | none => rfl
  | some y =>
  simp only [tm_some, Option.bind_some]
  have fin : ∀ (f : BitVec 8) (y : Int),
      ((liftM (contrcurrSetEmerg { s with
          now := toU16 (toU16 (s.now + i) + j)
          ct := { s.ct with dtTimer := timerSetNow (toU16 (toU16 (s.now + i) + j)), pid := z.1 } } f) >>= fun s' =>
          pure (contrcurrSetSetpoint s' y) : TM Sys) []) =
      Option.map (fun s' : Sys => ({ s' with
            now := ((s.now + i) % 65536 + j) % 65536
            ct := { s'.ct with dtTimer := ((s.now + i) % 65536 + j) % 65536 } }, []))
        ((contrcurrSetEmerg { s with
            now := (s.now + i) % 65536
            ct := { s.ct with dtTimer := timerSetNow ((s.now + i) % 65536), pid := z.1 } } f).bind fun s' =>
          pure (contrcurrSetSetpoint s' y)) := by
    intro f y
    rw [setEmerg_com s f (toU16 (toU16 (s.now + i) + j)) _, setEmerg_com s f ((s.now + i) % 65536) _]
    cases contrcurrSetEmerg s f <;> rfl
  by_cases hr : r > 30720
  · simp only [if_pos hr]
    exact fin _ _
  · simp only [if_neg hr]
    exact fin _ _

/-- The same for the controller of the current. -/
theorem C89_lost_curr (s : Sys) (r : Int) (i j : Nat) (h : s.cc.enabled = true ∧ s.cc.emerg = 0) :
    contrcurrRunT s r [i, j] =
      (contrcurrRun { s with now := (s.now + i) % 65536 } r).map fun s' =>
        ({ s' with now := ((s.now + i) % 65536 + j) % 65536,
                   cc := { s'.cc with timer := ((s.now + i) % 65536 + j) % 65536 } }, []) := by
  unfold contrcurrRunT contrcurrRun
  rw [h.1, h.2]
  simp only [Bool.not_true, Bool.false_eq_true, if_false, ne_eq, not_true_eq_false]
  rw [tm_tick]
  show ((liftM (elapsedDt ((s.now + i) % 65536) s.cc.timer) : TM Int) >>= _) [j] =
    Option.map _ ((elapsedDt ((s.now + i) % 65536) s.cc.timer).bind _)
  cases elapsedDt ((s.now + i) % 65536) s.cc.timer with
  | none => rfl
  | some dt =>
  simp only [tm_some, Option.bind_some, tm_tick]
  cases contrcurrSelect s.cc r with
  | none => rfl
  | some x =>
  simp only [tm_some, Option.bind_some, Option.bind_eq_bind]
  cases pidRun s.cc.pid dt x.1 with
  | none => rfl
  | some z =>
  simp only [tm_some, Option.bind_some, pwmcurrSet]
  cases pwmDuty (if s.cc.restricted = true then (if z.2 > 1280 then 1280 else z.2) else z.2) <;> rfl

set_option maxRecDepth 100000 in
/-- Of 94 ticks since the last run, 62 before the first reading and 32 between the readings, the time step counts 62
    (4/64 s instead of 6/64 s), and the next one begins after the 94. -/
example : ∃ s, RunningT .m88p s ∧ (s.ct.enabled = true ∧ s.ct.emergency = false) ∧ s.ct.dtTimer = s.now ∧
    elapsedDt (s.now + 62) s.ct.dtTimer = some 4 ∧ elapsedDt (s.now + 94) s.ct.dtTimer = some 6 ∧
    (contrtempRunT s 6400 [62, 32]).any (fun r => r.1.ct.dtTimer == s.now + 94) := by
  obtain ⟨s, h, hp⟩ := runT_any (c := .m88p) (pinb := 0xFF) validEeprom_m88p
    (es := readingT 50 250 [3, 1])
    (P := fun s => (s.ct.enabled && !s.ct.emergency) && s.ct.dtTimer == s.now &&
      elapsedDt (s.now + 62) s.ct.dtTimer == some 4 && elapsedDt (s.now + 94) s.ct.dtTimer == some 6 &&
      (contrtempRunT s 6400 [62, 32]).any (fun r => r.1.ct.dtTimer == s.now + 94)) (by decide)
  simp only [Bool.and_eq_true, Bool.not_eq_true', beq_iff_eq] at hp
  exact ⟨s, h, hp.1.1.1.1, hp.1.1.1.2, hp.1.1.2, hp.1.2, hp.2⟩

end Verif.Props
