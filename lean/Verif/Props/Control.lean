import Verif.Spec.Control
import Verif.Proofs.Iron
import Verif.Proofs.Demo
import Verif.Props.Timer
/-
C41, C42, C56, C57: temperature demand, iron button, time step and feedback selection.
-/
namespace Verif.Props
open Spec

/-! ### C41: from the temperature controller's output to the current demand -/

/-- Every controller output from 0 C to 480 C maps to the current of 1/50 A per degree, to the nearest
    step, and to 5 A from 250 C on; the result is within the limits of the actuator. -/
theorem C41_map (y : Int) (h : 0 ≤ y ∧ y ≤ 480 * 64) :
    ∃ a, tempToAmps y = some a ∧ CurrentFor y a ∧ 0 ≤ a ∧ a ≤ 5 * 640 := by
  refine ⟨_, tempToAmps_eq (by omega), ⟨fun hy => ?_, fun hy => ?_⟩, ?_⟩
  · obtain ⟨h1, h2⟩ := rdiv_spec y 5 (by decide)
    have h3 : 0 ≤ rdiv y 5 ∧ rdiv y 5 ≤ 3200 := by rw [rdiv_pos _ _ (by decide)]; split <;> omega
    unfold fixptClamp
    rw [if_neg (by omega), if_neg (by omega)]
    generalize rdiv y 5 = n at *
    unfold NearestAway
    omega
  · have h3 : 3200 ≤ rdiv y 5 := by rw [rdiv_pos _ _ (by decide)]; split <;> omega
    simp only [fixptClamp]
    split_ifs <;> omega
  · simp only [fixptClamp]
    split_ifs <;> omega

/-- no demand, no current -/
theorem C41_zero : tempToAmps 0 = some 0 := by decide

/-- More temperature demand never means less current. -/
theorem C41_monotone (y y' a a' : Int) (h : 0 ≤ y) (hy : y ≤ y') (h' : y' ≤ 480 * 64)
    (e : tempToAmps y = some a) (e' : tempToAmps y' = some a') : a ≤ a' := by
  rw [tempToAmps_eq (by omega)] at e e'
  cases e
  cases e'
  have := rdiv_mono (b := 5) (by decide) hy
  simp only [fixptClamp]
  split_ifs <;> omega

/-- 10 C is 0.2 A, 100.03 C (6402 steps) is 2.0006 A (1280 steps), 249 C is 4.98 A, 300 C is 5 A -/
example : tempToAmps 640 = some 128 ∧ tempToAmps 6402 = some 1280 ∧ tempToAmps 15936 = some 3187 ∧
    tempToAmps 19200 = some 3200 := by decide

/-- In the running firmware: whenever the temperature controller runs, the current controller's set
    point becomes the current for the controller's output, or 0 A if the temperature is above 480 C. -/
theorem C41_used (c : Conf) (s s' : Sys) (hr : Running c s) (hs : step c s .measureWork = some s')
    (hrun : RunsTemp s .measureWork s') :
    ∃ dt y a, pidRun s.ct.pid dt s'.ct.feedback = some (s'.ct.pid, y) ∧ CurrentFor y a ∧
      0 ≤ y ∧ y ≤ 480 * 64 ∧
      s'.cc.pid.setpoint = if s'.ct.feedback > 480 * 64 then 0 else a := by
  obtain ⟨⟨-, hav, hac⟩, hen, hem⟩ := hrun
  have hi := Running.inv hr
  rcases measureWork_eff hi hs with ⟨h, -⟩ | ⟨-, p, pl, hm⟩
  · rw [hav] at h; cases h
  have ht := hm.temp hac
  have hpl : pl ≠ .timeout := by
    rintro rfl
    have := ht.emergency
    rw [hem] at this
    cases this
  obtain ⟨-, dt, y, a, -, h2, h3, h4⟩ := ht.run hpl hen hem
  obtain ⟨l1, l2, -⟩ := pidRun_limits h2 (by rw [hi.ct.lim.1, hi.ct.lim.2.1]; decide)
    (by rw [hi.ct.lim.2.2.1, hi.ct.lim.2.2.2]; decide)
  rw [hi.ct.lim.2.2.1] at l1
  rw [hi.ct.lim.2.2.2] at l2
  obtain ⟨a', e', ha, -⟩ := C41_map y ⟨l1, l2⟩
  rw [h3] at e'
  cases e'
  exact ⟨dt, y, a, h2, ha, l1, l2, h4⟩

set_option maxRecDepth 100000 in
/-- the first reading after a second (269.5 C, wanted 350 C) demands more than 0 A -/
example : (demo .m88p 0xFF (ticks 50 ++ [.adc 280])).any (fun s =>
    (step .m88p s .measureWork).any fun s' =>
      s.meas.resultAvail && s.meas.active == 1 && s.ct.enabled && !s'.ct.emergency &&
      decide (0 < s'.cc.pid.setpoint)) = true := by decide

/-! ### C56: the time step of the controllers -/

theorem elapsedDt_eq (T0 T : Nat) (h : T0 ≤ T) (h' : T ≤ T0 + 32767) :
    ∃ dt, elapsedDt (nowAt T) (nowAt T0) = some dt ∧ TimeStep (T - T0) dt := by
  have hx : timerCountSince (nowAt T) (nowAt T0) = ((T - T0 : Nat) : Int) := by
    unfold timerCountSince nowAt toU16 toS16
    omega
  have hb : ((T - T0 : Nat) : Int) ≤ 32767 := by omega
  have hb0 : (0 : Int) ≤ ((T - T0 : Nat) : Int) := by omega
  unfold TimeStep
  generalize ((T - T0 : Nat) : Int) = x at *
  have e1 : timerCountToMs x = some x := timerCountToMs_eq (by unfold S16; omega)
  have e2 : intToFixpt x = some (x * 64) := intToFixpt_small (by omega)
  have e3 : intToFixpt 1000 = some 64000 := by decide
  have e4 := fixptDiv_eq (a := x * 64) (b := 64000) (by unfold S24; omega) (by decide) (by decide)
  have hr : rdiv (x * 64 * 64) 64000 = rdiv (x * 64) 1000 := rdiv_scale64 (x * 64) 1000 (by decide)
  have hp : 0 ≤ rdiv (x * 64) 1000 ∧ rdiv (x * 64) 1000 ≤ 2097 := by
    rw [rdiv_pos _ _ (by decide)]; split <;> omega
  refine ⟨rdiv (x * 64) 1000, ?_, hp.1, rdiv_spec _ _ (by decide)⟩
  simp only [elapsedDt, timerMsSince, hx, e1, e2, e3, e4, Option.bind_eq_bind, Option.bind_some, hr]
  rw [sat_eq (by omega) (by omega)]

theorem clocked_inv {c : Conf} {s : Sys} {T a b : Nat} (h : Clocked c s T a b) :
    Running c s ∧ s.now = nowAt T ∧ s.ct.dtTimer = nowAt a ∧ s.cc.timer = nowAt b ∧ a ≤ T ∧ b ≤ T := by
  have keepC : ∀ {s s' : Sys} {e : Ev}, Inv c s → step c s e = some s' → ¬ RunsCurr s e s' →
      s'.cc.timer = s.cc.timer := by
    intro s s' e hi hs hn
    rcases step_eff hi hs with ⟨-, hc⟩ | ⟨rfl, hav, p, pl, hm⟩
    · exact (congrArg ContrCurr.timer hc.cc :)
    · rcases (by have := hi.meas.act; omega : s.meas.active = 0 ∨ s.meas.active = 1) with ha | ha
      · obtain ⟨-, f, hf⟩ := hm.curr ha
        exact (hf.norun (by
          by_cases h : pl = .timeout
          · exact Or.inl h
          · exact Or.inr fun h0 => hn ⟨⟨rfl, hav, ha⟩, h0⟩)).1
      · obtain ⟨w, hw⟩ := (hm.temp ha).cc
        rw [hw]
  have keepT : ∀ {s s' : Sys} {e : Ev}, Inv c s → step c s e = some s' → ¬ RunsTemp s e s' →
      s'.ct.enabled = s.ct.enabled → s'.ct.dtTimer = s.ct.dtTimer := by
    intro s s' e hi hs hn hen
    cases e with
    | tick => cases hs; rfl
    | adc x => cases hs; rfl
    | eeIsr => obtain ⟨_, -, hs⟩ := Option.bind_eq_some_iff.mp hs; cases hs; rfl
    | eeDone => cases hs; rfl
    | measureWork =>
      rcases measureWork_eff hi hs with ⟨-, rfl⟩ | ⟨hav, p, pl, hm⟩
      · rfl
      · rcases (by have := hi.meas.act; omega : s.meas.active = 0 ∨ s.meas.active = 1) with ha | ha
        · obtain ⟨-, f, hf⟩ := hm.curr ha
          exact (congrArg ContrTemp.dtTimer hf.ct :)
        · refine ((hm.temp ha).norun ?_).1
          rintro ⟨-, h1, h2⟩
          exact hn ⟨⟨rfl, hav, ha⟩, h1, h2⟩
    | menuWork => exact (menuWork_switch hi hs).2.1
    | displayWork => obtain ⟨_, -, hs⟩ := Option.bind_eq_some_iff.mp hs; cases hs; rfl
    | buttonsWork pinb =>
      rcases buttonsWork_switch hs with h | h
      · exact h.2
      · exact absurd hen h.1
    | settingsWork => cases hs; rfl
  induction h with
  | boot hv e =>
    obtain ⟨-, st, -, b, t, hb, -, rfl⟩ := (boot_ok hv).elim e
    refine ⟨Running.boot hv e, hb.now, hb.dtTimer, ?_, le_refl _, le_refl _⟩
    show b.cc.timer = _
    rw [hb.cc]
    rfl
  | @tick s s' T a b _ hs ih =>
    obtain ⟨i1, i2, i3, i4, i5, i6⟩ := ih
    refine ⟨i1.step (e := .tick) rfl hs, ?_, ?_, ?_, by omega, by omega⟩
    · cases hs
      show timerTick s.now = _
      rw [i2]
      unfold timerTick nowAt toU16
      omega
    · cases hs; exact i3
    · cases hs; exact i4
  | @temp s e s' T a b _ hp hs hr ih =>
    obtain ⟨i1, i2, i3, i4, i5, i6⟩ := ih
    have hi := Running.inv i1
    have hnow : e ≠ .tick := by
      rintro rfl
      rcases hr with ⟨⟨h, -⟩, -⟩ | h
      · cases h
      · cases hs; exact h rfl
    refine ⟨i1.step hp hs, (step_now hi hs hnow).trans i2, ?_, ?_, le_refl _, i6⟩
    · rw [← i2]
      rcases hr with ⟨⟨rfl, hav, hac⟩, hen, hem⟩ | h
      · rcases measureWork_eff hi hs with ⟨h, -⟩ | ⟨-, p, pl, hm⟩
        · rw [hav] at h; cases h
        · have ht := hm.temp hac
          refine (ht.run ?_ hen hem).timer
          rintro rfl
          have := ht.emergency
          rw [hem] at this
          cases this
      · cases e with
        | tick => cases hs; exact absurd rfl h
        | adc x => cases hs; exact absurd rfl h
        | eeIsr => obtain ⟨_, -, hs⟩ := Option.bind_eq_some_iff.mp hs; cases hs; exact absurd rfl h
        | eeDone => cases hs; exact absurd rfl h
        | measureWork =>
          rcases measureWork_eff hi hs with ⟨-, rfl⟩ | ⟨hav, p, pl, hm⟩
          · exact absurd rfl h
          · rcases (by have := hi.meas.act; omega : s.meas.active = 0 ∨ s.meas.active = 1) with ha | ha
            · obtain ⟨-, f, hf⟩ := hm.curr ha
              exact absurd (congrArg ContrTemp.enabled hf.ct :) h
            · exact absurd (hm.temp ha).enabled h
        | menuWork => exact absurd (menuWork_switch hi hs).1 h
        | displayWork => obtain ⟨_, -, hs⟩ := Option.bind_eq_some_iff.mp hs; cases hs; exact absurd rfl h
        | buttonsWork pinb =>
          rcases buttonsWork_switch hs with h' | h'
          · exact absurd h'.1 h
          · exact h'.2
        | settingsWork => cases hs; exact absurd rfl h
    · rw [← i4]
      refine keepC hi hs ?_
      rintro ⟨⟨rfl, hav, hac⟩, -⟩
      rcases hr with ⟨⟨-, -, hac'⟩, -⟩ | h
      · omega
      · rcases measureWork_eff hi hs with ⟨-, rfl⟩ | ⟨-, p, pl, hm⟩
        · exact h rfl
        · obtain ⟨-, f, hf⟩ := hm.curr hac
          exact h (congrArg ContrTemp.enabled hf.ct :)
  | @curr s e s' T a b _ hs hr ih =>
    obtain ⟨i1, i2, i3, i4, i5, i6⟩ := ih
    have hi := Running.inv i1
    obtain ⟨⟨rfl, hav, hac⟩, hem⟩ := hr
    rcases measureWork_eff hi hs with ⟨h, -⟩ | ⟨-, p, pl, hm⟩
    · rw [hav] at h; cases h
    obtain ⟨-, f, hf⟩ := hm.curr hac
    refine ⟨i1.step (e := .measureWork) rfl hs, (step_now hi hs (by decide)).trans i2, ?_, ?_, i5, le_refl _⟩
    · exact (congrArg ContrTemp.dtTimer hf.ct :).trans i3
    · rw [← i2]
      refine (hf.run ?_ hem).timer
      rintro rfl
      have := hf.flags
      rw [hem] at this
      exact absurd this (by show (0 : BitVec 8) ≠ s.cc.emerg ||| 1#8; generalize s.cc.emerg = x; revert x; decide)
  | @other s e s' T a b _ hp hs hn hen ht hc ih =>
    obtain ⟨i1, i2, i3, i4, i5, i6⟩ := ih
    have hi := Running.inv i1
    exact ⟨i1.step hp hs, (step_now hi hs hn).trans i2, (keepT hi hs ht hen).trans i3,
      (keepC hi hs hc).trans i4, i5, i6⟩

/-- the full claim: every run of a controller uses the time since its reference as time step -/
def C56_Full : Prop :=
  ∀ (c : Conf) (s s' : Sys) (T a b : Nat), Clocked c s T a b → step c s .measureWork = some s' →
    (RunsTemp s .measureWork s' → ∃ dt y, TimeStep (T - a) dt ∧
      pidRun s.ct.pid dt s'.ct.feedback = some (s'.ct.pid, y)) ∧
    (RunsCurr s .measureWork s' → ∃ dt r y, TimeStep (T - b) dt ∧
      pidRun s.cc.pid dt r = some (s'.cc.pid, y))

/-- Every run of the temperature controller uses as time step the time since its previous run or, if
    that is later, since it was switched on, rounded to 1/64 s; every run of the current controller
    uses the time since its previous run.  Missing from `C56_Full`: references more than 32767 ms
    ago, for which the time step can be negative (`C56_false`). -/
theorem C56_partial (c : Conf) (s s' : Sys) (T a b : Nat) (h : Clocked c s T a b)
    (hs : step c s .measureWork = some s') :
    (RunsTemp s .measureWork s' → T ≤ a + 32767 → ∃ dt y, TimeStep (T - a) dt ∧
      pidRun s.ct.pid dt s'.ct.feedback = some (s'.ct.pid, y)) ∧
    (RunsCurr s .measureWork s' → T ≤ b + 32767 → ∃ dt r y, TimeStep (T - b) dt ∧
      pidRun s.cc.pid dt r = some (s'.cc.pid, y)) := by
  obtain ⟨i1, i2, i3, i4, i5, i6⟩ := clocked_inv h
  have hi := Running.inv i1
  constructor
  · rintro ⟨⟨-, hav, hac⟩, hen, hem⟩ hT
    rcases measureWork_eff hi hs with ⟨h, -⟩ | ⟨-, p, pl, hm⟩
    · rw [hav] at h; cases h
    have ht := hm.temp hac
    obtain ⟨-, dt, y, a', h1, h2, -⟩ := ht.run (by
      rintro rfl
      have := ht.emergency
      rw [hem] at this
      cases this) hen hem
    obtain ⟨dt', h3, h4⟩ := elapsedDt_eq a T i5 hT
    rw [i2, i3, h3] at h1
    cases h1
    exact ⟨dt, y, h4, h2⟩
  · rintro ⟨⟨-, hav, hac⟩, hem⟩ hT
    rcases measureWork_eff hi hs with ⟨h, -⟩ | ⟨-, p, pl, hm⟩
    · rw [hav] at h; cases h
    obtain ⟨-, f, hf⟩ := hm.curr hac
    obtain ⟨-, dt, r, y, h1, -, h2, -⟩ := hf.run (by
      rintro rfl
      have := hf.flags
      rw [hem] at this
      exact absurd this (by show (0 : BitVec 8) ≠ s.cc.emerg ||| 1#8; generalize s.cc.emerg = x; revert x; decide)) hem
    obtain ⟨dt', h3, h4⟩ := elapsedDt_eq b T i6 hT
    have h1 : elapsedDt s.now s.cc.timer = some dt := h1
    rw [i2, i4, h3] at h1
    cases h1
    exact ⟨dt, r, y, h4, h2⟩

theorem clocked_run {c : Conf} {es : List Ev} {s s' : Sys} {T a b : Nat} (h : Clocked c s T a b)
    (e : runOk c s es = some s') : ∃ a' b', Clocked c s' (T + es.count .tick) a' b' := by
  induction es generalizing s T a b with
  | nil => cases e; exact ⟨a, b, h⟩
  | cons x xs ih =>
    unfold runOk at e
    split at e
    · rename_i hp
      obtain ⟨t, e1, e2⟩ := Option.bind_eq_some_iff.mp e
      by_cases hx : x = .tick
      · subst hx
        rw [List.count_cons_self, show T + (xs.count .tick + 1) = T + 1 + xs.count .tick by omega]
        exact ih (h.tick e1) e2
      · rw [List.count_cons_of_ne (by exact hx)]
        by_cases h1 : RunsTemp s x t ∨ t.ct.enabled ≠ s.ct.enabled
        · exact ih (h.temp hp e1 h1) e2
        · rw [not_or, ne_eq, not_not] at h1
          by_cases h2 : RunsCurr s x t
          · exact ih (h.curr e1 h2) e2
          · exact ih (h.other hp e1 hx h1.2 h1.1 h2) e2
    · cases e

/-- the sensor is unplugged (raw value 1023) for about 36 s after the first readings, then it is back -/
private def longLost : List (Nat × List Ev) :=
  [(50, [.adc 280, .measureWork]), (5, [.adc 0, .measureWork]), (50, [.adc 1023, .measureWork]),
   (5, [.adc 0, .measureWork]), (3100, [.adc 1023, .measureWork]), (5, [.adc 0, .measureWork]),
   (16000, [.adc 1023, .measureWork]), (5, [.adc 0, .measureWork]), (16800, [.adc 280])]

set_option maxRecDepth 100000 in
/-- The full claim is false.  The sensor is lost for 35.9 s, during which the temperature controller does
    not run; when it is back, the iron is at 265 C instead of 350 C, but the integral of the controller
    falls from 2.8 C to its lower limit -30 C because the time step is about -29.6 s. -/
theorem C56_false : ¬ C56_Full := by
  intro hf
  obtain ⟨b, s, eb, es, hP⟩ := demoPaused_any (c := .m88p) (pinb := 0xFF) (l := longLost) (P := fun s =>
      s.meas.resultAvail && s.meas.active == 1 && s.ct.enabled && decide (s.ct.dtTimer = 105) &&
      (step .m88p s .measureWork).any fun s' =>
        !s'.ct.emergency && decide (((pidRun s.ct.pid 2299 s'.ct.feedback).map (·.1.integr)) ≠ some s'.ct.pid.integr))
    validEeprom_m88p (by decide)
  obtain ⟨a, b', hc⟩ := clocked_run (Clocked.boot validEeprom_m88p eb) es
  simp only [Bool.and_eq_true, beq_iff_eq, decide_eq_true_eq] at hP
  obtain ⟨⟨⟨⟨p1, p2⟩, p3⟩, p4⟩, p5⟩ := hP
  match e : step .m88p s .measureWork with
  | none => rw [e] at p5; cases p5
  | some s' =>
    rw [e] at p5
    simp only [Option.any_some, Bool.and_eq_true, Bool.not_eq_true', decide_eq_true_eq] at p5
    have hT : 0 + (pausedEvs longLost).count .tick = 36020 := by rw [pausedEvs_ticks]; decide
    rw [hT] at hc
    obtain ⟨-, -, i3, -, i5, -⟩ := clocked_inv hc
    have ha : a = 105 := by rw [p4] at i3; unfold nowAt at i3; omega
    subst ha
    obtain ⟨dt, y, ⟨-, h1⟩, h2⟩ := (hf _ _ _ _ _ _ hc e).1 ⟨⟨rfl, p1, p2⟩, p3, p5.1⟩
    have : dt = 2299 := NearestAway.unique (b := 1000) (by decide) h1 (by unfold NearestAway; decide)
    subst this
    rw [h2] at p5
    exact p5.2 rfl

set_option maxRecDepth 100000 in
/-- a run of each controller whose time step is not 0: 50 ms (0.047 s) and 105 ms (0.109 s) -/
example : (∃ (s s' : Sys) (a b : Nat), Clocked .m88p s 50 a b ∧ step .m88p s .measureWork = some s' ∧
      RunsTemp s .measureWork s' ∧ 50 ≤ a + 32767 ∧ TimeStep (50 - a) 3) ∧
    (∃ (s s' : Sys) (a b : Nat), Clocked .m88p s 105 a b ∧ step .m88p s .measureWork = some s' ∧
      RunsCurr s .measureWork s' ∧ 105 ≤ b + 32767 ∧ TimeStep (105 - b) 7) := by
  constructor
  · obtain ⟨b, s, eb, es, hP⟩ := demoPaused_any (c := .m88p) (pinb := 0xFF) (l := [(50, [.adc 280])]) (P := fun s =>
        s.meas.resultAvail && s.meas.active == 1 && s.ct.enabled && decide (s.ct.dtTimer = 0) &&
        (step .m88p s .measureWork).any fun s' => !s'.ct.emergency)
      validEeprom_m88p (by decide)
    obtain ⟨a, b', hc⟩ := clocked_run (Clocked.boot validEeprom_m88p eb) es
    rw [show 0 + (pausedEvs [(50, [Ev.adc 280])]).count .tick = 50 by decide] at hc
    simp only [Bool.and_eq_true, beq_iff_eq, decide_eq_true_eq] at hP
    obtain ⟨⟨⟨⟨p1, p2⟩, p3⟩, p4⟩, p5⟩ := hP
    match e : step .m88p s .measureWork with
    | none => rw [e] at p5; cases p5
    | some s' =>
      rw [e] at p5
      simp only [Option.any_some, Bool.not_eq_true'] at p5
      obtain ⟨-, -, i3, -, i5, -⟩ := clocked_inv hc
      have ha : a = 0 := by rw [p4] at i3; unfold nowAt at i3; omega
      subst ha
      exact ⟨s, s', 0, b', hc, e, ⟨⟨rfl, p1, p2⟩, p3, p5⟩, by decide, by unfold TimeStep NearestAway; decide⟩
  · obtain ⟨b, s, eb, es, hP⟩ := demoPaused_any (c := .m88p) (pinb := 0xFF)
      (l := [(50, [.adc 280, .measureWork]), (55, [.adc 0])]) (P := fun s =>
        s.meas.resultAvail && s.meas.active == 0 && decide (s.cc.timer = 0) &&
        (step .m88p s .measureWork).any fun s' => s'.cc.emerg == 0#8)
      validEeprom_m88p (by decide)
    obtain ⟨a, b', hc⟩ := clocked_run (Clocked.boot validEeprom_m88p eb) es
    rw [show 0 + (pausedEvs [(50, [Ev.adc 280, .measureWork]), (55, [.adc 0])]).count .tick = 105 by decide] at hc
    simp only [Bool.and_eq_true, beq_iff_eq, decide_eq_true_eq] at hP
    obtain ⟨⟨⟨p1, p2⟩, p4⟩, p5⟩ := hP
    match e : step .m88p s .measureWork with
    | none => rw [e] at p5; cases p5
    | some s' =>
      rw [e] at p5
      simp only [Option.any_some, beq_iff_eq] at p5
      obtain ⟨-, -, -, i3, -, i5⟩ := clocked_inv hc
      have ha : b' = 0 := by rw [p4] at i3; unfold nowAt at i3; omega
      subst ha
      exact ⟨s, s', a, 0, hc, e, ⟨⟨rfl, p1, p2⟩, p5⟩, by decide, by unfold TimeStep NearestAway; decide⟩

/-! ### C57: which feedback the current controller uses -/

private theorem lowpass_of {k b x : Int} (hk : 0 < k) :
    Lowpass k b x (lfStep b x k) (rdiv (lfStep b x k) k) :=
  ⟨⟨rdiv b k, rdiv_spec _ _ (by omega), rfl⟩, rdiv_spec _ _ (by omega)⟩

private theorem resync_of {b x r m : Int} {st : RState} (hb0 : 0 ≤ b) (hb : 2 * b < 2 * (3200 * 24) + 24)
    (hx : 0 ≤ x ∧ x ≤ 3200)
    (e : ((do
      let d24 ← intToFixpt 24
      let (m, r) ← lpFixptRun b x d24
      let diff ← fixptSub r x
      let a ← fixptAbs diff
      return (r, if a < 64 then RState.enabled else .syncing, m)) : Option (Int × RState × Int)) =
        some (r, st, m)) : Resync b x r st m := by
  obtain ⟨r', st', b', e', -, -, -, h4⟩ := syncing_ok hb0 hb hx
  rw [e] at e'
  cases e'
  have e0 : intToFixpt 24 = some (24 * 64) := intToFixpt_small (by omega)
  have e1 := lpFixptRun_eq (k := 24) (by decide) (by decide) hb0 hb hx.1 hx.2 (by decide)
  simp only [e0, e1, Option.bind_eq_bind, Option.bind_some] at e
  obtain ⟨d, -, e⟩ := Option.bind_eq_some_iff.mp e
  obtain ⟨d', -, e⟩ := Option.bind_eq_some_iff.mp e
  cases e
  exact ⟨lowpass_of (by decide), h4⟩

theorem select_spec {cc : ContrCurr} {ocr x r m : Int} {st : RState} (h : CcInv cc ocr)
    (hx : 0 ≤ x ∧ x ≤ 3200) (e : contrcurrSelect cc x = some (r, st, m)) :
    Selects cc.rState cc.model cc.prevY x r st m := by
  unfold contrcurrSelect at e
  unfold Selects
  cases hst : cc.rState with
  | disabled =>
    rw [hst] at e
    simp only [] at e ⊢
    split at e
    · rw [if_pos (by omega)]
      exact resync_of h.model0 h.model' hx e
    · rw [if_neg (by omega)]
      have e0 : intToFixpt 16 = some (16 * 64) := intToFixpt_small (by omega)
      have e1 := lpFixptRun_eq (k := 16) (by decide) (by decide) h.model0 (h.model hst) h.prevY.1 h.prevY.2
        (by decide)
      simp only [e0, e1, Option.bind_eq_bind, Option.bind_some, pure] at e
      cases e
      exact ⟨rfl, lowpass_of (by decide)⟩
  | syncing =>
    rw [hst] at e
    exact resync_of h.model0 h.model' hx e
  | enabled =>
    rw [hst] at e
    simp only [] at e ⊢
    split at e
    · cases e
      exact ⟨rfl, by rw [if_pos (by omega)]; exact ⟨rfl, rfl⟩⟩
    · cases e
      exact ⟨rfl, by rw [if_neg (by omega)]; exact ⟨rfl, rfl⟩⟩

/-- The controller starts with the measurement. -/
theorem C57_boot (c : Conf) (ee : Nat → Nat) (pinb : BitVec 8) (s : Sys) (hv : ValidEeprom c ee)
    (e : boot c ee pinb = some s) : s.cc.rState = .enabled := by
  obtain ⟨-, st, -, b, t, hb, -, rfl⟩ := (boot_ok hv).elim e
  show b.cc.rState = _
  rw [hb.cc]
  rfl

/-- In the running firmware: every run of the current controller selects its feedback, mode and model as
    specified, and regulates on the selected feedback. -/
theorem C57_select (c : Conf) (s s' : Sys) (hr : Running c s) (hs : step c s .measureWork = some s')
    (hrun : RunsCurr s .measureWork s') :
    ∃ r dt y, Selects s.cc.rState s.cc.model s.cc.prevY s'.cc.feedback r s'.cc.rState s'.cc.model ∧
      pidRun s.cc.pid dt r = some (s'.cc.pid, y) := by
  obtain ⟨⟨-, hav, hac⟩, hem⟩ := hrun
  have hi := Running.inv hr
  rcases measureWork_eff hi hs with ⟨h, -⟩ | ⟨-, p, pl, hm⟩
  · rw [hav] at h; cases h
  obtain ⟨hp, f, hf⟩ := hm.curr hac
  have hpl : pl ≠ .timeout := by
    rintro rfl
    have := hf.flags
    rw [hem] at this
    exact absurd this (by show (0 : BitVec 8) ≠ s.cc.emerg ||| 1#8; generalize s.cc.emerg = x; revert x; decide)
  obtain ⟨-, dt, r, y, -, h2, h3, -⟩ := hf.run hpl hem
  have hx : 0 ≤ s'.cc.feedback ∧ s'.cc.feedback ≤ 3200 := by
    rw [hf.feedback]
    cases pl with
    | plausible => exact hp
    | notPlausible => exact hi.mcurr
    | timeout => exact absurd rfl hpl
  exact ⟨r, dt, y, select_spec (cc := s.cc) hi.cc hx h2, h3⟩

/-- Nothing else changes the mode, the model or the output it follows. -/
theorem C57_kept (c : Conf) (s s' : Sys) (e : Ev) (hr : Running c s) (hs : step c s e = some s')
    (hrun : ¬ RunsCurr s e s') :
    s'.cc.rState = s.cc.rState ∧ s'.cc.model = s.cc.model ∧ s'.cc.prevY = s.cc.prevY := by
  have hi := Running.inv hr
  rcases step_eff hi hs with ⟨-, hc⟩ | ⟨rfl, hav, p, pl, hm⟩
  · exact ⟨(congrArg ContrCurr.rState hc.cc :), (congrArg ContrCurr.model hc.cc :), (congrArg ContrCurr.prevY hc.cc :)⟩
  · rcases (by have := hi.meas.act; omega : s.meas.active = 0 ∨ s.meas.active = 1) with ha | ha
    · obtain ⟨-, f, hf⟩ := hm.curr ha
      have := hf.norun (by
        by_cases h : pl = .timeout
        · exact Or.inl h
        · exact Or.inr fun h0 => hrun ⟨⟨rfl, hav, ha⟩, h0⟩)
      exact ⟨this.2.2.1, this.2.2.2.1, this.2.2.2.2⟩
    · obtain ⟨w, hw⟩ := (hm.temp ha).cc
      rw [hw]
      exact ⟨rfl, rfl, rfl⟩

/-- Hysteresis: with a measurement strictly between 1.7 A and 1.8 A no event changes the mode, except that
    a resync can be completed. -/
theorem C57_band (c : Conf) (s s' : Sys) (e : Ev) (hr : Running c s) (hs : step c s e = some s')
    (hx : 17 * 64 < s'.cc.feedback ∧ s'.cc.feedback < 18 * 64) :
    s'.cc.rState = s.cc.rState ∨ (s.cc.rState = .syncing ∧ s'.cc.rState = .enabled) := by
  by_cases hrun : RunsCurr s e s'
  · obtain ⟨rfl, -⟩ := hrun.1
    obtain ⟨r, dt, y, h, -⟩ := C57_select c s s' hr hs hrun
    unfold Selects at h
    cases hst : s.cc.rState with
    | enabled =>
      rw [hst] at h
      simp only [] at h
      rw [if_neg (by omega)] at h
      exact Or.inl h.2.1
    | disabled =>
      rw [hst] at h
      simp only [] at h
      rw [if_neg (by omega)] at h
      exact Or.inl h.1
    | syncing =>
      rw [hst] at h
      have h := h.2
      split at h
      · exact Or.inr ⟨rfl, h⟩
      · exact Or.inl h
  · exact Or.inl (C57_kept c s s' e hr hs hrun).1

/-- The controller never leaves the measurement except at 1.8 A or more, and never leaves the model except
    at 1.7 A or less. -/
theorem C57_thresholds (c : Conf) (s s' : Sys) (e : Ev) (hr : Running c s) (hs : step c s e = some s') :
    (s.cc.rState = .enabled → s'.cc.rState ≠ .enabled → 18 * 64 ≤ s'.cc.feedback ∧ s'.cc.rState = .disabled) ∧
    (s.cc.rState = .disabled → s'.cc.rState ≠ .disabled → s'.cc.feedback ≤ 17 * 64) := by
  by_cases hrun : RunsCurr s e s'
  · obtain ⟨rfl, -⟩ := hrun.1
    obtain ⟨r, dt, y, h, -⟩ := C57_select c s s' hr hs hrun
    unfold Selects at h
    constructor
    · intro hst hne
      rw [hst] at h
      simp only [] at h
      split at h
      · exact ⟨by assumption, h.2.1⟩
      · exact absurd h.2.1 hne
    · intro hst hne
      rw [hst] at h
      simp only [] at h
      split at h
      · assumption
      · exact absurd h.1 hne
  · have := (C57_kept c s s' e hr hs hrun).1
    exact ⟨fun h1 h2 => absurd (this.trans h1) h2, fun h1 h2 => absurd (this.trans h1) h2⟩

/-- A resync ends: along every sequence of selections with a constant measurement that starts with a
    resync, the measurement is used again at some point. -/
theorem C57_resync (x : Int) (hx : 0 ≤ x) (st : Nat → RState) (m y r : Nat → Int) (h0 : st 0 = .syncing)
    (hm : 0 ≤ m 0) (h : ∀ n, Selects (st n) (m n) (y n) x (r n) (st (n + 1)) (m (n + 1))) :
    ∃ n, st n = .enabled := by
  by_contra hn
  have hn : ∀ n, st n ≠ .enabled := fun n hh => hn ⟨n, hh⟩
  have hs : ∀ n, st n = .syncing := by
    intro n
    induction n with
    | zero => exact h0
    | succ n ih =>
      have := h n
      rw [ih] at this
      have := this.2
      split at this
      · exact absurd this (hn _)
      · exact this
  have hstep : ∀ n, m (n + 1) = lfStep (m n) x 24 ∧ rdiv (m (n + 1)) 24 ≠ x := by
    intro n
    have := h n
    rw [hs n] at this
    obtain ⟨⟨⟨q, hq, e⟩, hr⟩, hst⟩ := this
    refine ⟨?_, fun hh => ?_⟩
    · rw [e, NearestAway.unique (by decide) hq (rdiv_spec (m n) 24 (by decide))]
      rfl
    · have : r n = x := by rw [← hh]; exact NearestAway.unique (by decide) hr (rdiv_spec _ _ (by decide))
      rw [this, if_pos (by omega)] at hst
      exact hn _ hst
  have hpos : ∀ n, 0 ≤ m n := by
    intro n
    induction n with
    | zero => exact hm
    | succ n ih => rw [(hstep n).1]; exact lfStep_nonneg (by decide) ih hx
  -- the distance to the settled sum decreases
  have hdec : ∀ n, (m (n + 2) - x * 24).natAbs < (m (n + 1) - x * 24).natAbs := by
    intro n
    obtain ⟨e1, h1⟩ := hstep (n + 1)
    obtain ⟨-, h2⟩ := hstep n
    obtain ⟨-, c2, c3⟩ := lfStep_const (m (n + 1)) x 24 (by decide) (hpos _)
    rw [← e1] at c2 c3
    have b1 := rdiv_band (m (n + 1)) 24 (by decide)
    have b2 := rdiv_band (m (n + 2)) 24 (by decide)
    have p2 := hpos (n + 2)
    have e : m (n + 1 + 1) = m (n + 2) := rfl
    rw [e] at c2 c3 h1
    generalize rdiv (m (n + 1)) 24 = q1 at *
    generalize rdiv (m (n + 2)) 24 = q2 at *
    rcases lt_or_gt_of_ne h2 with hl | hl
    · have := c2 hl
      omega
    · have := c3 hl
      omega
  have : ∀ N n, (m (n + 1) - x * 24).natAbs ≤ N → False := by
    intro N
    induction N with
    | zero => intro n hh; have := hdec n; omega
    | succ N ih => intro n hh; exact ih (n + 1) (by have := hdec n; have e : m (n + 1 + 1) = m (n + 2) := rfl; rw [e]; omega)
  exact this _ 0 (le_refl _)

/-- a selection of each kind: measurement kept and given up, model kept and given up, resync going on and
    completed; and a whole cycle in the model of the firmware -/
example : Selects .enabled 0 0 1000 1000 .enabled 0 ∧ Selects .enabled 0 0 1152 1152 .disabled 1152 ∧
    Selects .disabled 1152 1600 1100 168 .disabled 2680 ∧ Selects .disabled 2680 1600 1080 152 .syncing 3648 ∧
    Selects .syncing 24000 0 960 998 .enabled 23960 := by
  unfold Selects Resync Lowpass NearestAway
  refine ⟨by decide, by decide, ⟨rfl, ⟨72, ?_⟩, ?_⟩, ⟨⟨⟨112, ?_⟩, ?_⟩, ?_⟩, ⟨⟨⟨1000, ?_⟩, ?_⟩, ?_⟩⟩ <;> decide

set_option maxRecDepth 100000 in
/-- the hypotheses are met in the running firmware: the measurement is given up at 1.83 A -/
example : (demo .m88p 0xFF (reading 50 280 ++ ticks 5 ++ [.adc 108])).any (fun s =>
    (step .m88p s .measureWork).any fun s' =>
      s.meas.resultAvail && s.meas.active == 0 && s'.cc.emerg == 0#8 && decide (s'.cc.feedback = 1170) &&
      decide (s.cc.rState = .enabled ∧ s'.cc.rState = .disabled)) = true := by decide

/-! ### C42: the iron button -/

/-- what the firmware remembers of the current press -/
private structure Rem (s : Sys) (T : Nat) (p : Option Press) : Prop where
  now : s.now = nowAt T
  prev : s.btn.prev.getLsbD 0 = p.isSome
  biLet : ∀ q, p = some q → s.ct.biLet = !q.done
  timer : ∀ q, p = some q → q.done = false →
    s.ct.biTimer = toU16 (nowAt q.since + 1000) ∧ s.ct.idle = false ∧ q.since ≤ T

private theorem expired_since (T0 T : Nat) (h : T0 ≤ T) (h' : T < T0 + 33768) :
    timerExpired (nowAt T) (toU16 (nowAt T0 + 1000)) = decide (T0 + 1000 ≤ T) := by
  unfold timerExpired timerCountSince nowAt toU16 toS16
  congr 1
  simp only [ge_iff_le, eq_iff_iff]
  omega

/-- one sample -/
private theorem sample_rem {c : Conf} (hb : c.boost = true) (hc : c.idle = true) {s s' : Sys} {T : Nat}
    {p : Option Press} {pinb : BitVec 8} (hr : Rem s T p) (hbo : s.ct.boost < 3)
    (hx : timerExpired s.now s.btn.debounce = true) (hs : buttonsWork c s pinb = some s')
    (hw : ∀ q, p = some q → q.done = false → T < q.since + 33768) :
    Rem s' T (nextPress s.ct.idle T p (IronDown pinb)) ∧
    s'.ct.idle = idleAfter s.ct.idle T p (IronDown pinb) ∧
    ∃ b, (b = s.ct.boost ∨ (b = 0 ∧ s.btn.prev.getLsbD 2 = true ∧ pinb.getLsbD 2 = true)) ∧
      s'.ct.boost = boostAfter b p (IronDown pinb) := by
  obtain ⟨b, s1, hbp, hh, hf⟩ := buttonsWork_iron hx hs
  have raw : (buttonsRaw pinb).getLsbD 0 = IronDown pinb := by
    unfold IronDown buttonsRaw BUTTONS_MASK; revert pinb; intro pinb; simp
  have hnext : ∀ i d : Bool, ∀ q : Option Press, (nextPress i T q d).isSome = d := by
    intro i d q; cases d <;> cases q <;> rfl
  have hnow1 : s1.now = nowAt T := hh.now.trans hr.now
  have hbtn1 : s1.btn.prev.getLsbD 0 = IronDown pinb := by rw [hh.btn]; show b.prev.getLsbD 0 = _; rw [hbp, raw]
  have hidle1 : s1.ct.idle = s.ct.idle := hh.idle
  have hlet1 : s1.ct.biLet = s.ct.biLet := hh.biLet
  have htim1 : s1.ct.biTimer = s.ct.biTimer := hh.biTimer
  have hbo1 : s1.ct.boost = s.ct.boost ∨ (s1.ct.boost = 0 ∧ s.btn.prev.getLsbD 2 = true ∧ pinb.getLsbD 2 = true) := by
    rcases hh.reg with h | h
    · exact Or.inl h.1
    · exact Or.inr ⟨h.2.1 hb, h.1⟩
  have hbo3 : s1.ct.boost < 3 := by rcases hbo1 with h | h <;> omega
  have fin : ∀ (d : Bool) (p' : Option Press), Touched s1 s' (idleAfter s.ct.idle T p d) (boostAfter s1.ct.boost p d)
        (s'.ct.biLet) → IronDown pinb = d → p' = nextPress s.ct.idle T p d →
      (∀ q, p' = some q → s'.ct.biLet = !q.done) →
      (∀ q, p' = some q → q.done = false → s'.ct.biTimer = toU16 (nowAt q.since + 1000) ∧ s'.ct.idle = false ∧ q.since ≤ T) →
      Rem s' T (nextPress s.ct.idle T p d) ∧
      s'.ct.idle = idleAfter s.ct.idle T p d ∧
      ∃ b, (b = s.ct.boost ∨ (b = 0 ∧ s.btn.prev.getLsbD 2 = true ∧ pinb.getLsbD 2 = true)) ∧
        s'.ct.boost = boostAfter b p d := by
    intro d p' ht hd hp' h1 h2
    subst hp'
    rw [hd] at hbtn1
    exact ⟨⟨ht.now.trans hnow1, by rw [ht.btn, hbtn1, hnext], h1, h2⟩, ht.idle, s1.ct.boost, hbo1, ht.boost⟩
  rw [hr.prev] at hf
  change List.foldlM _ s1 (pressCalls p.isSome (IronDown pinb)) = some s' at hf
  cases p with
  | none =>
    cases hd : IronDown pinb with
    | false =>
      rw [hd] at hf
      cases hf
      exact fin false none ⟨hidle1, rfl, rfl, rfl, rfl, rfl, rfl⟩ hd rfl (fun q h => by cases h) (fun q h => by cases h)
    | true =>
      rw [hd] at hf
      change (([BState.posedge, .pressed] : List BState).foldlM (fun s e => contrtempButton c s .iron e) s1) = some s' at hf
      rw [List.foldlM_cons, Option.bind_eq_bind] at hf
      obtain ⟨s2, e2, hf⟩ := Option.bind_eq_some_iff.mp hf
      rw [List.foldlM_cons, Option.bind_eq_bind] at hf
      obtain ⟨s3, e3, hf⟩ := Option.bind_eq_some_iff.mp hf
      cases hf
      obtain ⟨t1, t2⟩ := iron_press hb hc e2
      obtain ⟨t3, t4⟩ := iron_pressed hb hc e3 (fun _ => t1.idle)
      have hne : timerExpired s2.now s2.ct.biTimer = false := by
        rw [t2, t1.now, hnow1, expired_since T T (le_refl _) (by omega)]
        simp
      rw [if_neg (by rw [hne]; simp)] at t3
      refine fin true (some ⟨T, s.ct.idle⟩) ⟨t3.idle.trans t1.idle, t3.boost.trans t1.boost, rfl, t3.now.trans t1.now,
        t3.btn.trans t1.btn, t3.enabled.trans t1.enabled, t3.dtTimer.trans t1.dtTimer⟩ hd rfl ?_ ?_
      · rintro q hq
        cases hq
        rw [t3.biLet, t1.biLet, hidle1]
      · rintro q hq -
        cases hq
        exact ⟨by rw [t4, t2, hnow1], t3.idle.trans t1.idle, le_refl _⟩
  | some q =>
    have hl := hr.biLet q rfl
    have ht := hr.timer q rfl
    have hq : s1.ct.biLet = true → s1.ct.idle = false := by
      rw [hlet1, hidle1, hl]
      intro h
      exact (ht (by simpa using h)).2.1
    cases hd : IronDown pinb with
    | false =>
      rw [hd] at hf
      change (([BState.negedge] : List BState).foldlM (fun s e => contrtempButton c s .iron e) s1) = some s' at hf
      rw [List.foldlM_cons, Option.bind_eq_bind] at hf
      obtain ⟨s2, e2, hf⟩ := Option.bind_eq_some_iff.mp hf
      cases hf
      have t := iron_release hb hc e2 hq
      refine fin false none ⟨t.idle.trans hidle1, ?_, rfl, t.now, t.btn, t.enabled, t.dtTimer⟩ hd rfl
        (fun q h => by cases h) (fun q h => by cases h)
      rw [t.boost, hlet1, hl]
      have hring : ringNext s1.ct.boost (c.nrBoost - 1) = (s1.ct.boost + 1) % 3 := by
        have : c.nrBoost = 3 := by unfold Conf.nrBoost; rw [if_pos hb]
        rw [this]
        revert hbo3
        generalize s1.ct.boost = x
        revert x
        decide
      rw [hring]
      simp only [boostAfter]
      generalize q.done = d
      cases d <;> rfl
    | true =>
      rw [hd] at hf
      change (([BState.pressed] : List BState).foldlM (fun s e => contrtempButton c s .iron e) s1) = some s' at hf
      rw [List.foldlM_cons, Option.bind_eq_bind] at hf
      obtain ⟨s2, e2, hf⟩ := Option.bind_eq_some_iff.mp hf
      cases hf
      obtain ⟨t, t4⟩ := iron_pressed hb hc e2 hq
      cases hdone : q.done with
      | true =>
        rw [if_neg (by rw [hlet1, hl, hdone]; simp)] at t
        refine fin true (some ⟨q.since, true⟩) ⟨?_, t.boost, rfl, t.now, t.btn, t.enabled, t.dtTimer⟩ hd ?_ ?_ ?_
        · rw [t.idle, hidle1]
          simp [idleAfter, hdone]
        · simp [nextPress, hdone]
        · rintro q' hq'
          cases hq'
          rw [t.biLet, hlet1, hl, hdone]
        · rintro q' hq' h
          cases hq'
          cases h
      | false =>
        obtain ⟨k1, k2, k3⟩ := ht hdone
        have hexp : timerExpired s1.now s1.ct.biTimer = decide (q.since + 1000 ≤ T) := by
          rw [hnow1, htim1, k1, expired_since q.since T k3 (hw q rfl hdone)]
        by_cases hdue : q.since + 1000 ≤ T
        · rw [if_pos (by rw [hlet1, hl, hdone, hexp]; simpa using hdue)] at t
          refine fin true (some ⟨q.since, true⟩) ⟨?_, t.boost, rfl, t.now, t.btn, t.enabled, t.dtTimer⟩ hd ?_ ?_ ?_
          · rw [t.idle]
            simp [idleAfter, hdone, hdue]
          · simp [nextPress, hdone, hdue]
          · rintro q' hq'
            cases hq'
            rw [t.biLet]; rfl
          · rintro q' hq' h
            cases hq'
            cases h
        · rw [if_neg (by rw [hexp]; simpa using fun _ => hdue)] at t
          refine fin true (some ⟨q.since, false⟩) ⟨?_, t.boost, rfl, t.now, t.btn, t.enabled, t.dtTimer⟩ hd ?_ ?_ ?_
          · rw [t.idle, hidle1]
            simp [idleAfter, hdue]
          · simp [nextPress, hdone, hdue]
          · rintro q' hq'
            cases hq'
            rw [t.biLet, hlet1, hl, hdone]
          · rintro q' hq' h
            cases hq'
            exact ⟨by rw [t4, htim1, k1], by rw [t.idle, hidle1, k2], k3⟩

private theorem iron_inv {c : Conf} (hb : c.boost = true) (hc : c.idle = true) {s : Sys} {T : Nat}
    {p : Option Press} (h : IronHist c s T p) : Running c s ∧ Rem s T p := by
  induction h with
  | boot hv e =>
    obtain ⟨-, st, -, b, t, hb, -, rfl⟩ := (boot_ok hv).elim e
    refine ⟨Running.boot hv e, hb.now, ?_, (fun q h => by cases h), (fun q h => by cases h)⟩
    show b.btn.prev.getLsbD 0 = _
    rw [hb.btn]
    rfl
  | @tick s s' T p _ hs ih =>
    obtain ⟨i1, i2⟩ := ih
    refine ⟨i1.step (e := .tick) rfl hs, ?_⟩
    cases hs
    refine ⟨?_, i2.prev, i2.biLet, fun q h1 h2 => ?_⟩
    · show timerTick s.now = _
      rw [i2.now]
      unfold timerTick nowAt toU16
      omega
    · obtain ⟨j1, j2, j3⟩ := i2.timer q h1 h2
      exact ⟨j1, j2, by omega⟩
  | @sample s s' T p pinb _ hx hs hw ih =>
    obtain ⟨i1, i2⟩ := ih
    have hbo := (Running.inv i1).ct.boost
    rw [show c.nrBoost = 3 by unfold Conf.nrBoost; rw [if_pos hb]] at hbo
    exact ⟨i1.step (e := .buttonsWork pinb) rfl hs, (sample_rem hb hc i2 hbo hx.2 hs hw).1⟩
  | @other s e s' T p _ hp hs hn hx ih =>
    obtain ⟨i1, i2⟩ := ih
    have hi := Running.inv i1
    have key : s'.btn = s.btn → s'.ct.biLet = s.ct.biLet → s'.ct.biTimer = s.ct.biTimer → s'.ct.idle = s.ct.idle →
        s'.btn.prev.getLsbD 0 = p.isSome ∧ (∀ q, p = some q → s'.ct.biLet = !q.done) ∧
        (∀ q, p = some q → q.done = false →
          s'.ct.biTimer = toU16 (nowAt q.since + 1000) ∧ s'.ct.idle = false ∧ q.since ≤ T) := by
      intro h1 h2 h3 h4
      rw [h1, h2, h3, h4]
      exact ⟨i2.prev, i2.biLet, i2.timer⟩
    suffices hh : s'.btn.prev.getLsbD 0 = p.isSome ∧ (∀ q, p = some q → s'.ct.biLet = !q.done) ∧
        (∀ q, p = some q → q.done = false →
          s'.ct.biTimer = toU16 (nowAt q.since + 1000) ∧ s'.ct.idle = false ∧ q.since ≤ T) from
      ⟨i1.step hp hs, (step_now hi hs hn).trans i2.now, hh.1, hh.2.1, hh.2.2⟩
    cases e with
    | tick => exact absurd rfl hn
    | adc x => cases hs; exact key rfl rfl rfl rfl
    | eeIsr => obtain ⟨_, -, hs⟩ := Option.bind_eq_some_iff.mp hs; cases hs; exact key rfl rfl rfl rfl
    | eeDone => cases hs; exact key rfl rfl rfl rfl
    | measureWork =>
      rcases measureWork_eff hi hs with ⟨-, rfl⟩ | ⟨hav, p', pl, hm⟩
      · exact key rfl rfl rfl rfl
      · rcases (by have := hi.meas.act; omega : s.meas.active = 0 ∨ s.meas.active = 1) with ha | ha
        · obtain ⟨-, f, hf⟩ := hm.curr ha
          exact key hm.btn (congrArg ContrTemp.biLet hf.ct :) (congrArg ContrTemp.biTimer hf.ct :)
            (congrArg ContrTemp.idle hf.ct :)
        · have ht := hm.temp ha
          exact key hm.btn ht.bi.1 ht.bi.2 ht.idle
    | menuWork =>
      have hh := Hand.menuWork hi s' hs
      exact key hh.btn hh.biLet hh.biTimer hh.idle
    | displayWork => obtain ⟨_, -, hs⟩ := Option.bind_eq_some_iff.mp hs; cases hs; exact key rfl rfl rfl rfl
    | buttonsWork pinb =>
      have : timerExpired s.now s.btn.debounce = false := by
        cases h : timerExpired s.now s.btn.debounce
        · rfl
        · exact absurd ⟨rfl, h⟩ (hx pinb)
      obtain rfl := buttonsWork_early this hs
      exact key rfl rfl rfl rfl
    | settingsWork => cases hs; exact key rfl rfl rfl rfl

/-- With boost and idle mode built in: a sample of the buttons acts on idle and boost mode exactly as the
    current press of the iron button requires: a new press leaves idle mode; a press not begun in idle mode enters it
    when 1000 ms have passed, once; the release of a press for which neither happened advances the boost
    mode by one of three.  Nothing else happens to idle mode, and nothing else to boost mode, except
    that leaving or entering the tuning screens with SET resets it. -/
theorem C42_sample (c : Conf) (hb : c.boost = true) (hc : c.idle = true) (s s' : Sys) (T : Nat)
    (p : Option Press) (pinb : BitVec 8) (h : IronHist c s T p) (hx : Samples s (.buttonsWork pinb) pinb)
    (hs : step c s (.buttonsWork pinb) = some s')
    (hw : ∀ q, p = some q → q.done = false → T < q.since + 33768) :
    s'.ct.idle = idleAfter s.ct.idle T p (IronDown pinb) ∧
    ∃ b, (b = s.ct.boost ∨ (b = 0 ∧ s.btn.prev.getLsbD 2 = true ∧ pinb.getLsbD 2 = true)) ∧
      s'.ct.boost = boostAfter b p (IronDown pinb) := by
  obtain ⟨i1, i2⟩ := iron_inv hb hc h
  have hbo := (Running.inv i1).ct.boost
  rw [show c.nrBoost = 3 by unfold Conf.nrBoost; rw [if_pos hb]] at hbo
  exact (sample_rem hb hc i2 hbo hx.2 hs hw).2

/-- Apart from samples of the buttons nothing changes idle or boost mode, in any build. -/
theorem C42_otherwise (c : Conf) (s s' : Sys) (e : Ev) (hr : Running c s) (hs : step c s e = some s')
    (hx : ∀ pinb, ¬ Samples s e pinb) : s'.ct.idle = s.ct.idle ∧ s'.ct.boost = s.ct.boost := by
  have hi := Running.inv hr
  cases e with
  | tick => cases hs; exact ⟨rfl, rfl⟩
  | adc x => cases hs; exact ⟨rfl, rfl⟩
  | eeIsr => obtain ⟨_, -, hs⟩ := Option.bind_eq_some_iff.mp hs; cases hs; exact ⟨rfl, rfl⟩
  | eeDone => cases hs; exact ⟨rfl, rfl⟩
  | measureWork =>
    rcases measureWork_eff hi hs with ⟨-, rfl⟩ | ⟨hav, p', pl, hm⟩
    · exact ⟨rfl, rfl⟩
    · rcases (by have := hi.meas.act; omega : s.meas.active = 0 ∨ s.meas.active = 1) with ha | ha
      · obtain ⟨-, f, hf⟩ := hm.curr ha
        exact ⟨(congrArg ContrTemp.idle hf.ct :), (congrArg ContrTemp.boost hf.ct :)⟩
      · exact ⟨(hm.temp ha).idle, (hm.temp ha).boost⟩
  | menuWork => exact ⟨(menuWork_switch hi hs).2.2.2, (menuWork_switch hi hs).2.2.1⟩
  | displayWork => obtain ⟨_, -, hs⟩ := Option.bind_eq_some_iff.mp hs; cases hs; exact ⟨rfl, rfl⟩
  | buttonsWork pinb =>
    have : timerExpired s.now s.btn.debounce = false := by
      cases h : timerExpired s.now s.btn.debounce
      · rfl
      · exact absurd ⟨rfl, h⟩ (hx pinb)
    rw [buttonsWork_early this hs]
    exact ⟨rfl, rfl⟩
  | settingsWork => cases hs; exact ⟨rfl, rfl⟩

set_option maxRecDepth 100000 in
/-- in the firmware with boost and idle mode: a short press (pins 0xFE, then 0xFF) selects the next boost
    mode; a press of 1000 ms enters idle mode and its release does nothing; a press in idle mode leaves
    it and does nothing else however long it is held -/
example :
    let down := Ev.buttonsWork 0xFE
    let up := Ev.buttonsWork 0xFF
    let look := fun (s : Sys) => (s.ct.idle, s.ct.boost)
    (demoPaused .m328p 0xFF [(10, [down]), (990, [down, up])]).map look = some (false, 1) ∧
    (demoPaused .m328p 0xFF [(10, [down]), (1000, [down])]).map look = some (true, 0) ∧
    (demoPaused .m328p 0xFF [(10, [down]), (1000, [down]), (10, [up])]).map look = some (true, 0) ∧
    (demoPaused .m328p 0xFF [(10, [down]), (1000, [down]), (10, [up]), (10, [down])]).map look = some (false, 0) ∧
    (demoPaused .m328p 0xFF [(10, [down]), (1000, [down]), (10, [up]), (10, [down]), (2000, [down]), (10, [up])]).map
      look = some (false, 0) ∧ Conf.m328p.boost = true ∧ Conf.m328p.idle = true := by decide

private theorem iron_run {c : Conf} {es : List Ev} {s s' : Sys} {T : Nat} {p : Option Press}
    (h : IronHist c s T p) (hT : T + es.count .tick < 33768) (e : runOk c s es = some s') :
    ∃ p', IronHist c s' (T + es.count .tick) p' := by
  induction es generalizing s T p with
  | nil => cases e; exact ⟨p, h⟩
  | cons x xs ih =>
    unfold runOk at e
    split at e
    · rename_i hp
      obtain ⟨t, e1, e2⟩ := Option.bind_eq_some_iff.mp e
      by_cases hx : x = .tick
      · subst hx
        rw [List.count_cons_self] at hT ⊢
        rw [show T + (xs.count .tick + 1) = T + 1 + xs.count .tick by omega]
        exact ih (h.tick e1) (by omega) e2
      · rw [List.count_cons_of_ne (by exact hx)] at hT ⊢
        by_cases h1 : ∃ pinb, Samples s x pinb
        · obtain ⟨pinb, h1⟩ := h1
          have hx := h1.1
          subst hx
          exact ih (h.sample h1 e1 fun q _ _ => by omega) (by omega) e2
        · exact ih (h.other hp e1 hx fun pinb hh => h1 ⟨pinb, hh⟩) (by omega) e2
    · cases e

set_option maxRecDepth 100000 in
/-- the hypotheses are met by a sample 1000 ms after the press was first seen, and idle mode is entered -/
example : ∃ s s' p, IronHist .m328p s 1010 p ∧ Samples s (.buttonsWork 0xFE) 0xFE ∧
    step .m328p s (.buttonsWork 0xFE) = some s' ∧ (∀ q, p = some q → q.done = false → 1010 < q.since + 33768) ∧
    s.ct.idle = false ∧ s'.ct.idle = true := by
  obtain ⟨b, s, eb, es, hP⟩ := demoPaused_any (c := .m328p) (pinb := 0xFF)
    (l := [(10, [.buttonsWork 0xFE]), (1000, [])]) (P := fun s =>
      timerExpired s.now s.btn.debounce && !s.ct.idle &&
      (step .m328p s (.buttonsWork 0xFE)).any fun s' => s'.ct.idle)
    validEeprom_m328p (by decide)
  have hT : (pausedEvs [(10, [Ev.buttonsWork 0xFE]), (1000, [])]).count .tick = 1010 := by rw [pausedEvs_ticks]; decide
  obtain ⟨p, hc⟩ := iron_run (IronHist.boot validEeprom_m328p eb) (by rw [hT]; decide) es
  rw [hT] at hc
  simp only [Bool.and_eq_true, Bool.not_eq_true'] at hP
  obtain ⟨⟨p1, p2⟩, p3⟩ := hP
  match e : step .m328p s (.buttonsWork 0xFE) with
  | none => rw [e] at p3; cases p3
  | some s' =>
    rw [e] at p3
    exact ⟨s, s', p, hc, ⟨rfl, p1⟩, e, fun q _ _ => by omega, p2, p3⟩

end Verif.Props
