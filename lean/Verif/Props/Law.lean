import Verif.Spec.Pid
import Verif.Props.Pid
import Verif.Props.Control
import Verif.Props.Safety
import Verif.Proofs.Memory
/-
C64, C65: the control laws of the running firmware, from the measured values to the heater output.
-/
namespace Verif.Props
open Spec

theorem timeStep_ne {ms : Nat} {dt : Int} (h : TimeStep ms dt) (hm : 8 ≤ ms) : dt ≠ 0 := by
  obtain ⟨h0, h1⟩ := h
  unfold NearestAway at h1
  omega

/-! ### C64: the temperature controller -/

/-- Every run of the temperature controller applies the PID law with the factors set for the boost mode,
    to the difference between the temperature wanted and the temperature measured, with the time since its
    previous run (or since it was switched on) as time step; the integral is kept between -30 C and 80 C
    and the output between 0 C and 480 C; the current demand is the current for the output, or 0 A if
    the temperature is above 480 C. -/
theorem C64_law (c : Conf) (s s' : Sys) (T a b : Nat) (h : Clocked c s T a b)
    (hs : step c s .measureWork = some s') (hrun : RunsTemp s .measureWork s')
    (hT : a + 8 ≤ T) (hT' : T ≤ a + 32767) :
    ∃ w k dt y amps, WantedTemp s.set.cache s.ct.idle w ∧ s.set.cache.k[s.ct.boost]? = some k ∧
      TimeStep (T - a) dt ∧
      PidLaw k.kp k.ki k.kd k.decay (-30 * 64) (80 * 64) 0 (480 * 64) dt (w - s'.ct.feedback)
        s.ct.pid.integr s.ct.pid.prevE s'.ct.pid.integr s'.ct.pid.prevE y ∧
      CurrentFor y amps ∧ s'.cc.pid.setpoint = if s'.ct.feedback > 480 * 64 then 0 else amps := by
  obtain ⟨i1, i2, i3, -, i5, -⟩ := clocked_inv h
  have hi := Running.inv i1
  have hi' := Running.inv (i1.step (e := .measureWork) rfl hs)
  obtain ⟨⟨-, hav, hac⟩, hen, hem⟩ := hrun
  rcases measureWork_eff hi hs with ⟨h, -⟩ | ⟨-, p, pl, hm⟩
  · rw [hav] at h; cases h
  have ht := hm.temp hac
  have hpl : pl ≠ .timeout := by
    rintro rfl
    have := ht.emergency
    rw [hem] at this
    cases this
  obtain ⟨-, dt, y, amps, h1, h2, h3, h4⟩ := ht.run hpl hen hem
  obtain ⟨dt', h5, h6⟩ := elapsedDt_eq a T i5 hT'
  rw [i2, i3, h5] at h1
  cases h1
  obtain ⟨q1, q2, q3, q4⟩ := hi.ct.lim
  have hd := hi.ct.range.decay
  obtain ⟨hl, -, -⟩ := C23_law _ _ _ _ _ (timeStep_ne h6 (by omega)) (by omega)
    (by rw [q1, q2]; decide) (by rw [q3, q4]; decide) h2
  obtain ⟨l1, l2, -⟩ := pidRun_limits h2 (by rw [q1, q2]; decide) (by rw [q3, q4]; decide)
  rw [q3] at l1
  rw [q4] at l2
  obtain ⟨a', e', ha, -⟩ := C41_map y ⟨l1, l2⟩
  rw [h3] at e'
  cases e'
  have hsp := hi.ct.range.sp
  have hfb := hi'.ct.fb
  rw [q1, q2, q3, q4, sat_eq (by omega) (by omega)] at hl
  exact ⟨_, _, dt, y, amps, hi.ct.sp, hi.ct.k, h6, hl, ha, h4⟩

/-- Between its runs the memory of the temperature controller is kept, or cleared as a whole; it is clear
    at boot. -/
theorem C64_memory (c : Conf) (s s' : Sys) (e : Ev) (h : Running c s) (hs : step c s e = some s')
    (hn : ¬ RunsTemp s e s') :
    (s'.ct.pid.integr = s.ct.pid.integr ∧ s'.ct.pid.prevE = s.ct.pid.prevE) ∨
    (s'.ct.pid.integr = 0 ∧ s'.ct.pid.prevE = 0) := by
  have hi := Running.inv h
  rcases step_eff hi hs with ⟨-, hc⟩ | ⟨h1, h2, p, pl, hm⟩
  · exact hc.mem.imp And.left id
  · have hact : s.meas.active = 0 ∨ s.meas.active = 1 := by have := hi.meas.act; omega
    rcases hact with ha | ha
    · obtain ⟨-, f, hc⟩ := hm.curr ha
      rw [hc.ct]
      exact Or.inl ⟨rfl, rfl⟩
    · have := ((hm.temp ha).norun fun hh => hn ⟨⟨h1, h2, ha⟩, hh.2⟩).2
      rw [this]
      exact Or.inl ⟨rfl, rfl⟩

/-- the memory of the temperature controller between its runs -/
theorem clears_of_inv {c : Conf} {s s' : Sys} {e : Ev} (hi : Inv c s) (hi' : possible s e = true → Inv c s')
    (hs : step c s e = some s') (hn : ¬ RunsTemp s e s') :
    (s'.ct.enabled ≠ s.ct.enabled ∨ s'.ct.boost ≠ s.ct.boost →
      s'.ct.pid.integr = 0 ∧ s'.ct.pid.prevE = 0) ∧
    (s.ct.enabled = true → s'.ct.enabled = true → s'.ct.boost = s.ct.boost →
      s'.ct.pid.integr = s.ct.pid.integr ∧ s'.ct.pid.prevE = s.ct.pid.prevE) := by
  rcases step_eff hi hs with ⟨hne, hc⟩ | ⟨h1, h2, p, pl, hm⟩
  · refine ⟨fun hh => ?_, fun h1 h2 h3 => ?_⟩
    · rcases hc.mem with ⟨-, q1, q2⟩ | hz
      · rcases hh with hh | hh
        · exact absurd q1 hh
        · exact absurd q2 hh
      · exact hz
    · have hk : KeepsMem s s := ⟨rfl, rfl, rfl, h1, by have := hi.en; rw [h1] at this; simpa using this.symm⟩
      cases e with
      | tick => cases hs; exact ⟨rfl, rfl⟩
      | adc raw => cases hs; exact ⟨rfl, rfl⟩
      | eeIsr =>
        obtain ⟨set, -, hs⟩ := Option.bind_eq_some_iff.mp hs
        cases hs
        exact ⟨rfl, rfl⟩
      | eeDone => cases hs; exact ⟨rfl, rfl⟩
      | measureWork =>
        rcases measureWork_eff hi hs with ⟨-, rfl⟩ | ⟨hav, -⟩
        · exact ⟨rfl, rfl⟩
        · exact absurd ⟨rfl, hav⟩ hne
      | menuWork => exact ⟨(hk.menuWork hi _ hs).integr, (hk.menuWork hi _ hs).prevE⟩
      | displayWork =>
        obtain ⟨pd, -, hs⟩ := Option.bind_eq_some_iff.mp hs
        cases hs
        exact ⟨rfl, rfl⟩
      | buttonsWork pinb =>
        rcases KeepsMem.buttonsWork hi hk pinb _ hs with h' | h' | h'
        · exact ⟨h'.integr, h'.prevE⟩
        · exact absurd h3 h'
        · have := (hi' rfl).en
          rw [h2, h'] at this
          cases this
      | settingsWork => cases hs; exact ⟨rfl, rfl⟩
  · have hact : s.meas.active = 0 ∨ s.meas.active = 1 := by have := hi.meas.act; omega
    rcases hact with ha | ha
    · obtain ⟨-, f, hc⟩ := hm.curr ha
      rw [hc.ct]
      exact ⟨fun hh => by rcases hh with hh | hh <;> exact absurd rfl hh, fun _ _ _ => ⟨rfl, rfl⟩⟩
    · have ht := hm.temp ha
      have := (ht.norun fun hh => hn ⟨⟨h1, h2, ha⟩, hh.2⟩).2
      rw [this]
      exact ⟨fun hh => by
        rcases hh with hh | hh
        · exact absurd ht.enabled hh
        · exact absurd ht.boost hh, fun _ _ _ => ⟨rfl, rfl⟩⟩

/-- Between its runs the memory of the temperature controller is cleared exactly when the controller is
    switched on or off or its boost mode changes: such a switch clears it, and while the controller stays
    on in the same mode it is kept.  A new set point, the idle mode, a preset, a time-out or an emergency
    do not clear it.  (While the controller is off the memory does not matter: switching on clears it.) -/
theorem C64_clears (c : Conf) (s s' : Sys) (e : Ev) (h : Running c s) (hs : step c s e = some s')
    (hn : ¬ RunsTemp s e s') :
    (s'.ct.enabled ≠ s.ct.enabled ∨ s'.ct.boost ≠ s.ct.boost →
      s'.ct.pid.integr = 0 ∧ s'.ct.pid.prevE = 0) ∧
    (s.ct.enabled = true → s'.ct.enabled = true → s'.ct.boost = s.ct.boost →
      s'.ct.pid.integr = s.ct.pid.integr ∧ s'.ct.pid.prevE = s.ct.pid.prevE) :=
  clears_of_inv (Running.inv h) (fun hp => Running.inv (h.step hp hs)) hs hn

theorem C64_boot (c : Conf) (ee : Nat → Nat) (pinb : BitVec 8) (s : Sys) (hv : ValidEeprom c ee)
    (e : boot c ee pinb = some s) : s.ct.pid.integr = 0 ∧ s.ct.pid.prevE = 0 := by
  obtain ⟨-, st, -, b, t, hb, -, rfl⟩ := (boot_ok hv).elim e
  exact hb.mem

/-! ### C65: the current controller -/

/-- Every run of the current controller applies the PID law with the fixed factors P = 1.8 (115/64),
    I = 2, D = 0 to the difference between the current demanded and the selected feedback, with the time
    since its previous run as time step; the integral is kept between -0.5 A and 0.5 A and the output
    between 0 A and 5 A; the output, limited to 2 A while the restriction is in force, is programmed. -/
theorem C65_law (c : Conf) (s s' : Sys) (T a b : Nat) (h : Clocked c s T a b)
    (hs : step c s .measureWork = some s') (hrun : RunsCurr s .measureWork s')
    (hT : b + 8 ≤ T) (hT' : T ≤ b + 32767) :
    ∃ r dt y, Selects s.cc.rState s.cc.model s.cc.prevY s'.cc.feedback r s'.cc.rState s'.cc.model ∧
      TimeStep (T - b) dt ∧
      PidLaw 115 128 0 128 (-5 * 64) (5 * 64) 0 (5 * 640) dt (sat (s.cc.pid.setpoint - r))
        s.cc.pid.integr s.cc.pid.prevE s'.cc.pid.integr s'.cc.pid.prevE y ∧
      s'.cc.prevY = (if s.cc.restricted = true then min y (2 * 640) else y) ∧
      HeaterAt s'.ocr s'.cc.prevY := by
  obtain ⟨i1, i2, -, i4, -, i6⟩ := clocked_inv h
  have hi := Running.inv i1
  have hi' := Running.inv (i1.step (e := .measureWork) rfl hs)
  obtain ⟨⟨-, hav, hac⟩, hem⟩ := hrun
  rcases measureWork_eff hi hs with ⟨h, -⟩ | ⟨-, p, pl, hm⟩
  · rw [hav] at h; cases h
  obtain ⟨hp, f, hf⟩ := hm.curr hac
  have hpl : pl ≠ .timeout := by
    rintro rfl
    have := hf.flags
    rw [hem] at this
    exact absurd this (by show (0 : BitVec 8) ≠ s.cc.emerg ||| 1#8; generalize s.cc.emerg = x; revert x; decide)
  obtain ⟨-, dt, r, y, h1, h2, h3, h4, h5⟩ := hf.run hpl hem
  have h1 : elapsedDt s.now s.cc.timer = some dt := h1
  have h3 : pidRun s.cc.pid dt r = some (s'.cc.pid, y) := h3
  have h4 : s'.cc.prevY = if s.cc.restricted = true ∧ y > 1280 then 1280 else y := h4
  have hx : 0 ≤ s'.cc.feedback ∧ s'.cc.feedback ≤ 3200 := by
    rw [hf.feedback]
    cases pl with
    | plausible => exact hp
    | notPlausible => exact hi.mcurr
    | timeout => exact absurd rfl hpl
  obtain ⟨dt', h6, h7⟩ := elapsedDt_eq b T i6 hT'
  rw [i2, i4, h6] at h1
  cases h1
  obtain ⟨q1, q2, q3, q4⟩ := hi.cc.lim
  have hk : s.cc.pid.k = ⟨115, 128, 0, 128⟩ := hi.cc.k
  obtain ⟨hl, -, -⟩ := C23_law _ _ _ _ _ (timeStep_ne h7 (by omega)) (by rw [hk]; decide)
    (by rw [q1, q2]; decide) (by rw [q3, q4]; decide) h3
  rw [q1, q2, q3, q4, hk] at hl
  refine ⟨r, dt, y, select_spec (cc := s.cc) hi.cc hx h2, h7, hl, ?_, heaterAt_duty hi'.cc.prevY h5⟩
  rw [h4]
  split <;> split <;> simp_all <;> omega

/-- the memory of the current controller between its runs -/
theorem keeps_of_inv {c : Conf} {s s' : Sys} {e : Ev} (hi : Inv c s) (hi' : possible s e = true → Inv c s')
    (hs : step c s e = some s') (hn : ¬ RunsCurr s e s') :
    s'.cc.pid.integr = s.cc.pid.integr ∧ s'.cc.pid.prevE = s.cc.pid.prevE ∧
      (s'.ocr = s.ocr ∨ HeaterOff s'.ocr) := by
  rcases step_eff hi hs with ⟨-, hc⟩ | ⟨h1, h2, p, pl, hm⟩
  · have hp : (stripSp s'.cc).pid = (stripSp s.cc).pid := by rw [hc.cc]
    exact ⟨(congrArg Pid.integr hp :), (congrArg Pid.prevE hp :), Or.inl hc.ocr⟩
  · have hact : s.meas.active = 0 ∨ s.meas.active = 1 := by have := hi.meas.act; omega
    rcases hact with ha | ha
    · obtain ⟨-, f, hc⟩ := hm.curr ha
      have hno : pl = .timeout ∨ s'.cc.emerg ≠ 0 := by
        by_cases hx : pl = .timeout
        · exact Or.inl hx
        · exact Or.inr fun h0 => hn ⟨⟨h1, h2, ha⟩, h0⟩
      obtain ⟨-, k, -⟩ := hc.norun hno
      refine ⟨by rw [k], by rw [k], Or.inr ?_⟩
      refine (hi' (by rw [h1]; rfl)).cc.off ?_
      rcases hno with rfl | hne
      · rw [hc.flags]
        show s.cc.emerg ||| 1#8 ≠ 0
        generalize s.cc.emerg = x
        revert x
        decide
      · exact hne
    · obtain ⟨w, hw⟩ := (hm.temp ha).cc
      rw [hw]
      exact ⟨rfl, rfl, (hm.temp ha).ocr⟩

/-- Between its runs the memory of the current controller is kept, and the heater output is kept or
    switched off; the memory is clear at boot. -/
theorem C65_memory (c : Conf) (s s' : Sys) (e : Ev) (h : Running c s) (hs : step c s e = some s')
    (hn : ¬ RunsCurr s e s') :
    s'.cc.pid.integr = s.cc.pid.integr ∧ s'.cc.pid.prevE = s.cc.pid.prevE ∧
      (s'.ocr = s.ocr ∨ HeaterOff s'.ocr) :=
  keeps_of_inv (Running.inv h) (fun hp => Running.inv (h.step hp hs)) hs hn

theorem C65_boot (c : Conf) (ee : Nat → Nat) (pinb : BitVec 8) (s : Sys) (hv : ValidEeprom c ee)
    (e : boot c ee pinb = some s) : s.cc.pid.integr = 0 ∧ s.cc.pid.prevE = 0 ∧ HeaterOff s.ocr := by
  obtain ⟨-, st, -, b, t, hb, -, rfl⟩ := (boot_ok hv).elim e
  refine ⟨?_, ?_, hb.ocr⟩
  · show b.cc.pid.integr = 0
    rw [hb.cc]
    rfl
  · show b.cc.pid.prevE = 0
    rw [hb.cc]
    rfl

set_option maxRecDepth 100000 in
/-- the first run of each controller, 50 ms and 105 ms after boot -/
example : (∃ (s s' : Sys) (b : Nat), Clocked .m88p s 50 0 b ∧ step .m88p s .measureWork = some s' ∧
      RunsTemp s .measureWork s' ∧ s'.ct.pid.integr ≠ 0 ∧ s'.cc.pid.setpoint ≠ 0) ∧
    (∃ (s s' : Sys) (a : Nat), Clocked .m88p s 105 a 0 ∧ step .m88p s .measureWork = some s' ∧
      RunsCurr s .measureWork s' ∧ s'.cc.prevY ≠ 0 ∧ s'.cc.pid.integr ≠ 0) := by
  constructor
  · obtain ⟨b, s, eb, es, hP⟩ := demoPaused_any (c := .m88p) (pinb := 0xFF) (l := [(50, [.adc 280])]) (P := fun s =>
        s.meas.resultAvail && s.meas.active == 1 && s.ct.enabled && decide (s.ct.dtTimer = 0) &&
        (step .m88p s .measureWork).any fun (s' : Sys) => !s'.ct.emergency &&
          decide (s'.ct.pid.integr ≠ 0 ∧ s'.cc.pid.setpoint ≠ 0))
      validEeprom_m88p (by decide)
    obtain ⟨a, b', hc⟩ := clocked_run (Clocked.boot validEeprom_m88p eb) es
    rw [show 0 + (pausedEvs [(50, [Ev.adc 280])]).count .tick = 50 by decide] at hc
    simp only [Bool.and_eq_true, beq_iff_eq, decide_eq_true_eq] at hP
    obtain ⟨⟨⟨⟨p1, p2⟩, p3⟩, p4⟩, p5⟩ := hP
    match e : step .m88p s .measureWork with
    | none => rw [e] at p5; cases p5
    | some s' =>
      rw [e] at p5
      simp only [Option.any_some, Bool.not_eq_true', Bool.and_eq_true, decide_eq_true_eq] at p5
      obtain ⟨-, -, i3, -, i5, -⟩ := clocked_inv hc
      have ha : a = 0 := by rw [p4] at i3; unfold nowAt at i3; omega
      subst ha
      exact ⟨s, s', b', hc, e, ⟨⟨rfl, p1, p2⟩, p3, p5.1⟩, p5.2⟩
  · obtain ⟨b, s, eb, es, hP⟩ := demoPaused_any (c := .m88p) (pinb := 0xFF)
      (l := [(50, [.adc 280, .measureWork]), (55, [.adc 0])]) (P := fun s =>
        s.meas.resultAvail && s.meas.active == 0 && decide (s.cc.timer = 0) &&
        (step .m88p s .measureWork).any fun (s' : Sys) => s'.cc.emerg == 0#8 &&
          decide (s'.cc.prevY ≠ 0 ∧ s'.cc.pid.integr ≠ 0))
      validEeprom_m88p (by decide)
    obtain ⟨a, b', hc⟩ := clocked_run (Clocked.boot validEeprom_m88p eb) es
    rw [show 0 + (pausedEvs [(50, [Ev.adc 280, .measureWork]), (55, [.adc 0])]).count .tick = 105 by decide] at hc
    simp only [Bool.and_eq_true, beq_iff_eq, decide_eq_true_eq] at hP
    obtain ⟨⟨⟨p1, p2⟩, p4⟩, p5⟩ := hP
    match e : step .m88p s .measureWork with
    | none => rw [e] at p5; cases p5
    | some s' =>
      rw [e] at p5
      simp only [Option.any_some, beq_iff_eq, Bool.and_eq_true, decide_eq_true_eq] at p5
      obtain ⟨-, -, -, i3, -, i5⟩ := clocked_inv hc
      have ha : b' = 0 := by rw [p4] at i3; unfold nowAt at i3; omega
      subst ha
      exact ⟨s, s', a, hc, e, ⟨⟨rfl, p1, p2⟩, p5.1⟩, p5.2⟩

set_option maxRecDepth 100000 in
/-- a step which is no run of a controller: the first tick -/
example : ∃ s s' : Sys, Running .m88p s ∧ step .m88p s .tick = some s' ∧ ¬ RunsTemp s .tick s' ∧
    ¬ RunsCurr s .tick s' := by
  obtain ⟨b, s, eb, es, hP⟩ := demoPaused_any (c := .m88p) (pinb := 0xFF) (l := []) (P := fun s =>
      (step .m88p s .tick).isSome) validEeprom_m88p (by decide)
  obtain ⟨a, b', hc⟩ := clocked_run (Clocked.boot validEeprom_m88p eb) es
  obtain ⟨s', e⟩ := Option.isSome_iff_exists.mp hP
  exact ⟨s, s', (clocked_inv hc).1, e, fun h => (by cases h.1.1), fun h => (by cases h.1.1)⟩

/-- a release of a button after the controller has run once: the memory was not clear, and `P` holds for
    the states before and after the release -/
private theorem release_any {l : List (Nat × List Ev)} {P : Sys → Sys → Bool}
    (h : (demoPaused .m88p 0xFF ((50, [.adc 280, .measureWork]) :: l)).any (fun s =>
      decide (s.ct.pid.integr ≠ 0) && s.ct.enabled && (step .m88p s (.buttonsWork 0xFF)).any (P s)) = true) :
    ∃ s s' : Sys, Running .m88p s ∧ step .m88p s (.buttonsWork 0xFF) = some s' ∧
      ¬ RunsTemp s (.buttonsWork 0xFF) s' ∧ s.ct.pid.integr ≠ 0 ∧ s.ct.enabled = true ∧ P s s' = true := by
  obtain ⟨b, s, eb, es, hP⟩ := demoPaused_any validEeprom_m88p h
  obtain ⟨a, b', hc⟩ := clocked_run (Clocked.boot validEeprom_m88p eb) es
  simp only [Bool.and_eq_true, decide_eq_true_eq] at hP
  obtain ⟨⟨p1, p2⟩, p3⟩ := hP
  match e : step .m88p s (.buttonsWork 0xFF) with
  | none => rw [e] at p3; cases p3
  | some s' =>
    rw [e] at p3
    exact ⟨s, s', (clocked_inv hc).1, e, fun h => (by cases h.1.1), p1, p2, p3⟩

/-- `C64_clears`: PLUS is released in the main screen and the screen of the presets comes up, the memory
    is kept; the switch of the handle is released, which changes the boost mode; SET is released in the
    screen of the idle temperature, which switches the controller off. -/
example :
    (∃ s s' : Sys, Running .m88p s ∧ step .m88p s (.buttonsWork 0xFF) = some s' ∧
      ¬ RunsTemp s (.buttonsWork 0xFF) s' ∧ s.ct.pid.integr ≠ 0 ∧ s.ct.enabled = true ∧
      (s'.ct.enabled && decide (s'.ct.boost = s.ct.boost) && decide (s'.menu.state ≠ s.menu.state)) = true) ∧
    (∃ s s' : Sys, Running .m88p s ∧ step .m88p s (.buttonsWork 0xFF) = some s' ∧
      ¬ RunsTemp s (.buttonsWork 0xFF) s' ∧ s.ct.pid.integr ≠ 0 ∧ s.ct.enabled = true ∧
      decide (s'.ct.boost ≠ s.ct.boost) = true) ∧
    (∃ s s' : Sys, Running .m88p s ∧ step .m88p s (.buttonsWork 0xFF) = some s' ∧
      ¬ RunsTemp s (.buttonsWork 0xFF) s' ∧ s.ct.pid.integr ≠ 0 ∧ s.ct.enabled = true ∧
      (!s'.ct.enabled) = true) :=
  ⟨release_any (l := [(10, [.buttonsWork 0xEF]), (10, [])]) (P := fun s s' =>
      s'.ct.enabled && decide (s'.ct.boost = s.ct.boost) && decide (s'.menu.state ≠ s.menu.state)) (by decide),
    release_any (l := [(10, [.buttonsWork 0xFE]), (10, [])]) (P := fun s s' =>
      decide (s'.ct.boost ≠ s.ct.boost)) (by decide),
    release_any (l := [(10, [.buttonsWork 0xFB]), (10, [.buttonsWork 0xFF]), (10, [.buttonsWork 0xFB]), (10, [])])
      (P := fun _ s' => !s'.ct.enabled) (by decide)⟩

end Verif.Props
