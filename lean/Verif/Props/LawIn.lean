import Verif.Spec.ClockIn
import Verif.Spec.Pid
import Verif.Proofs.Once
import Verif.Props.LoopIn
import Verif.Props.Law
/-
C114: the control laws in the main loop, with interrupts inside the work functions.
-/
namespace Verif.Props
open Spec

variable {v : Speed} {c : Conf}

/-- Two evaluations of the temperature, or of the current: from the end of the first one to the beginning of the second
    one it takes at least 55 ms. -/
theorem C114_spacing (v : Speed) (c : Conf) (ch : Nat) (x y z z' : LoopI) (hv : v.SaneI) (hch : ch < 2)
    (h : LoopIRun v c x) (e e' : Option Ev) (h1 : LoopIStep c x e y) (ht : InTimeI v y) (h2 : EvaluatesI ch x e y)
    (hs : StretchI v c (fun _ _ _ => False) y z) (h3 : EvaluatesI ch z e' z') : y.T + 55 ≤ z.T := by
  obtain ⟨rfl, a1, a2⟩ := h2
  have key : LoopIRun v c z ∧ SpacedI ch y.T z := by
    clear h3
    induction hs with
    | start => exact ⟨h.step h1 ht, SpacedI.eval hv hch (h.inv hv) h1 ht a1 a2⟩
    | step _ hs ht _ ih => exact ⟨ih.1.step hs ht, ih.2.step hv hch ih.1 hs ht⟩
  obtain ⟨-, b1, b2⟩ := h3
  exact key.2.late hv hch key.1 b1 b2

/-- Every run of the temperature controller with which it does not come back from a lost sensor and which begins at least
    8 ms after the previous run (which it always does) or after the controller was switched on: it applies the PID law with
    the factors set for the boost mode, to the difference between the temperature wanted and the temperature measured,
    with a time from some moment of the previous run to some moment of this one as time step; the integral is kept
    between -30 C and 80 C and the output between 0 C and 480 C; the current demand is the current for the output, or
    0 A if the temperature is above 480 C. -/
theorem C114_temperature (v : Speed) (c : Conf) (x y : LoopI) (a b : During) (hv : v.SaneI) (h : LoopIClocked v c x a b)
    (hs : LoopIStep c x (some .measureWork) y) (ht : InTimeI v y) (hr : RunsTemp x.s .measureWork y.s)
    (he : x.s.ct.emergency = false) (hT : a.stop + 8 ≤ x.T) :
    ∃ w k ms dt out amps, WantedTemp x.s.set.cache x.s.ct.idle w ∧ x.s.set.cache.k[x.s.ct.boost]? = some k ∧
      Between a x.T y.T ms ∧ TimeStep ms dt ∧
      PidLaw k.kp k.ki k.kd k.decay (-30 * 64) (80 * 64) 0 (480 * 64) dt (w - y.s.ct.feedback)
        x.s.ct.pid.integr x.s.ct.pid.prevE y.s.ct.pid.integr y.s.ct.pid.prevE out ∧
      CurrentFor out amps ∧ y.s.cc.pid.setpoint = if y.s.ct.feedback > 480 * 64 then 0 else amps := by
  have hc := ClockI.of hv h
  have hl := hc.run.inv hv
  have hi := hl.inv
  have hi' := (hl.step hv hs ht).inv
  have h1 := hc.next hr.2.1 he
  have h2 := hl.lt_evalBy 1
  obtain ⟨-, hTT⟩ := hl.len hs ht
  have hW := hv.1
  have hp : v.period ≤ 29000 := hv.2
  obtain ⟨ha1, ha2, -⟩ := hc.temp
  cases hs with
  | ee he => rcases he with h | h <;> cases h
  | @call _ g s' pinb hD hcall hw =>
    obtain ⟨-, -, -, ⟨-, -, t, t', b1, b2, b3, -, b5⟩ | ⟨k, -⟩⟩ := workT_temp hl.now hw hr.1.2.1 hr.1.2.2
    · obtain ⟨dt, out, amps, e1, e2, e3, e4⟩ := b5 he
      simp only [] at hTT
      obtain ⟨ms, k1, k2⟩ := hc.temp.dt e1 b1 (Nat.le_trans b2 b3) (by omega)
      have hms : 8 ≤ ms := by have := k1.1; omega
      obtain ⟨q1, q2, q3, q4⟩ := hi.ct.lim
      have hd := hi.ct.range.decay
      obtain ⟨l, -, -⟩ := C23_law _ _ _ _ _ (timeStep_ne k2 hms) (by omega)
        (by rw [q1, q2]; decide) (by rw [q3, q4]; decide) e2
      obtain ⟨l1, l2, -⟩ := pidRun_limits e2 (by rw [q1, q2]; decide) (by rw [q3, q4]; decide)
      rw [q3] at l1
      rw [q4] at l2
      obtain ⟨a', e', ha, -⟩ := C41_map out ⟨l1, l2⟩
      rw [e3] at e'
      cases e'
      have hsp := hi.ct.range.sp
      have hfb : -1280 ≤ s'.ct.feedback ∧ s'.ct.feedback ≤ 32000 := hi'.ct.fb
      rw [q1, q2, q3, q4, sat_eq (by omega) (by omega)] at l
      exact ⟨_, _, ms, dt, out, amps, hi.ct.sp, hi.ct.k, k1, k2, l, ha, e4⟩
    · exact absurd hr.2 k

/-- the measured current of a run of the current controller -/
theorem curr_rangeI {x y : LoopI} (hv : v.SaneI) (hl : LoopIInv v c x) (hs : LoopIStep c x (some .measureWork) y)
    (ht : InTimeI v y) (hr : RunsCurr x.s .measureWork y.s) : 0 ≤ y.s.cc.feedback ∧ y.s.cc.feedback ≤ 3200 := by
  obtain ⟨_, t1, t1', p, pl, -, -, -, -, -, it, sb, -, hm, sb'⟩ := hs.evaluates hv hl ht hr.1.2.1
  obtain ⟨hpp, f, hf⟩ := hm.curr (sb.same.2.2.1.trans hr.1.2.2)
  have e1 : t1'.cc.feedback = y.s.cc.feedback := (congrArg (·.cc.feedback) sb'.rest :)
  have e2 : t1'.cc.emerg = y.s.cc.emerg := (congrArg (·.cc.emerg) sb'.rest :)
  rw [← e1, hf.feedback]
  cases pl with
  | plausible => exact hpp
  | notPlausible => exact it.mcurr
  | timeout =>
    have := hf.flags
    rw [e2, hr.2] at this
    exact absurd this (by show (0 : BitVec 8) ≠ t1.cc.emerg ||| 1#8; generalize t1.cc.emerg = x; revert x; decide)

/-- Every run of the current controller such that it also ran (or the device was switched on) at the previous evaluation
    of the current: it applies the PID law with the fixed factors P = 1.8 (115/64), I = 2, D = 0 to the difference
    between the current demanded and the selected feedback, with a time from some moment of the previous run to some
    moment of this one as time step; the integral is kept between -0.5 A and 0.5 A and the output between 0 A and 5 A;
    the output, limited to 2 A while the restriction is in force, is programmed. -/
theorem C114_current (v : Speed) (c : Conf) (w x y : LoopI) (a b : During) (hv : v.SaneI) (h : LoopIClocked v c w a b)
    (hb : w.T = b.stop) (hw : StretchI v c (EvaluatesI 0) w x) (hs : LoopIStep c x (some .measureWork) y)
    (ht : InTimeI v y) (hr : RunsCurr x.s .measureWork y.s) :
    ∃ r ms dt out, Selects x.s.cc.rState x.s.cc.model x.s.cc.prevY y.s.cc.feedback r y.s.cc.rState y.s.cc.model ∧
      Between b x.T y.T ms ∧ TimeStep ms dt ∧
      PidLaw 115 128 0 128 (-5 * 64) (5 * 64) 0 (5 * 640) dt (sat (x.s.cc.pid.setpoint - r))
        x.s.cc.pid.integr x.s.cc.pid.prevE y.s.cc.pid.integr y.s.cc.pid.prevE out ∧
      y.s.cc.prevY = (if x.s.cc.restricted = true then min out (2 * 640) else out) ∧
      HeaterAt y.s.ocr y.s.cc.prevY := by
  have h1 := C98_period v c 0 w x hv (by decide) (ClockI.of hv h).run hw
  obtain ⟨a', hx⟩ := h.stretch hw
  have hc := ClockI.of hv hx
  have hl := hc.run.inv hv
  have hi := hl.inv
  have hi' := (hl.step hv hs ht).inv
  have hsp := (SpacedI.curr hv hx).late hv (by decide) hc.run hr.1.2.1 hr.1.2.2
  obtain ⟨-, hT⟩ := hl.len hs ht
  have hW := hv.1
  have hp : v.period ≤ 29000 := hv.2
  obtain ⟨hb1, hb2, -⟩ := hc.curr
  have hfb := curr_rangeI hv hl hs ht hr
  cases hs with
  | ee he => rcases he with h | h <;> cases h
  | @call _ g s' pinb hD hcall hw =>
    obtain ⟨-, -, ⟨-, t, t', b1, b2, b3, -, dt, r, out, e1, e2, e3, e4, e5⟩ | ⟨k, -⟩⟩ :=
      workT_curr hi hl.now hw hr.1.2.1 hr.1.2.2
    · simp only [] at hT
      obtain ⟨ms, k1, k2⟩ := hc.curr.dt e1 b1 (Nat.le_trans b2 b3) (by omega)
      have hms : 8 ≤ ms := by have := k1.1; omega
      obtain ⟨q1, q2, q3, q4⟩ := hi.cc.lim
      have hk : x.s.cc.pid.k = ⟨115, 128, 0, 128⟩ := hi.cc.k
      obtain ⟨l, -, -⟩ := C23_law _ _ _ _ _ (timeStep_ne k2 hms) (by rw [hk]; decide)
        (by rw [q1, q2]; decide) (by rw [q3, q4]; decide) e2
      rw [q1, q2, q3, q4, hk] at l
      refine ⟨r, ms, dt, out, select_spec (cc := x.s.cc) hi.cc hfb e3, k1, k2, l, ?_, heaterAt_duty hi'.cc.prevY e5⟩
      show s'.cc.prevY = _
      rw [e4]
      split
      · split <;> omega
      · rfl
    · exact absurd hr.2 k

/-- A step which does not run the temperature controller: its memory is cleared if the step switches the controller on or
    off or changes the boost mode, and kept while the controller stays on in the same mode. -/
theorem C114_temp_memory (v : Speed) (c : Conf) (x y : LoopI) (e : Option Ev) (hv : v.SaneI) (h : LoopIRun v c x)
    (hs : LoopIStep c x e y) (ht : InTimeI v y) (hn : ∀ f, e = some f → ¬ RunsTemp x.s f y.s) :
    (y.s.ct.enabled ≠ x.s.ct.enabled ∨ y.s.ct.boost ≠ x.s.ct.boost →
      y.s.ct.pid.integr = 0 ∧ y.s.ct.pid.prevE = 0) ∧
    (x.s.ct.enabled = true → y.s.ct.enabled = true → y.s.ct.boost = x.s.ct.boost →
      y.s.ct.pid.integr = x.s.ct.pid.integr ∧ y.s.ct.pid.prevE = x.s.ct.pid.prevE) := by
  rcases hs.once hv (h.inv hv) ht with ⟨-, es⟩ | ⟨f, t, t', ef, it, it', r, et, r'⟩
  · rw [es]
    exact ⟨fun hh => by rcases hh with hh | hh <;> exact absurd rfl hh, fun _ _ _ => ⟨rfl, rfl⟩⟩
  · obtain ⟨a1, a2, -, -, -, a6, a7, a8, a9, -⟩ := r.same
    obtain ⟨-, -, -, -, -, b6, b7, b8, b9, -⟩ := r'.same
    have := clears_of_inv it (fun _ => it') et fun hr => hn f ef
      ⟨⟨hr.1.1, a1 ▸ hr.1.2.1, a2 ▸ hr.1.2.2⟩, a8 ▸ hr.2.1, b7 ▸ hr.2.2⟩
    rw [a6, a8, a9, b6, b8, b9] at this
    exact this

/-- A step which does not run the current controller keeps its memory, and keeps the heater output or switches it off. -/
theorem C114_curr_memory (v : Speed) (c : Conf) (x y : LoopI) (e : Option Ev) (hv : v.SaneI) (h : LoopIRun v c x)
    (hs : LoopIStep c x e y) (ht : InTimeI v y) (hn : ∀ f, e = some f → ¬ RunsCurr x.s f y.s) :
    y.s.cc.pid.integr = x.s.cc.pid.integr ∧ y.s.cc.pid.prevE = x.s.cc.pid.prevE ∧
      (y.s.ocr = x.s.ocr ∨ HeaterOff y.s.ocr) := by
  rcases hs.once hv (h.inv hv) ht with ⟨-, es⟩ | ⟨f, t, t', ef, it, it', r, et, r'⟩
  · rw [es]
    exact ⟨rfl, rfl, Or.inl rfl⟩
  · obtain ⟨a1, a2, a3, a4, -, -, -, -, -, a10⟩ := r.same
    obtain ⟨-, -, b3, b4, -, -, -, -, -, b10⟩ := r'.same
    have := keeps_of_inv it (fun _ => it') et fun hr => hn f ef ⟨⟨hr.1.1, a1 ▸ hr.1.2.1, a2 ▸ hr.1.2.2⟩, b3 ▸ hr.2⟩
    rw [a4, a10, b4, b10] at this
    exact this

/-! ### concrete runs -/

private def tempDemo : Option (LoopI × LoopI × LoopI × LoopI) :=
  twoCalls NeverI TempI (samplesI 50 280 ++ [.reset])
    ((roundI [] 0xFF).drop 2 ++ samplesI 5 10 ++ roundI [195] 0xFF ++ samplesI 50 280 ++ [.reset]) [100, 140] [100, 140]

set_option maxRecDepth 100000 in
/-- `C114_temperature`, `C114_spacing`: the second run of the temperature controller.  The first evaluation takes from
    50 ms to 290 ms, the second one from 540 ms to 780 ms. -/
example : ∃ w w' x y a b, LoopIRun .shipped .m88p w ∧ LoopIStep .m88p w (some .measureWork) w' ∧ InTimeI .shipped w' ∧
    EvaluatesI 1 w (some .measureWork) w' ∧ StretchI .shipped .m88p (fun _ _ _ => False) w' x ∧
    EvaluatesI 1 x (some .measureWork) y ∧ LoopIClocked .shipped .m88p x a b ∧ LoopIStep .m88p x (some .measureWork) y ∧
    InTimeI .shipped y ∧ RunsTemp x.s .measureWork y.s ∧ x.s.ct.emergency = false ∧ a.stop + 8 ≤ x.T ∧
    y.s.ct.pid.integr ≠ x.s.ct.pid.integr ∧ y.s.cc.pid.setpoint ≠ 0 := by
  have h : tempDemo.any (fun r => r.2.1.T == 290 && r.1.s.meas.resultAvail &&
        r.1.s.meas.active == 1 && r.1.s.ct.enabled && !r.2.1.s.ct.emergency && r.2.2.1.T == 540 &&
        r.2.2.1.s.meas.resultAvail && r.2.2.1.s.meas.active == 1 && r.2.2.1.s.ct.enabled && !r.2.2.1.s.ct.emergency &&
        !r.2.2.2.s.ct.emergency && decide (r.2.2.2.s.ct.pid.integr ≠ r.2.2.1.s.ct.pid.integr) &&
        decide (r.2.2.2.s.cc.pid.setpoint ≠ 0)) = true := by decide
  match e : tempDemo with
  | none => rw [e] at h; cases h
  | some (w, w', x, y) =>
    rw [e] at h
    simp only [Option.any_some, Bool.and_eq_true, beq_iff_eq, Bool.not_eq_true', decide_eq_true_eq] at h
    obtain ⟨⟨⟨⟨⟨⟨⟨⟨⟨⟨⟨⟨p2, p3⟩, p4⟩, p5⟩, p6⟩, p7⟩, p9⟩, p10⟩, p11⟩, p12⟩, p13⟩, p14⟩, p15⟩ := h
    obtain ⟨⟨a, b, k1⟩, k2, k3, k4, k5, k6⟩ := twoCalls_some e
    obtain ⟨b', k7⟩ := (k1.temp k2 k3 (Or.inl ⟨⟨rfl, p3, p4⟩, p5, p6⟩)).stretchT k4
    exact ⟨w, w', x, y, _, b', (ClockI.of (by unfold Speed.SaneI; decide) k1).run, k2, k3, ⟨rfl, p3, p4⟩,
      k4.mono fun _ _ _ h => h.elim, ⟨rfl, p9, p10⟩, k7, k5, k6, ⟨⟨rfl, p9, p10⟩, p11, p13⟩, p12,
      by show w'.T + 8 ≤ x.T; omega, p14, p15⟩

private def currDemo : Option (LoopI × LoopI × LoopI × LoopI) :=
  twoCalls NeverI (EvaluatesI 0) (samplesI 50 280 ++ roundI [100, 140] 0xFF ++ samplesI 5 10 ++ [.reset])
    ((roundI [] 0xFF).drop 2 ++ samplesI 50 280 ++ roundI [100, 140] 0xFF ++ samplesI 5 10 ++ [.reset]) [95, 100] [95, 100]

set_option maxRecDepth 100000 in
/-- `C114_current`: the second run of the current controller.  The first evaluation takes from 295 ms to 490 ms, the
    second one from 785 ms to 980 ms. -/
example : ∃ w x y a b, LoopIClocked .shipped .m88p w a b ∧ w.T = b.stop ∧ StretchI .shipped .m88p (EvaluatesI 0) w x ∧
    LoopIStep .m88p x (some .measureWork) y ∧ InTimeI .shipped y ∧ RunsCurr x.s .measureWork y.s ∧ b = ⟨295, 490⟩ ∧
    y.s.cc.prevY ≠ 0 ∧ y.s.cc.pid.prevE ≠ x.s.cc.pid.prevE := by
  have h : currDemo.any (fun r => r.1.T == 295 && r.2.1.T == 490 && r.1.s.meas.resultAvail &&
        r.1.s.meas.active == 0 && r.2.1.s.cc.emerg == 0#8 &&
        r.2.2.1.s.meas.resultAvail && r.2.2.1.s.meas.active == 0 && r.2.2.2.s.cc.emerg == 0#8 &&
        decide (r.2.2.2.s.cc.prevY ≠ 0) && decide (r.2.2.2.s.cc.pid.prevE ≠ r.2.2.1.s.cc.pid.prevE)) = true := by decide
  match e : currDemo with
  | none => rw [e] at h; cases h
  | some (w, w', x, y) =>
    rw [e] at h
    simp only [Option.any_some, Bool.and_eq_true, beq_iff_eq, decide_eq_true_eq] at h
    obtain ⟨⟨⟨⟨⟨⟨⟨⟨⟨p1, p2⟩, p3⟩, p4⟩, p5⟩, p8⟩, p9⟩, p10⟩, p11⟩, p12⟩ := h
    obtain ⟨⟨a, b, k1⟩, k2, k3, k4, k5, k6⟩ := twoCalls_some e
    exact ⟨w', x, y, a, _, k1.curr k2 k3 ⟨⟨rfl, p3, p4⟩, p5⟩, rfl, k4, k5, k6, ⟨⟨rfl, p8, p9⟩, p10⟩, by rw [p1, p2],
      p11, p12⟩

/-- a step after some others -/
private def after (l : List CmdI) (a : CmdI) : Option (LoopI × LoopI) :=
  (loopBootI .m88p 0xFF).bind fun b => (loopCmdsI .shipped .m88p NeverI b l).bind fun x =>
    (loopCmdI .shipped .m88p NeverI x a).map fun y => (x, y)

private theorem after_some {l : List CmdI} {a : CmdI} {P : LoopI × LoopI → Bool} (h : (after l a).any P = true) :
    ∃ x y, LoopIRun .shipped .m88p x ∧ LoopIStep .m88p x (evOfI a) y ∧ InTimeI .shipped y ∧ P (x, y) = true := by
  match e : after l a with
  | none => rw [e] at h; cases h
  | some (x, y) =>
    rw [e] at h
    obtain ⟨b, hb, e⟩ := Option.bind_eq_some_iff.mp e
    obtain ⟨x', hx, e⟩ := Option.bind_eq_some_iff.mp e
    obtain ⟨y', hy, e⟩ := Option.map_eq_some_iff.mp e
    cases e
    obtain ⟨k1, k2⟩ := cmdI_ev hy
    exact ⟨x, y, (loopCmdsI_stretch hx).run (loopBootI_run hb validEeprom_m88p), k1, k2, h⟩

set_option maxRecDepth 100000 in
/-- `C114_temp_memory`: the switch of the handle is released after the first run, which changes the boost mode, with two
    ticks inside `buttons_work`. -/
example : ∃ x y, LoopIRun .shipped .m88p x ∧ LoopIStep .m88p x (some (.buttonsWork 0xFF)) y ∧ InTimeI .shipped y ∧
    x.s.ct.pid.integr ≠ 0 ∧ y.s.ct.boost ≠ x.s.ct.boost := by
  obtain ⟨x, y, h1, h2, h3, h4⟩ := after_some (a := .call (.buttonsWork 0xFF) [2])
    (l := samplesI 50 280 ++ roundI [100, 140] 0xFE ++ samplesI 5 10 ++ List.replicate 5 .tick ++ (roundI [30] 0xFF).take 4)
    (P := fun r => decide (r.1.s.ct.pid.integr ≠ 0) && decide (r.2.s.ct.boost ≠ r.1.s.ct.boost)) (by decide)
  simp only [Bool.and_eq_true, decide_eq_true_eq] at h4
  exact ⟨x, y, h1, h2, h3, h4⟩

set_option maxRecDepth 100000 in
/-- `C114_temp_memory`, `C114_curr_memory`: a call of `display_work` after the first runs, with ticks inside; nothing is
    switched. -/
example : ∃ x y, LoopIRun .shipped .m88p x ∧ LoopIStep .m88p x (some .displayWork) y ∧ InTimeI .shipped y ∧
    x.s.ct.pid.integr ≠ 0 ∧ x.s.ct.enabled = true ∧ y.s.ct.enabled = true ∧ y.s.ct.boost = x.s.ct.boost ∧
    x.s.cc.pid.integr ≠ 0 ∧ x.s.ocr ≠ 0x1FFF ∧ y.T = x.T + 20 := by
  obtain ⟨x, y, h1, h2, h3, h4⟩ := after_some (a := .call .displayWork [20])
    (l := samplesI 50 280 ++ roundI [100, 140] 0xFF ++ samplesI 5 10 ++ (roundI [30] 0xFF).take 3)
    (P := fun r => decide (r.1.s.ct.pid.integr ≠ 0) && r.1.s.ct.enabled && r.2.s.ct.enabled &&
      decide (r.2.s.ct.boost = r.1.s.ct.boost) && decide (r.1.s.cc.pid.integr ≠ 0) && decide (r.1.s.ocr ≠ 0x1FFF) &&
      decide (r.2.T = r.1.T + 20)) (by decide)
  simp only [Bool.and_eq_true, decide_eq_true_eq] at h4
  obtain ⟨⟨⟨⟨⟨⟨p1, p2⟩, p3⟩, p4⟩, p5⟩, p6⟩, p7⟩ := h4
  exact ⟨x, y, h1, h2, h3, p1, p2, p3, p4, p5, p6, p7⟩

end Verif.Props
