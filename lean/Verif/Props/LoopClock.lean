import Verif.Proofs.LoopClock
/-
C78: the time step of the controllers in the main loop.
-/
namespace Verif.Props
open Spec

variable {v : Speed} {c : Conf}

/-- without an evaluation of the current, the current controller is not run -/
theorem clk_stretch {x y : Loop} {a b : Nat} (h : LoopClocked v c x a b)
    (hs : Stretch v c (EvaluatesCh 0) x y) : ∃ a', LoopClocked v c y a' b := by
  induction hs with
  | start => exact ⟨a, h⟩
  | @step y e z _ hs ht hn ih =>
    obtain ⟨a', ih⟩ := ih
    by_cases hh : ∃ f, e = some f ∧ (RunsTemp y.s f z.s ∨ z.s.ct.enabled ≠ y.s.ct.enabled)
    · obtain ⟨f, rfl, hr⟩ := hh
      exact ⟨_, ih.temp hs ht hr⟩
    · refine ⟨a', ih.other hs ht fun f hf => ⟨?_, fun hr => hh ⟨f, hf, Or.inl hr⟩, fun hr => hn ?_⟩⟩
      · by_contra hne
        exact hh ⟨f, hf, Or.inr hne⟩
      · obtain ⟨⟨rfl, h1, h2⟩, -⟩ := hr
        exact ⟨hf, h1, h2⟩

/-! ### C78 -/

/-- Every run of the temperature controller with which it does not come back from a lost sensor: the previous run (or,
    if later, the moment it was switched on) is less than an evaluation period ago, and the time step is the time since
    then, to the nearest 1/64 s; in particular it is not negative. -/
theorem C78_temperature (v : Speed) (c : Conf) (x y : Loop) (a b : Nat) (hv : v.Sane) (h : LoopClocked v c x a b)
    (hs : LoopStep c x (some .measureWork) y) (hr : RunsTemp x.s .measureWork y.s) (he : x.s.ct.emergency = false) :
    x.T < a + v.period ∧
    ∃ dt out, TimeStep (x.T - a) dt ∧ pidRun x.s.ct.pid dt y.s.ct.feedback = some (y.s.ct.pid, out) := by
  obtain ⟨hl, hc⟩ := clk_sys h
  have h1 := clk_temp hv h hr.2.1 he
  have h2 := (hl.inv hv).lt_evalBy 1
  have hp := hv.1
  refine ⟨by omega, ?_⟩
  rcases hs.sys with ⟨h, -⟩ | ⟨g, hg, -, hf, -⟩
  · cases h
  cases hg
  exact (C56_partial c x.s y.s x.T a b hc hf).1 hr (by omega)

/-- Every run of the current controller such that it also ran (or the device was switched on) at the previous evaluation
    of the current: the same holds. -/
theorem C78_current (v : Speed) (c : Conf) (w x y : Loop) (a b : Nat) (hv : v.Sane) (h : LoopClocked v c w a b)
    (hb : w.T = b) (hw : Stretch v c (EvaluatesCh 0) w x) (hs : LoopStep c x (some .measureWork) y)
    (hr : RunsCurr x.s .measureWork y.s) :
    x.T < b + v.period ∧
    ∃ dt r out, TimeStep (x.T - b) dt ∧ pidRun x.s.cc.pid dt r = some (y.s.cc.pid, out) := by
  have h1 := C71_period v c 0 w x hv (by decide) (clk_sys h).1 hw
  obtain ⟨a', hx⟩ := clk_stretch h hw
  have hp := hv.1
  refine ⟨by omega, ?_⟩
  rcases hs.sys with ⟨h, -⟩ | ⟨g, hg, -, hf, -⟩
  · cases h
  cases hg
  exact (C56_partial c x.s y.s x.T a' b (clk_sys hx).2 hf).2 hr (by omega)

/-! ### concrete runs -/

private theorem clk_boot {pinb : BitVec 8} {x : Loop} (h : loopBoot .m88p pinb = some x) : LoopClocked v .m88p x 0 0 := by
  obtain ⟨s, hs, rfl⟩ := Option.map_eq_some_iff.mp h
  exact LoopClocked.boot validEeprom_m88p hs

private theorem call_step {x : Loop} {s' : Sys} (hp : x.pc = .measure) (e : step c x.s .measureWork = some s') :
    LoopStep c x (some .measureWork) { x.after .measureWork s' with pc := x.pc.next } :=
  LoopStep.call (pinb := 0) (by rw [hp]; rfl) e

set_option maxRecDepth 100000 in
/-- The second run of the temperature controller, at 750 ms, 500 ms after the first. -/
example : ∃ x y a b, LoopClocked .shipped .m88p x a b ∧ LoopStep .m88p x (some .measureWork) y ∧
    RunsTemp x.s .measureWork y.s ∧ x.s.ct.emergency = false ∧ x.T = 750 ∧ a = 250 := by
  have h : ((loopBoot .m88p 0xFF).bind fun x => loopCmds .shipped .m88p Never x
      (cycle 280 0 ++ samples 50 280 ++ [.pause 200, .reset])).any (fun x =>
        x.pc == .measure && x.T == 750 && x.s.meas.resultAvail && x.s.meas.active == 1 && x.s.ct.enabled &&
        !x.s.ct.emergency && decide (x.s.ct.dtTimer = 250) &&
        (step .m88p x.s .measureWork).any fun (s' : Sys) => !s'.ct.emergency) = true := by decide
  match e : (loopBoot .m88p 0xFF).bind fun x => loopCmds .shipped .m88p Never x
      (cycle 280 0 ++ samples 50 280 ++ [.pause 200, .reset]) with
  | none => rw [e] at h; cases h
  | some x =>
    rw [e] at h
    simp only [Option.any_some, Bool.and_eq_true, beq_iff_eq, decide_eq_true_eq, Bool.not_eq_true'] at h
    obtain ⟨⟨⟨⟨⟨⟨⟨p1, p2⟩, p3⟩, p4⟩, p5⟩, p6⟩, p7⟩, p8⟩ := h
    obtain ⟨b, hb, hx⟩ := Option.bind_eq_some_iff.mp e
    obtain ⟨a, b, hc⟩ := clk_exists (clk_boot hb) (loopCmds_stretch never_tick hx)
    match e' : step .m88p x.s .measureWork with
    | none => rw [e'] at p8; cases p8
    | some s' =>
      rw [e'] at p8
      simp only [Option.any_some, Bool.not_eq_true'] at p8
      obtain ⟨-, -, i3, -, i5, -⟩ := clocked_inv (clk_sys hc).2
      have ha : a = 250 := by rw [p7] at i3; unfold nowAt at i3; omega
      exact ⟨x, _, a, b, hc, call_step p1 e', ⟨⟨rfl, p3, p4⟩, p5, p8⟩, p6, p2, ha⟩

set_option maxRecDepth 100000 in
/-- The second run of the current controller, at 1000 ms, 500 ms after the first. -/
example : ∃ w x y a b, LoopClocked .shipped .m88p w a b ∧ w.T = b ∧ Stretch .shipped .m88p (EvaluatesCh 0) w x ∧
    LoopStep .m88p x (some .measureWork) y ∧ RunsCurr x.s .measureWork y.s ∧ x.T = 1000 ∧ b = 500 := by
  have h : ((loopBoot .m88p 0xFF).bind fun x => (loopCmds .shipped .m88p Never x (cycle 280 10)).bind fun w =>
      (loopCmds .shipped .m88p (EvaluatesCh 0) w
        (samples 50 280 ++ [.pause 200] ++ round 0xFF ++ samples 5 10 ++ [.pause 245, .reset])).map fun x => (w, x)).any
      (fun r => r.1.T == 500 && decide (r.1.s.cc.timer = 500) && r.2.pc == .measure && r.2.T == 1000 &&
        r.2.s.meas.resultAvail && r.2.s.meas.active == 0 &&
        (step .m88p r.2.s .measureWork).any fun (s' : Sys) => s'.cc.emerg == 0#8) = true := by decide
  match e : (loopBoot .m88p 0xFF).bind fun x => (loopCmds .shipped .m88p Never x (cycle 280 10)).bind fun w =>
      (loopCmds .shipped .m88p (EvaluatesCh 0) w
        (samples 50 280 ++ [.pause 200] ++ round 0xFF ++ samples 5 10 ++ [.pause 245, .reset])).map fun x => (w, x) with
  | none => rw [e] at h; cases h
  | some r =>
    rw [e] at h
    obtain ⟨x0, hb, e⟩ := Option.bind_eq_some_iff.mp e
    obtain ⟨w, hw, e⟩ := Option.bind_eq_some_iff.mp e
    obtain ⟨x, hx, rfl⟩ := Option.map_eq_some_iff.mp e
    simp only [Option.any_some, Bool.and_eq_true, beq_iff_eq, decide_eq_true_eq] at h
    obtain ⟨⟨⟨⟨⟨⟨p1, p2⟩, p3⟩, p4⟩, p5⟩, p6⟩, p7⟩ := h
    obtain ⟨a, b, hc⟩ := clk_exists (clk_boot hb) (loopCmds_stretch never_tick hw)
    match e' : step .m88p x.s .measureWork with
    | none => rw [e'] at p7; cases p7
    | some s' =>
      rw [e'] at p7
      simp only [Option.any_some, beq_iff_eq] at p7
      obtain ⟨-, -, -, i4, -, i6⟩ := clocked_inv (clk_sys hc).2
      have hb : b = 500 := by rw [p2] at i4; unfold nowAt at i4; omega
      exact ⟨w, x, _, a, b, hc, by omega, loopCmds_stretch (evaluates_tick 0) hx, call_step p3 e',
        ⟨⟨rfl, p5, p6⟩, p7⟩, p4, hb⟩

end Verif.Props
