import Verif.Proofs.ClockInLoop
import Verif.Props.LoopIn
/-
C113: the time step of the controllers in the main loop, with interrupts inside the work functions.
-/
namespace Verif.Props
open Spec

variable {v : Speed} {c : Conf}

/-- Every run of the temperature controller with which it does not come back from a lost sensor: the step of the previous
    run (or, if later, of the moment it was switched on) ended less than an evaluation period ago, and the time step is a
    time from some moment of that step to some moment of this one, to the nearest 1/64 s; in particular it is not
    negative. -/
theorem C113_temperature (v : Speed) (c : Conf) (x y : LoopI) (a b : During) (hv : v.SaneI) (h : LoopIClocked v c x a b)
    (hs : LoopIStep c x (some .measureWork) y) (ht : InTimeI v y) (hr : RunsTemp x.s .measureWork y.s)
    (he : x.s.ct.emergency = false) :
    x.T < a.stop + v.period ∧ ∃ ms dt out, Between a x.T y.T ms ∧ TimeStep ms dt ∧
      pidRun x.s.ct.pid dt y.s.ct.feedback = some (y.s.ct.pid, out) := by
  have hc := ClockI.of hv h
  have hi := hc.run.inv hv
  have h1 := hc.next hr.2.1 he
  have h2 := hi.lt_evalBy 1
  obtain ⟨-, hT⟩ := hi.len hs ht
  obtain ⟨hW, hp⟩ := hv
  obtain ⟨ha1, ha2, -⟩ := hc.temp
  refine ⟨by omega, ?_⟩
  cases hs with
  | ee he => rcases he with h | h <;> cases h
  | call _ _ hw =>
    obtain ⟨-, -, -, ⟨-, -, t, t', b1, b2, b3, -, b5⟩ | ⟨k, -⟩⟩ := workT_temp hi.now hw hr.1.2.1 hr.1.2.2
    · obtain ⟨dt, out, -, e1, e2, -⟩ := b5 he
      simp only [] at hT
      obtain ⟨ms, k1, k2⟩ := hc.temp.dt e1 b1 (Nat.le_trans b2 b3) (by omega)
      exact ⟨ms, dt, out, k1, k2, e2⟩
    · exact absurd hr.2 k

/-- Every run of the current controller such that it also ran (or the device was switched on) at the previous evaluation
    of the current: the same holds. -/
theorem C113_current (v : Speed) (c : Conf) (w x y : LoopI) (a b : During) (hv : v.SaneI) (h : LoopIClocked v c w a b)
    (hb : w.T = b.stop) (hw : StretchI v c (EvaluatesI 0) w x) (hs : LoopIStep c x (some .measureWork) y)
    (ht : InTimeI v y) (hr : RunsCurr x.s .measureWork y.s) :
    x.T < b.stop + v.period ∧ ∃ ms dt r out, Between b x.T y.T ms ∧ TimeStep ms dt ∧
      pidRun x.s.cc.pid dt r = some (y.s.cc.pid, out) := by
  have h1 := C98_period v c 0 w x hv (by decide) (ClockI.of hv h).run hw
  obtain ⟨a', hx⟩ := h.stretch hw
  have hc := ClockI.of hv hx
  have hi := hc.run.inv hv
  obtain ⟨-, hT⟩ := hi.len hs ht
  obtain ⟨hW, hp⟩ := hv
  obtain ⟨hb1, hb2, -⟩ := hc.curr
  refine ⟨by omega, ?_⟩
  cases hs with
  | ee he => rcases he with h | h <;> cases h
  | call _ _ hw =>
    obtain ⟨-, -, ⟨-, t, t', b1, b2, b3, -, dt, r, out, e1, e2, -⟩ | ⟨k, -⟩⟩ := workT_curr hi.inv hi.now hw hr.1.2.1 hr.1.2.2
    · simp only [] at hT
      obtain ⟨ms, k1, k2⟩ := hc.curr.dt e1 b1 (Nat.le_trans b2 b3) (by omega)
      exact ⟨ms, dt, r, out, k1, k2, e2⟩
    · exact absurd hr.2 k

/-! ### concrete runs -/

set_option maxRecDepth 100000 in
/-- The second run of the temperature controller.  The first evaluation takes from 50 ms to 290 ms, the second one from
    540 ms to 780 ms; each of them is interrupted for 140 ms between the two times the controller looks at the clock. -/
example : ∃ x y a b, LoopIClocked .shipped .m88p x a b ∧ LoopIStep .m88p x (some .measureWork) y ∧ InTimeI .shipped y ∧
    RunsTemp x.s .measureWork y.s ∧ x.s.ct.emergency = false ∧ x.T = 540 ∧ y.T = 780 ∧ a = ⟨50, 290⟩ := by
  have h : (twoCalls NeverI TempI (samplesI 50 280 ++ [.reset])
      ((roundI [] 0xFF).drop 2 ++ samplesI 5 10 ++ roundI [195] 0xFF ++ samplesI 50 280 ++ [.reset])
      [100, 140] [100, 140]).any (fun r => r.1.T == 50 && r.2.1.T == 290 && r.1.s.meas.resultAvail &&
        r.1.s.meas.active == 1 && r.1.s.ct.enabled && !r.2.1.s.ct.emergency && r.2.2.1.T == 540 && r.2.2.2.T == 780 &&
        r.2.2.1.s.meas.resultAvail && r.2.2.1.s.meas.active == 1 && r.2.2.1.s.ct.enabled && !r.2.2.1.s.ct.emergency &&
        !r.2.2.2.s.ct.emergency) = true := by decide
  match e : twoCalls NeverI TempI (samplesI 50 280 ++ [.reset])
      ((roundI [] 0xFF).drop 2 ++ samplesI 5 10 ++ roundI [195] 0xFF ++ samplesI 50 280 ++ [.reset])
      [100, 140] [100, 140] with
  | none => rw [e] at h; cases h
  | some (w, w', x, y) =>
    rw [e] at h
    simp only [Option.any_some, Bool.and_eq_true, beq_iff_eq, Bool.not_eq_true'] at h
    obtain ⟨⟨⟨⟨⟨⟨⟨⟨⟨⟨⟨⟨p1, p2⟩, p3⟩, p4⟩, p5⟩, p6⟩, p7⟩, p8⟩, p9⟩, p10⟩, p11⟩, p12⟩, p13⟩ := h
    obtain ⟨⟨a, b, k1⟩, k2, k3, k4, k5, k6⟩ := twoCalls_some e
    obtain ⟨b', k7⟩ := (k1.temp k2 k3 (Or.inl ⟨⟨rfl, p3, p4⟩, p5, p6⟩)).stretchT k4
    exact ⟨x, y, _, b', k7, k5, k6, ⟨⟨rfl, p9, p10⟩, p11, p13⟩, p12, p7, p8, by rw [p1, p2]⟩

set_option maxRecDepth 100000 in
/-- The second run of the current controller.  The first evaluation takes from 295 ms to 490 ms, the second one from
    785 ms to 980 ms. -/
example : ∃ w x y a b, LoopIClocked .shipped .m88p w a b ∧ w.T = b.stop ∧ StretchI .shipped .m88p (EvaluatesI 0) w x ∧
    LoopIStep .m88p x (some .measureWork) y ∧ InTimeI .shipped y ∧ RunsCurr x.s .measureWork y.s ∧ b = ⟨295, 490⟩ ∧
    x.T = 785 ∧ y.T = 980 := by
  have h : (twoCalls NeverI (EvaluatesI 0) (samplesI 50 280 ++ roundI [100, 140] 0xFF ++ samplesI 5 10 ++ [.reset])
      ((roundI [] 0xFF).drop 2 ++ samplesI 50 280 ++ roundI [100, 140] 0xFF ++ samplesI 5 10 ++ [.reset])
      [95, 100] [95, 100]).any (fun r => r.1.T == 295 && r.2.1.T == 490 && r.1.s.meas.resultAvail &&
        r.1.s.meas.active == 0 && r.2.1.s.cc.emerg == 0#8 && r.2.2.1.T == 785 && r.2.2.2.T == 980 &&
        r.2.2.1.s.meas.resultAvail && r.2.2.1.s.meas.active == 0 && r.2.2.2.s.cc.emerg == 0#8) = true := by decide
  match e : twoCalls NeverI (EvaluatesI 0) (samplesI 50 280 ++ roundI [100, 140] 0xFF ++ samplesI 5 10 ++ [.reset])
      ((roundI [] 0xFF).drop 2 ++ samplesI 50 280 ++ roundI [100, 140] 0xFF ++ samplesI 5 10 ++ [.reset])
      [95, 100] [95, 100] with
  | none => rw [e] at h; cases h
  | some (w, w', x, y) =>
    rw [e] at h
    simp only [Option.any_some, Bool.and_eq_true, beq_iff_eq] at h
    obtain ⟨⟨⟨⟨⟨⟨⟨⟨⟨p1, p2⟩, p3⟩, p4⟩, p5⟩, p6⟩, p7⟩, p8⟩, p9⟩, p10⟩ := h
    obtain ⟨⟨a, b, k1⟩, k2, k3, k4, k5, k6⟩ := twoCalls_some e
    exact ⟨w', x, y, a, _, k1.curr k2 k3 ⟨⟨rfl, p3, p4⟩, p5⟩, rfl, k4, k5, k6, ⟨⟨rfl, p8, p9⟩, p10⟩, by rw [p1, p2], p6, p7⟩

end Verif.Props
