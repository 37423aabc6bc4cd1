import Verif.Spec.NoDemandIn
import Verif.Props.LawIn
import Verif.Props.NoDemand
/-
C115: the heater while no current is demanded, in the main loop with interrupts inside the work functions.
-/
namespace Verif.Props
open Spec

variable {v : Speed} {c : Conf}

/-- at most 0.5 A -/
private def Small (ocr : Int) : Prop := ∃ amps, 0 ≤ amps ∧ 2 * amps ≤ 640 ∧ HeaterAt ocr amps

private theorem small_step {s s' : Sys} {e : Ev} (hi : Inv c s) (hs : step c s e = some s') (hd : s.cc.pid.setpoint = 0) :
    (s'.ocr = s.ocr ∧ ¬ Evaluates s e 0) ∨ Small s'.ocr := by
  have hoff : Small 0x1FFF := ⟨0, by decide, by decide, by decide⟩
  rcases step_eff hi hs with ⟨hn, hc⟩ | ⟨h1, h2, p, pl, hm⟩
  · exact Or.inl ⟨hc.ocr, fun h => hn ⟨h.1, h.2.1⟩⟩
  have hact : s.meas.active = 0 ∨ s.meas.active = 1 := by have := hi.meas.act; omega
  rcases hact with ha | ha
  · obtain ⟨-, f, hc⟩ := hm.curr ha
    rcases hc.ocr with ⟨y, hy, y0, y1, -, y2⟩ | ho
    · have := y2 hd
      exact Or.inr ⟨y, y0, by omega, heaterAt_duty ⟨y0, y1⟩ hy⟩
    · exact Or.inr (by rw [ho]; exact hoff)
  · rcases (hm.temp ha).ocr with ho | ho
    · exact Or.inl ⟨ho, fun h => by have := h.2.2; omega⟩
    · exact Or.inr (by rw [ho]; exact hoff)

private theorem small_stepI {x y : LoopI} {e : Option Ev} (hv : v.SaneI) (h : LoopIRun v c x) (hs : LoopIStep c x e y)
    (ht : InTimeI v y) (hd : x.s.cc.pid.setpoint = 0) : (y.s.ocr = x.s.ocr ∧ ¬ EvaluatesI 0 x e y) ∨ Small y.s.ocr := by
  rcases hs.once hv (h.inv hv) ht with ⟨rfl, es⟩ | ⟨f, t, t', rfl, it, -, r, et, r'⟩
  · exact Or.inl ⟨by rw [es], fun h => by cases h.1⟩
  · obtain ⟨a1, a2, -, a4, -, -, -, -, -, a10⟩ := r.same
    obtain ⟨-, -, -, -, -, -, -, -, -, b10⟩ := r'.same
    rcases small_step it et (by rw [a4]; exact hd) with ⟨h1, h2⟩ | h1
    · refine Or.inl ⟨by rw [← b10, h1, a10], fun h => h2 ?_⟩
      obtain ⟨he, k1, k2⟩ := h
      exact ⟨Option.some.inj he, a1.trans k1, a2.trans k2⟩
    · exact Or.inr (b10 ▸ h1)

/-- While no current is demanded, a step leaves the heater command as it is or programs at most 0.5 A. -/
theorem C115_step (v : Speed) (c : Conf) (x y : LoopI) (e : Option Ev) (hv : v.SaneI) (h : LoopIRun v c x)
    (hs : LoopIStep c x e y) (ht : InTimeI v y) (hd : x.s.cc.pid.setpoint = 0) :
    y.s.ocr = x.s.ocr ∨ ∃ amps, 0 ≤ amps ∧ 2 * amps ≤ 640 ∧ HeaterAt y.s.ocr amps :=
  (small_stepI hv h hs ht hd).imp And.left id

/-- When no current has been demanded for an evaluation period, the heater command is at most 0.5 A. -/
theorem C115_time (v : Speed) (c : Conf) (x y : LoopI) (hv : v.SaneI) (h : LoopIRun v c x) (hd : x.s.cc.pid.setpoint = 0)
    (hs : StretchI v c DemandsI x y) (hT : x.T + v.period ≤ y.T) :
    ∃ amps, 0 ≤ amps ∧ 2 * amps ≤ 640 ∧ HeaterAt y.s.ocr amps := by
  have key : LoopIRun v c y ∧ y.s.cc.pid.setpoint = 0 ∧ (Small y.s.ocr ∨ StretchI v c (EvaluatesI 0) x y) := by
    clear hT
    induction hs with
    | start => exact ⟨h, hd, Or.inr StretchI.start⟩
    | @step y e z _ hs ht hn ih =>
      obtain ⟨i1, i2, i3⟩ := ih
      refine ⟨i1.step hs ht, by unfold DemandsI at hn; omega, ?_⟩
      rcases small_stepI hv i1 hs ht i2 with ⟨k1, k2⟩ | k1
      · rcases i3 with i3 | i3
        · exact Or.inl (k1 ▸ i3)
        · exact Or.inr (i3.step hs ht k2)
      · exact Or.inl k1
  rcases key.2.2 with h1 | h1
  · exact h1
  · have := C98_period v c 0 x y hv (by decide) h h1
    omega

/-- no current is demanded while the temperature controller is off -/
private theorem off_demand {x : LoopI} (hv : v.SaneI) (h : LoopIRun v c x) (hd : x.s.ct.enabled = false) :
    x.s.cc.pid.setpoint = 0 := by
  induction h with
  | boot hv e =>
    obtain ⟨-, st, -, b, t, hb, -, rfl⟩ := (boot_ok hv).elim e
    exact absurd (hb.en.symm.trans hd) (by decide)
  | @step x e y hr hs ht ih =>
    rcases hs.once hv (hr.inv hv) ht with ⟨-, es⟩ | ⟨f, t, t', -, it, -, r, et, r'⟩
    · rw [es] at hd ⊢; exact ih hd
    · obtain ⟨-, -, -, a4, -, -, -, a8, -⟩ := r.same
      obtain ⟨-, -, -, b4, -, -, -, b8, -⟩ := r'.same
      rw [← b8] at hd
      rw [← b4]
      rw [← a4, ← a8] at ih
      rcases step_eff it et with ⟨-, hc⟩ | ⟨-, -, p, pl, hm⟩
      · rcases hc.sp with ⟨h1, h2⟩ | h1
        · rw [h1]; exact ih (h2.symm.trans hd)
        · exact h1
      · have hact : t.meas.active = 0 ∨ t.meas.active = 1 := by have := it.meas.act; omega
        rcases hact with ha | ha
        · obtain ⟨-, f, hc⟩ := hm.curr ha
          rw [hc.sp]
          exact ih ((congrArg ContrTemp.enabled hc.ct :).symm.trans hd)
        · have he := (hm.temp ha).enabled.symm.trans hd
          rcases (hm.temp ha).off he with h1 | h1
          · rw [h1]; exact ih he
          · exact h1

private theorem tuning_demand {x : LoopI} (hv : v.SaneI) (h : LoopIRun v c x) (hd : Tuning x.s.menu.state = true) :
    x.s.cc.pid.setpoint = 0 := off_demand hv h (by rw [(h.inv hv).inv.en, hd]; rfl)

/-- weakening what a stretch must not do, on states of the loop -/
private theorem stretch_weaken {P Q : LoopI → Option Ev → LoopI → Prop} {x y : LoopI} (h : LoopIRun v c x)
    (hPQ : ∀ x e y, LoopIRun v c y → Q x e y → P x e y) (hs : StretchI v c P x y) :
    LoopIRun v c y ∧ StretchI v c Q x y := by
  induction hs with
  | start => exact ⟨h, StretchI.start⟩
  | step _ hs ht hn ih => exact ⟨ih.1.step hs ht, ih.2.step hs ht fun hq => hn (hPQ _ _ _ (ih.1.step hs ht) hq)⟩

/-- In the calibration and tuning screens the heater command is at most 0.5 A, from one evaluation period after they
    were entered. -/
theorem C115_tuning (v : Speed) (c : Conf) (x y : LoopI) (hv : v.SaneI) (h : LoopIRun v c x)
    (hd : Tuning x.s.menu.state = true) (hs : StretchI v c (fun _ _ y => Tuning y.s.menu.state = false) x y)
    (hT : x.T + v.period ≤ y.T) : ∃ amps, 0 ≤ amps ∧ 2 * amps ≤ 640 ∧ HeaterAt y.s.ocr amps := by
  refine C115_time v c x y hv h (tuning_demand hv h hd) (stretch_weaken h (fun _ _ y hy hq => ?_) hs).2 hT
  by_contra hh
  exact hq (tuning_demand hv hy (by simpa using hh))

/-- So it is while the temperature sensor is lost. -/
theorem C115_lost (v : Speed) (c : Conf) (x y : LoopI) (hv : v.SaneI) (h : LoopIRun v c x)
    (hd : x.s.ct.emergency = true) (hs : StretchI v c (fun _ _ y => y.s.ct.emergency = false) x y)
    (hT : x.T + v.period ≤ y.T) : ∃ amps, 0 ≤ amps ∧ 2 * amps ≤ 640 ∧ HeaterAt y.s.ocr amps := by
  refine C115_time v c x y hv h ((h.inv hv).inv.emerg hd) (stretch_weaken h (fun _ _ y hy hq => ?_) hs).2 hT
  by_contra hh
  exact hq ((hy.inv hv).inv.emerg (by simpa using hh))

private theorem run_clockedI {x : LoopI} (h : LoopIRun v c x) : ∃ a b, LoopIClocked v c x a b := by
  induction h with
  | boot hv e => exact ⟨_, _, .boot hv e⟩
  | step _ hs ht ih =>
    obtain ⟨a, b, ih⟩ := ih
    exact ih.exists (P := NeverI) (StretchI.start.step hs ht id)

private theorem drain_inv {d p q : Int} {n : Nat} {x : LoopI} (hv : v.SaneI) (hd : 0 ≤ d)
    (hk : Pulls ⟨115, 128, 0, 128⟩ d p q) (h : DrainsI v c d x n) :
    LoopIRun v c x ∧ NoDemand x.s ∧
    (∃ w a b, LoopIClocked v c w a b ∧ w.T = b.stop ∧ StretchI v c (EvaluatesI 0) w x) ∧
    x.s.cc.pid.integr ≤ max 0 (5 * 64 - n * q) ∧ (1 ≤ n → 5 * 64 ≤ p + n * q → HeaterOff x.s.ocr) := by
  obtain ⟨p0, q0⟩ := pulls_nonneg (k := ⟨115, 128, 0, 128⟩) (by decide) (by decide) hd hk
  induction h with
  | @first x y h hs ht hr hh =>
    have hi := ((h.step hs ht).inv hv).inv
    obtain ⟨-, q2, -⟩ := hi.cc.lim
    have := hi.cc.range.integr
    obtain ⟨a, b, hc⟩ := run_clockedI h
    refine ⟨h.step hs ht, hh, ⟨y, a, _, hc.curr hs ht hr, rfl, StretchI.start⟩, ?_, fun h => absurd h (by decide)⟩
    rw [Int.natCast_zero, Int.zero_mul]
    omega
  | @runs x y n hx hs ht hr hh hle ih =>
    obtain ⟨hrun, i1, ⟨w, a, b, hw, hb, hst⟩, j1, -⟩ := ih
    obtain ⟨a', hc⟩ := hw.stretch hst
    have hT := (SpacedI.curr hv hc).late hv (by decide) hrun hr.1.2.1 hr.1.2.2
    obtain ⟨r, ms, dt, out, hsel, hms, hdt, hl, hprev, hat⟩ := C114_current v c w x y a b hv hw hb hst hs ht hr
    rw [i1.real] at hsel
    obtain ⟨rfl, -⟩ := hsel
    rw [i1.demand] at hl
    have hr3 := (curr_rangeI hv (hrun.inv hv) hs ht hr).2
    obtain ⟨g2, g3⟩ := law_drain (dt_ge (by have := hms.1; omega) hdt) hd hle (by omega) hk hl
    have e1 : ((n + 1 : Nat) : Int) * q = n * q + q := by push_cast; ring
    refine ⟨hrun.step hs ht, hh, ⟨y, a', _, hc.curr hs ht hr, rfl, StretchI.start⟩, ?_, fun _ hN => ?_⟩
    · rw [e1]; omega
    · have : out = 0 := g3 (by rw [e1] at hN; omega)
      have hz : y.s.cc.prevY = 0 := by rw [hprev, this]; split <;> rfl
      rw [hz] at hat
      unfold HeaterAt at hat
      unfold HeaterOff
      omega
  | @other x e y n hx hs ht hn hh ih =>
    obtain ⟨hrun, i1, ⟨w, a, b, hw, hb, hst⟩, j1, j2⟩ := ih
    refine ⟨hrun.step hs ht, hh, ⟨w, a, b, hw, hb, hst.step hs ht hn⟩, ?_⟩
    obtain ⟨k1, -, k2⟩ := C114_curr_memory v c x y e hv hrun hs ht fun f hf hr => hn ⟨by rw [hf, hr.1.1], hr.1.2.1, hr.1.2.2⟩
    rw [k1]
    refine ⟨j1, fun h1 h2 => ?_⟩
    rcases k2 with k2 | k2
    · rw [k2]; exact j2 h1 h2
    · exact k2

/-- While no current is demanded and the current measured is at least `d`, the integral of the current controller falls;
    as soon as it has had time to fall to the proportional part, the heater is off. -/
theorem C115_off (v : Speed) (c : Conf) (d p q : Int) (n : Nat) (x : LoopI) (hv : v.SaneI) (hd : 0 ≤ d)
    (hk : Pulls ⟨115, 128, 0, 128⟩ d p q) (h : DrainsI v c d x n) (h1 : 1 ≤ n) (hn : 5 * 64 ≤ p + n * q) :
    HeaterOff x.s.ocr :=
  (drain_inv hv hd hk h).2.2.2.2 h1 hn

/-! ### concrete runs -/

/-- two runs, one after the other -/
private def pair (P : LoopI → Option Ev → LoopI → Prop) [∀ x e y, Decidable (P x e y)] (l l' : List CmdI) :
    Option (LoopI × LoopI) :=
  (loopBootI .m88p 0xFF).bind fun b => (loopCmdsI .shipped .m88p NeverI b l).bind fun x =>
    (loopCmdsI .shipped .m88p P x l').map fun y => (x, y)

private theorem pair_some {P : LoopI → Option Ev → LoopI → Prop} [∀ x e y, Decidable (P x e y)] {l l' : List CmdI}
    {Q : LoopI × LoopI → Bool} (h : (pair P l l').any Q = true) :
    ∃ x y, LoopIRun .shipped .m88p x ∧ StretchI .shipped .m88p P x y ∧ Q (x, y) = true := by
  match e : pair P l l' with
  | none => rw [e] at h; cases h
  | some (x, y) =>
    rw [e] at h
    obtain ⟨b, hb, e⟩ := Option.bind_eq_some_iff.mp e
    obtain ⟨x', hx, e⟩ := Option.bind_eq_some_iff.mp e
    obtain ⟨y', hy, e⟩ := Option.map_eq_some_iff.mp e
    cases e
    exact ⟨x, y, (loopCmdsI_stretch hx).run (loopBootI_run hb validEeprom_m88p), loopCmdsI_stretch hy, h⟩

/-- `C115_step`, `C115_time`: the demand becomes 0 while the heater runs; an evaluation period later it is off. -/
example : ∃ x y, LoopIRun .shipped .m88p x ∧ x.s.cc.pid.setpoint = 0 ∧ x.s.ocr < 6000 ∧
    StretchI .shipped .m88p DemandsI x y ∧ x.T + Speed.shipped.period ≤ y.T ∧ y.s.ocr = 0x1FFF := by
  obtain ⟨x, y, h1, h2, h3⟩ := pair_some (P := DemandsI)
    (l := cyclesI 3 320 90 ++ samplesI 50 370 ++ roundI [240] 0xFF)
    (l' := samplesI 5 90 ++ roundI [195] 0xFF ++ cyclesI 2 370 90)
    (Q := fun r => r.1.s.cc.pid.setpoint == 0 && decide (r.1.s.ocr < 6000) &&
      decide (r.1.T + Speed.shipped.period ≤ r.2.T) && r.2.s.ocr == 0x1FFF) (by decide +kernel)
  simp only [Bool.and_eq_true, beq_iff_eq, decide_eq_true_eq] at h3
  exact ⟨x, y, h1, h3.1.1.1, h3.1.1.2, h2, h3.1.2, h3.2⟩

/-- a temperature and a current, with the SET button pressed in between -/
private def setCycle : List CmdI := samplesI 50 330 ++ roundI [240] 0xFB ++ samplesI 5 0 ++ roundI [195] 0xFF

/-- `C115_tuning`: SET is pressed twice while the heater runs; it still runs, at 0.37 A, more than two evaluation periods
    later. -/
example : ∃ x y, LoopIRun .shipped .m88p x ∧ Tuning x.s.menu.state = true ∧
    StretchI .shipped .m88p (fun _ _ y => Tuning y.s.menu.state = false) x y ∧ x.T + 2 * Speed.shipped.period ≤ y.T ∧
    HeaterAt y.s.ocr 234 := by
  obtain ⟨x, y, h1, h2, h3⟩ := pair_some (P := fun _ _ y => Tuning y.s.menu.state = false)
    (l := cyclesI 1 330 0 ++ setCycle ++ setCycle) (l' := cyclesI 5 330 0)
    (Q := fun r => Tuning r.1.s.menu.state && decide (r.1.T + 2 * Speed.shipped.period ≤ r.2.T) &&
      r.2.s.ocr == 7592) (by decide +kernel)
  simp only [Bool.and_eq_true, beq_iff_eq, decide_eq_true_eq] at h3
  exact ⟨x, y, h1, h3.1.1, h2, h3.1.2, by rw [h3.2]; decide⟩

/-- `C115_lost`: the sensor is lost while the heater runs; it still runs, at 0.5 A, more than two evaluation periods
    later. -/
example : ∃ x y, LoopIRun .shipped .m88p x ∧ x.s.ct.emergency = true ∧
    StretchI .shipped .m88p (fun _ _ y => y.s.ct.emergency = false) x y ∧ x.T + 2 * Speed.shipped.period ≤ y.T ∧
    HeaterAt y.s.ocr 320 := by
  obtain ⟨x, y, h1, h2, h3⟩ := pair_some (P := fun _ _ y => y.s.ct.emergency = false)
    (l := cyclesI 2 330 0 ++ cyclesI 8 1000 0) (l' := cyclesI 5 1000 0)
    (Q := fun r => r.1.s.ct.emergency && decide (r.1.T + 2 * Speed.shipped.period ≤ r.2.T) &&
      r.2.s.ocr == 7372) (by decide +kernel)
  simp only [Bool.and_eq_true, beq_iff_eq, decide_eq_true_eq] at h3
  exact ⟨x, y, h1, h3.1.1, h2, h3.1.2, by rw [h3.2]; decide⟩

/-- the current is evaluated, or it is demanded -/
private def Breaks (x : LoopI) (e : Option Ev) (y : LoopI) : Prop :=
  EvaluatesI 0 x e y ∨ ¬ (y.s.cc.pid.setpoint = 0 ∧ y.s.cc.emerg = 0 ∧ y.s.cc.rState = .enabled)
private instance (x : LoopI) (e : Option Ev) (y : LoopI) : Decidable (Breaks x e y) := by unfold Breaks; infer_instance

private theorem drains_stretch {d : Int} {n : Nat} {x y : LoopI} (h : DrainsI v c d x n) (hs : StretchI v c Breaks x y) :
    DrainsI v c d y n := by
  induction hs with
  | start => exact h
  | step _ hs ht hn ih =>
    unfold Breaks at hn
    rw [not_or, not_not] at hn
    exact ih.other hs ht hn.1 ⟨hn.2.1, hn.2.2.1, hn.2.2.2⟩

private def drainDemo : Option (LoopI × LoopI × LoopI × LoopI) :=
  twoCalls NeverI Breaks
    (cyclesI 3 320 90 ++ samplesI 50 370 ++ roundI [100, 140] 0xFF ++ samplesI 5 90 ++ [.reset])
    ((roundI [] 0xFF).drop 2 ++ samplesI 50 370 ++ roundI [100, 140] 0xFF ++ samplesI 5 90 ++ [.reset]) [95, 100] [95, 100]

private theorem pulls_178 : Pulls ⟨115, 128, 0, 128⟩ 178 320 22 :=
  ⟨⟨-320, by unfold NearestUp; decide, by decide⟩, -356, ⟨-356, by unfold NearestUp; decide, by decide⟩,
    ⟨-22, by unfold NearestUp; decide, by decide⟩⟩

/-- `C115_off`: with 0.4 A measured one more run of the controller turns the heater off. -/
example : ∃ x, DrainsI .shipped .m88p 178 x 1 ∧ Pulls ⟨115, 128, 0, 128⟩ 178 320 22 ∧
    (5 * 64 : Int) ≤ 320 + (1 : Nat) * 22 := by
  have h : drainDemo.any (fun q => q.1.s.meas.resultAvail && q.1.s.meas.active == 0 && q.2.1.s.cc.pid.setpoint == 0 &&
      q.2.1.s.cc.emerg == 0 && decide (q.2.1.s.cc.rState = .enabled) && q.2.2.1.s.meas.resultAvail &&
      q.2.2.1.s.meas.active == 0 && q.2.2.2.s.cc.pid.setpoint == 0 &&
      q.2.2.2.s.cc.emerg == 0 && decide (q.2.2.2.s.cc.rState = .enabled) && decide (178 ≤ q.2.2.2.s.cc.feedback)) = true := by
    decide +kernel
  match e : drainDemo with
  | none => rw [e] at h; cases h
  | some (w, w', x, y) =>
    rw [e] at h
    simp only [Option.any_some, Bool.and_eq_true, beq_iff_eq, decide_eq_true_eq] at h
    obtain ⟨⟨⟨⟨⟨⟨⟨⟨⟨⟨p1, p2⟩, p3⟩, p4⟩, p5⟩, p6⟩, p7⟩, p8⟩, p9⟩, p10⟩, p11⟩ := h
    obtain ⟨⟨a, b, k1⟩, k2, k3, k4, k5, k6⟩ := twoCalls_some e
    have h0 := DrainsI.first (d := 178) (ClockI.of (by unfold Speed.SaneI; decide) k1).run k2 k3
      ⟨⟨rfl, p1, p2⟩, p4⟩ ⟨p3, p4, p5⟩
    exact ⟨y, (drains_stretch h0 k4).runs k5 k6 ⟨⟨rfl, p6, p7⟩, p9⟩ ⟨p8, p9, p10⟩ p11, pulls_178, by decide⟩

end Verif.Props
