import Verif.Props.Loop
import Verif.Proofs.LoopInDemo
/-
C98: the main loop in real time, with interrupts inside the work functions.
-/
namespace Verif.Props
open Spec

variable {v : Speed} {c : Conf}

/-! ### in every state -/

/-- Whatever the interrupts and the time spent in the work functions: the heater is driven with 0 to 5 A, it is off
    while an emergency flag is set, no current is requested while the temperature emergency is active, and the next
    work function is defined. -/
theorem C98_safe (v : Speed) (c : Conf) (x : LoopI) (hv : v.SaneI) (h : LoopIRun v c x) :
    (∃ amps, 0 ≤ amps ∧ amps ≤ 5 * 640 ∧ HeaterAt x.s.ocr amps) ∧ (x.s.cc.emerg ≠ 0 → HeaterOff x.s.ocr) ∧
    (x.s.ct.emergency = true → x.s.cc.pid.setpoint = 0) ∧
    ∀ e g, IsWork e = true → g.sum < 1000 → (workT c x.s e g).isSome = true := by
  have hi := (h.inv hv).inv
  refine ⟨?_, hi.cc.off, hi.emerg, ?_⟩
  · obtain ⟨y, hy, hd⟩ := hi.cc.duty
    exact ⟨y, hy.1, hy.2, heaterAt_duty hy hd⟩
  · intro e g he hg
    obtain ⟨t, h1, h2, h3⟩ := work_atOnce c x.s e g (work_cases he) hg
    have it : Inv c t := by
      rw [h2.rest]
      exact inv_times hi _ (by show 0 ≤ t.now ∧ t.now ≤ 65535; rw [h1]; exact hi.now)
    rcases h3 with ⟨-, h3⟩ | ⟨s1, g1, -, h3, -⟩
    · have hp : possible t e = true := by rcases work_cases he with rfl | rfl | ⟨p, rfl⟩ | rfl | rfl <;> rfl
      obtain ⟨t', ht', -⟩ := it.step hp
      rw [ht'] at h3; cases h3
    · rw [h3]; rfl

/-! ### the calls -/

/-- Every work function is called again within two watchdog periods. -/
theorem C98_calls (v : Speed) (c : Conf) (p : Pc) (x y : LoopI) (hv : v.SaneI) (hp : p ≠ .reset) (h : LoopIRun v c x)
    (hs : StretchI v c (CallsI p) x y) : y.T ≤ x.T + 2 * v.W := by
  have hx := h.inv hv
  have key : callByI v p y ≤ callByI v p x ∧ y.T ≤ y.reset + v.W := by
    induction hs with
    | start => exact ⟨Nat.le_refl _, hx.dog⟩
    | step _ hs ht hn ih => exact ⟨Nat.le_trans (callByI_step hp ih.2 hs hn) ih.1, ht.1⟩
  have h1 := le_callByI (v := v) p y
  have h2 := callByI_le (v := v) p x
  have := hx.reset
  omega

/-- The temperature is evaluated again, and so is the current, within an evaluation period. -/
theorem C98_period (v : Speed) (c : Conf) (ch : Nat) (x y : LoopI) (hv : v.SaneI) (hch : ch < 2) (h : LoopIRun v c x)
    (hs : StretchI v c (EvaluatesI ch) x y) : y.T < x.T + v.period := by
  have hx := h.inv hv
  have key : evalByI v ch y ≤ evalByI v ch x := by
    induction hs with
    | start => exact Nat.le_refl _
    | step hst hs ht hn ih => exact Nat.le_trans (evalByI_step hv hch (hst.inv hv hx) hs ht hn) ih
  have h1 := (hs.inv hv hx).lt_evalBy ch
  have h2 := hx.evalBy_le hch
  omega

/-! ### an overheated iron -/

/-- When all temperatures evaluated for an evaluation period have been above 480 C (and at most 500 C), outside the
    calibration and tuning screens, the heater is off. -/
theorem C98_overheat (v : Speed) (c : Conf) (x y : LoopI) (hv : v.SaneI) (h : LoopIRun v c x)
    (hs : StretchI v c (NotHotI c) x y) (hT : x.T + v.period ≤ y.T) : HeaterOff y.s.ocr := by
  have hx := h.inv hv
  have key : StretchI v c (EvaluatesI 1) x y ∨ y.s.cc.emerg.getLsbD 1 = true := by
    clear hT
    induction hs with
    | start => exact .inl .start
    | @step y e z hst hs ht hn ih =>
      have hy := hst.inv hv hx
      by_cases hev : EvaluatesI 1 y e z
      · right
        have hhot : ∃ t, TempReady c y.s t ∧ 480 * 64 < t ∧ t ≤ 500 * 64 := by
          by_contra hh
          exact hn (.inl ⟨hev, hh⟩)
        obtain ⟨t, ⟨-, -, h1⟩, h2, h3⟩ := hhot
        obtain ⟨n, w, -, -, ⟨-, -, hw⟩, h4⟩ := hs.tempEval hv hy ht hev
        obtain rfl := TempValue.unique h1 hw
        rcases h4 with ⟨-, -, -, -, -, h4⟩ | ⟨h4, -⟩
        · refine h4 ?_ h2
          rw [hy.inv.en]
          have : ¬ Tuning y.s.menu.state = true := fun hh => hn (.inr hh)
          simpa using this
        · exact absurd ⟨by omega, h3⟩ h4
      · rcases ih with ih | ih
        · exact .inl (ih.step hs ht hev)
        · exact .inr ((hs.tempOther hv hy ht hev).2.2 ih)
  rcases key with key | key
  · have := C98_period v c 1 x y hv (by decide) h key
    omega
  · refine (hs.inv hv hx).inv.cc.off fun hh => ?_
    rw [hh] at key
    cases key

/-! ### a lost sensor -/

/-- the timeout of the temperature runs, until `d` -/
private def Waits (v : Speed) (y : LoopI) (d : Nat) : Prop :=
  (y.s.meas.chan[1].timer - d) % 65536 = 0 ∧ d ≤ y.T + 3000 + v.W ∧ evalByI v 1 y ≤ d + 2 * v.W + v.period

private theorem waits_bad {x y : LoopI} {e : Option Ev} {n : Nat} (hv : v.SaneI) (hx : LoopIInv v c x)
    (hs : LoopIStep c x e y) (ht : InTimeI v y) (hn : n ≤ v.W) (hT : y.T = x.T + n) (hb : BadEval n x y)
    (hem : y.s.ct.emergency = false) :
    (x.s.meas.chan[1].timerRunning = true → ∀ d, Waits v x d → Waits v y d) ∧
    (x.s.meas.chan[1].timerRunning = false → ∃ d, d ≤ x.T + 3000 + v.W ∧ Waits v y d) := by
  have hW := hv.1
  have hP : v.period ≤ 29000 := hv.2
  have hy := hx.step hv hs ht
  have hle := hy.evalBy_le (ch := 1) (by decide)
  have hpt : y.s.meas.chan[1].plausTimeout = false := by
    have := hb.emerg
    rw [hem] at this
    cases hh : y.s.meas.chan[1].plausTimeout with
    | false => rfl
    | true => rw [hh] at this; cases this
  refine ⟨fun hr d ⟨h1, h2, h3⟩ => ?_, fun hr => ?_⟩
  · obtain ⟨k1, j, j1, j2, j3⟩ := hb.kept hr
    have hlt := hx.lt_evalBy 1
    rw [hpt] at j3
    have hne : timerExpired x.s.now (toU16 (x.s.meas.chan[1].timer + j)) = false := by
      cases hh : timerExpired x.s.now (toU16 (x.s.meas.chan[1].timer + j)) with
      | false => rfl
      | true => rw [hh, Bool.or_true] at j3; cases j3
    have hlate : x.T < d + n := by
      by_contra hge
      rw [hx.now] at hne
      generalize x.s.meas.chan[1].timer = m at *
      unfold timerExpired timerCountSince toU16 toS16 at hne
      rw [decide_eq_false_iff_not] at hne
      omega
    refine ⟨by rw [k1]; exact h1, by omega, by omega⟩
  · obtain ⟨-, j, j1, j2, j3⟩ := hb.arm hr
    refine ⟨(x.T + 3000 + j).toNat, by omega, by omega, by omega, by omega⟩

/-- in every state: while the timeout of the temperature runs, it has passed or is not far away -/
private theorem waits {x : LoopI} (hv : v.SaneI) (h : LoopIRun v c x) (hr : x.s.meas.chan[1].timerRunning = true) :
    x.s.ct.emergency = true ∨ ∃ d, Waits v x d := by
  induction h with
  | boot hee e =>
    obtain ⟨-, st, -, b, t, hb, -, rfl⟩ := (boot_ok hee).elim e
    have hr : b.meas.chan[1].timerRunning = true := hr
    rw [hb.fresh.1] at hr
    cases hr
  | @step x e y hx hs ht ih =>
    have hxi := hx.inv hv
    by_cases hev : EvaluatesI 1 x e y
    · obtain ⟨n, w, hn, hT, -, h4⟩ := hs.tempEval hv hxi ht hev
      rcases h4 with ⟨-, h4, -⟩ | ⟨-, hb⟩
      · rw [h4] at hr; cases hr
      · cases hem : y.s.ct.emergency with
        | true => exact .inl rfl
        | false =>
          right
          obtain ⟨w1, w2⟩ := waits_bad hv hxi hs ht hn hT hb hem
          cases hr0 : x.s.meas.chan[1].timerRunning with
          | true =>
            rcases ih hr0 with ih | ⟨d, ih⟩
            · have := hb.emerg
              rw [hem, ih] at this
              split at this <;> cases this
            · exact ⟨d, w1 hr0 d ih⟩
          | false =>
            obtain ⟨d, -, hd⟩ := w2 hr0
            exact ⟨d, hd⟩
    · obtain ⟨⟨h1, h2, -⟩, h3, -⟩ := hs.tempOther hv hxi ht hev
      rw [h1] at hr
      rw [h3]
      refine (ih hr).imp id fun ⟨d, w1, w2, w3⟩ => ⟨d, by rw [h2]; exact w1, ?_, ?_⟩
      · have := hs.time
        omega
      · exact Nat.le_trans (evalByI_step hv (by decide) hxi hs ht hev) w3

/-- When all temperatures evaluated for 3000 ms, two evaluation periods and three watchdog periods have been
    implausible, the temperature emergency is active and no current is requested. -/
theorem C98_sensor_lost (v : Speed) (c : Conf) (x y : LoopI) (hv : v.SaneI) (h : LoopIRun v c x)
    (hs : StretchI v c (GoodTempI c) x y) (hT : x.T + 3000 + 2 * v.period + 3 * v.W ≤ y.T) :
    y.s.ct.emergency = true ∧ y.s.cc.pid.setpoint = 0 := by
  have hx := h.inv hv
  have key : StretchI v c (EvaluatesI 1) x y ∨ y.s.ct.emergency = true ∨
      (y.s.meas.chan[1].timerRunning = true ∧ ∃ d, d ≤ x.T + v.period + 3000 + v.W ∧ Waits v y d) := by
    clear hT
    induction hs with
    | start => exact .inl .start
    | @step y e z hst hs ht hn ih =>
      have hrun := hst.run h
      have hy := hrun.inv hv
      by_cases hev : EvaluatesI 1 y e z
      · right
        obtain ⟨n, w, hnW, hnT, hw, h4⟩ := hs.tempEval hv hy ht hev
        rcases h4 with ⟨h4, -⟩ | ⟨-, hb⟩
        · exact absurd ⟨hev, w, hw, h4⟩ hn
        · cases hem : z.s.ct.emergency with
          | true => exact .inl rfl
          | false =>
            right
            refine ⟨hb.run, ?_⟩
            obtain ⟨w1, w2⟩ := waits_bad hv hy hs ht hnW hnT hb hem
            have noem : y.s.ct.emergency ≠ true := by
              intro hh
              have := hb.emerg
              rw [hem, hh] at this
              split at this <;> cases this
            rcases ih with ih | ih | ⟨hr, d, hd, ih⟩
            · have hlt := C98_period v c 1 x y hv (by decide) h ih
              cases hr0 : y.s.meas.chan[1].timerRunning with
              | true =>
                rcases waits hv hrun hr0 with hh | ⟨d, hd⟩
                · exact absurd hh noem
                · have := hd.2.1
                  exact ⟨d, by omega, w1 hr0 d hd⟩
              | false =>
                obtain ⟨d, hd, hw⟩ := w2 hr0
                exact ⟨d, by omega, hw⟩
            · exact absurd ih noem
            · exact ⟨d, hd, w1 hr d ih⟩
      · obtain ⟨⟨h1, h2, -⟩, h3, -⟩ := hs.tempOther hv hy ht hev
        rcases ih with ih | ih | ⟨hr, d, hd, w1, w2, w3⟩
        · exact .inl (ih.step hs ht hev)
        · exact .inr (.inl (h3.trans ih))
        · refine .inr (.inr ⟨h1.trans hr, d, hd, by rw [h2]; exact w1, ?_, ?_⟩)
          · have := hs.time
            omega
          · exact Nat.le_trans (evalByI_step hv (by decide) hy hs ht hev) w3
  have hy := hs.inv hv hx
  have hem : y.s.ct.emergency = true := by
    rcases key with key | key | ⟨-, d, hd, -, -, w3⟩
    · have := C98_period v c 1 x y hv (by decide) h key
      omega
    · exact key
    · have := hy.lt_evalBy 1
      omega
  exact ⟨hem, hy.inv.emerg hem⟩

/-- A plausible temperature rules the temperature emergency out for 3000 ms less two watchdog periods. -/
theorem C98_sensor_ok (v : Speed) (c : Conf) (w x y : LoopI) (e : Option Ev) (hv : v.SaneI) (h : LoopIRun v c w)
    (hs : LoopIStep c w e x) (ht : InTimeI v x) (hg : GoodTempI c w e x) (hst : StretchI v c (fun _ _ _ => False) x y)
    (hT : y.T + 2 * v.W < x.T + 3000) : y.s.ct.emergency = false := by
  have hw := h.inv hv
  have hx := hw.step hv hs ht
  have hW := hv.1
  obtain ⟨hev, t, hr, hp⟩ := hg
  obtain ⟨n, t', -, -, hr', h4⟩ := hs.tempEval hv hw ht hev
  obtain rfl := TempValue.unique hr.2.2 hr'.2.2
  rcases h4 with ⟨-, h4, h5, h6, -⟩ | ⟨h4, -⟩
  swap
  · exact absurd hp h4
  suffices hh : y.s.ct.emergency = false ∧ y.s.meas.chan[1].plausTimeout = false ∧
      (y.s.meas.chan[1].timerRunning = true → ∃ d : Nat, (y.s.meas.chan[1].timer - d) % 65536 = 0 ∧
        x.T + 3000 ≤ d + v.W ∧ d ≤ y.T + 3000 + v.W) from hh.1
  induction hst with
  | start => exact ⟨h6, h5, fun hh => by rw [h4] at hh; cases hh⟩
  | @step y e z hst hs ht hn ih =>
    have hle := hst.time
    have hyz := hs.time
    have hy := hst.inv hv hx
    obtain ⟨i1, i2, i3⟩ := ih (by omega)
    by_cases hev : EvaluatesI 1 y e z
    · obtain ⟨n, _, hnW, hnT, -, hd⟩ := hs.tempEval hv hy ht hev
      rcases hd with ⟨-, d1, d2, d3, -⟩ | ⟨-, hb⟩
      · exact ⟨d3, d2, fun hh => by rw [d1] at hh; cases hh⟩
      · have hpt : z.s.meas.chan[1].plausTimeout = false ∧ ∃ d : Nat, (z.s.meas.chan[1].timer - d) % 65536 = 0 ∧
            x.T + 3000 ≤ d + v.W ∧ d ≤ z.T + 3000 + v.W := by
          cases hr0 : y.s.meas.chan[1].timerRunning with
          | true =>
            obtain ⟨d, d1, d2, d3⟩ := i3 hr0
            obtain ⟨k1, j, j1, j2, j3⟩ := hb.kept hr0
            refine ⟨?_, d, by rw [k1]; exact d1, d2, by omega⟩
            rw [j3, i2, Bool.false_or, hy.now]
            generalize y.s.meas.chan[1].timer = m at *
            unfold timerExpired timerCountSince toU16 toS16
            rw [decide_eq_false_iff_not]
            omega
          | false =>
            obtain ⟨k1, j, j1, j2, j3⟩ := hb.arm hr0
            exact ⟨k1.trans i2, (y.T + 3000 + j).toNat, by omega, by omega, by omega⟩
        refine ⟨?_, hpt.1, fun _ => hpt.2⟩
        rw [hb.emerg, hpt.1, i1]
        rfl
    · obtain ⟨⟨h1, h2, h2'⟩, h3, -⟩ := hs.tempOther hv hy ht hev
      refine ⟨h3.trans i1, h2'.trans i2, fun hh => ?_⟩
      obtain ⟨d, d1, d2, d3⟩ := i3 (h1 ▸ hh)
      exact ⟨d, by rw [h2]; exact d1, d2, by omega⟩

/-! ### concrete runs -/

example : Speed.shipped.SaneI := by unfold Speed.SaneI; decide

private theorem bind_any {x : Option LoopI} {f : LoopI → Option LoopI} {P : LoopI → LoopI → Bool}
    (h : x.any (fun x => (f x).any (P x)) = true) : ∃ a b, x = some a ∧ f a = some b ∧ P a b = true := by
  match x, h with
  | some a, h =>
    simp only [Option.any_some] at h
    match e : f a, h with
    | some b, h => exact ⟨a, b, rfl, e, h⟩

private def measures (_ : LoopI) (e : Option Ev) (_ : LoopI) : Prop := e = some .measureWork
private instance (x : LoopI) (e : Option Ev) (y : LoopI) : Decidable (measures x e y) := by unfold measures; infer_instance

set_option maxRecDepth 100000 in
/-- The bound of `C98_calls` is attained: 500 ms without a call of `measure_work`, 100 ms of them inside
    `display_work`. -/
example : ∃ x y, LoopIRun .shipped .m88p x ∧ StretchI .shipped .m88p (CallsI .measure) x y ∧
    y.T = x.T + 2 * Speed.shipped.W := by
  obtain ⟨x, y, h1, h2, h3⟩ := bind_any
    (x := (loopBootI .m88p 0xFF).bind fun x => loopCmdsI .shipped .m88p NeverI x [.reset, .call .measureWork []])
    (f := fun x => loopCmdsI .shipped .m88p measures x (samplesI 50 280 ++ [.call .menuWork [], .call .displayWork [100]] ++
      List.replicate 100 .pass ++ [.call (.buttonsWork 0xFF) []] ++ List.replicate 100 .tick ++
      [.call .settingsWork [], .reset] ++ List.replicate 250 .tick))
    (P := fun x y => y.T == x.T + 2 * Speed.shipped.W) (by decide)
  obtain ⟨b, hb, h1⟩ := Option.bind_eq_some_iff.mp h1
  refine ⟨x, y, (loopCmdsI_stretch h1).run (loopBootI_run hb validEeprom_m88p), ?_, by simpa using h3⟩
  refine (loopCmdsI_stretch h2).mono ?_
  rintro x e y ⟨f, pinb, rfl, hf⟩
  cases hf
  rfl

set_option maxRecDepth 100000 in
/-- `C98_period`: 995 ms without an evaluation of the current, of at most 1057 ms; the evaluation of the temperature
    takes 245 ms. -/
example : ∃ x y, LoopIRun .shipped .m88p x ∧ StretchI .shipped .m88p (EvaluatesI 0) x y ∧ y.T = x.T + 995 ∧
    Speed.shipped.period = 1057 := by
  obtain ⟨x, y, h1, h2, h3⟩ := bind_any (x := loopBootI .m88p 0xFF)
    (f := fun x => loopCmdsI .shipped .m88p (EvaluatesI 0) x ((roundI [] 0xFF).take 2 ++ samplesI 50 280 ++
      List.replicate 200 .tick ++ (roundI [] 0xFF).drop 2 ++ roundI [245] 0xFF ++ (roundI [] 0xFF).take 2 ++ samplesI 5 0 ++
      List.replicate 245 .tick ++ (roundI [] 0xFF).drop 2 ++ [.reset] ++ List.replicate 250 .tick))
    (P := fun x y => y.T == x.T + 995 && Speed.shipped.period == 1057) (by decide)
  simp only [Bool.and_eq_true, beq_iff_eq] at h3
  exact ⟨x, y, loopBootI_run h1 validEeprom_m88p, loopCmdsI_stretch h2, h3⟩

private def notHot (x : LoopI) (e : Option Ev) (y : LoopI) : Prop :=
  (EvaluatesI 1 x e y ∧ ¬ (x.s.meas.avgSum / x.s.meas.avgCount = 416 ∧ adjInForce .m88p x.s.set.cache = 0)) ∨
    Tuning x.s.menu.state = true
private instance (x : LoopI) (e : Option Ev) (y : LoopI) : Decidable (notHot x e y) := by unfold notHot; infer_instance

set_option maxRecDepth 100000 in
/-- Readings of 488 C while the heater is on, with 240 ms inside each of these evaluations: `C98_overheat` applies. -/
example : ∃ x y, LoopIRun .shipped .m88p x ∧ ¬ HeaterOff x.s.ocr ∧ StretchI .shipped .m88p (NotHotI .m88p) x y ∧
    x.T + Speed.shipped.period ≤ y.T := by
  obtain ⟨x, y, h1, h2, h3⟩ := bind_any
    (x := (loopBootI .m88p 0xFF).bind fun x => loopCmdsI .shipped .m88p NeverI x (cyclesI 2 250 0))
    (f := fun x => loopCmdsI .shipped .m88p notHot x (cyclesI 3 416 0))
    (P := fun x y => !decide (HeaterOff x.s.ocr) && decide (x.T + Speed.shipped.period ≤ y.T)) (by decide)
  obtain ⟨b, hb, h1⟩ := Option.bind_eq_some_iff.mp h1
  simp only [Bool.and_eq_true, Bool.not_eq_true', decide_eq_false_iff_not, decide_eq_true_eq] at h3
  refine ⟨x, y, (loopCmdsI_stretch h1).run (loopBootI_run hb validEeprom_m88p), h3.1, ?_, h3.2⟩
  refine (loopCmdsI_stretch h2).mono ?_
  rintro x e y (⟨h1, h2⟩ | h)
  · refine .inl ⟨h1, fun hh => h2 ⟨31245, ⟨h1.2.1, h1.2.2, 21645, ?_, ?_⟩, by decide, by decide⟩⟩
    · rw [hh.1]; decide
    · rw [hh.2]; decide
  · exact .inr h

private def notLost (x : LoopI) (e : Option Ev) (y : LoopI) : Prop :=
  EvaluatesI 1 x e y ∧ ¬ (x.s.meas.avgSum / x.s.meas.avgCount = 1023 ∧ adjInForce .m88p x.s.set.cache = 0)
private instance (x : LoopI) (e : Option Ev) (y : LoopI) : Decidable (notLost x e y) := by unfold notLost; infer_instance

set_option maxRecDepth 100000 in
/-- A sensor that is not connected, with 240 ms inside each of these evaluations: `C98_sensor_lost` applies after 12 of them. -/
example : ∃ x y, LoopIRun .shipped .m88p x ∧ StretchI .shipped .m88p (GoodTempI .m88p) x y ∧
    x.T + 3000 + 2 * Speed.shipped.period + 3 * Speed.shipped.W ≤ y.T := by
  obtain ⟨x, y, h1, h2, h3⟩ := bind_any (x := loopBootI .m88p 0xFF)
    (f := fun x => loopCmdsI .shipped .m88p notLost x (cyclesI 12 1023 0))
    (P := fun x y => decide (x.T + 3000 + 2 * Speed.shipped.period + 3 * Speed.shipped.W ≤ y.T)) (by decide)
  refine ⟨x, y, loopBootI_run h1 validEeprom_m88p, ?_, by simpa using h3⟩
  refine (loopCmdsI_stretch h2).mono ?_
  rintro x e y ⟨h1, t, ⟨-, -, h2⟩, h3⟩
  refine ⟨h1, fun hh => ?_⟩
  rw [hh.1, hh.2] at h2
  obtain rfl := TempValue.unique h2 (w := 95026) ⟨85426, by unfold NearestAway sensorRaw; decide, by decide⟩
  exact absurd h3.2 (by decide)

set_option maxRecDepth 100000 in
/-- An interruption of the sensor, with 240 ms inside each evaluation of the temperature: `C98_sensor_ok` applies
    2160 ms later. -/
example : ∃ w x y e, LoopIRun .shipped .m88p w ∧ LoopIStep .m88p w e x ∧ InTimeI .shipped x ∧ GoodTempI .m88p w e x ∧
    StretchI .shipped .m88p (fun _ _ _ => False) x y ∧ y.T = x.T + 2160 ∧ y.s.meas.chan[1].timerRunning = true := by
  obtain ⟨w, y, h1, h2, h3⟩ := bind_any
    (x := (loopBootI .m88p 0xFF).bind fun x => loopCmdsI .shipped .m88p NeverI x (samplesI 50 280 ++ [.reset]))
    (f := fun w => (loopCmdI .shipped .m88p NeverI w (.call .measureWork [240])).bind fun x =>
      loopCmdsI .shipped .m88p NeverI x ((roundI [] 0xFF).drop 2 ++ samplesI 5 0 ++ roundI [195] 0xFF ++ cyclesI 4 1023 0))
    (P := fun w y => w.s.meas.resultAvail && w.s.meas.active == 1 && w.s.meas.avgSum / w.s.meas.avgCount == 280 &&
      adjInForce .m88p w.s.set.cache == 0 && y.T == w.T + 240 + 2160 && y.s.meas.chan[1].timerRunning) (by decide)
  obtain ⟨b, hb, h1⟩ := Option.bind_eq_some_iff.mp h1
  obtain ⟨x, hx, h2⟩ := Option.bind_eq_some_iff.mp h2
  simp only [Bool.and_eq_true, beq_iff_eq] at h3
  obtain ⟨⟨⟨⟨⟨p1, p2⟩, p3⟩, p4⟩, p5⟩, p6⟩ := h3
  obtain ⟨k1, k2, k3⟩ := loopCmdI_call hx
  refine ⟨w, x, y, _, (loopCmdsI_stretch h1).run (loopBootI_run hb validEeprom_m88p), k1, k2, ⟨⟨rfl, p1, p2⟩, 16955,
    ⟨p1, p2, 7355, ?_, ?_⟩, by decide⟩, (loopCmdsI_stretch h2).mono fun _ _ _ h => h, ?_, p6⟩
  · rw [p3]; unfold NearestAway sensorRaw; decide
  · rw [p4]; decide
  · rw [p5, k3]; rfl

end Verif.Props
