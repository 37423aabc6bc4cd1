import Verif.Proofs.CurrIn
/-
C111: the measured current in the main loop, with interrupts inside the work functions.
-/
namespace Verif.Props
open Spec

/-- The evaluation of a current: its value is that of the smoothed mean reading.  A value from 0 A to 5 A becomes the
    feedback of the current controller; any other value leaves the feedback as it is. -/
theorem C111_current (v : Speed) (c : Conf) (x y : LoopI) (xs : List Int) (h : List (Nat × Bool)) (hv : v.SaneI)
    (hx : LoopICurrs v c x xs h) (hs : LoopIStep c x (some .measureWork) y) (ht : InTimeI v y)
    (hr : x.s.meas.resultAvail = true) (ha : x.s.meas.active = 0) :
    ∃ t, CurrReady x.s xs t ∧ (PlausibleCurr t → y.s.cc.feedback = t) ∧
      (¬ PlausibleCurr t → y.s.cc.feedback = x.s.cc.feedback) := by
  have hi := hx.inv hv
  obtain ⟨-, n, w, -, -, hw, hd⟩ := hs.currEval hv hi.inv hi.mem ht ⟨rfl, hr, ha⟩
  refine ⟨w, hw, fun hp => ?_, fun hp => ?_⟩
  · rcases hd with ⟨-, -, -, -, hd⟩ | ⟨hd, -⟩
    · exact hd
    · exact absurd hp hd
  · rcases hd with ⟨hd, -⟩ | ⟨-, hd⟩
    · exact absurd hd hp
    · exact hd.feedback

/-- When all currents evaluated for 3000 ms, two evaluation periods and four watchdog periods have been implausible, the
    flag for it is set and the heater is off. -/
theorem C111_current_lost (v : Speed) (c : Conf) (x : LoopI) (xs : List Int) (h : List (Nat × Bool)) (t0 : Nat)
    (hv : v.SaneI) (hx : LoopICurrs v c x xs h) (hb : ∀ r ∈ h, t0 ≤ r.1 → r.2 = false)
    (hT : t0 + 3000 + 2 * v.period + 4 * v.W ≤ x.T) : x.s.cc.emerg.getLsbD 0 = true ∧ HeaterOff x.s.ocr := by
  have hi := hx.inv hv
  have h1 := hi.inv.lt_evalBy 0
  have h2 := hi.next
  have hne : h ≠ [] := by
    rintro rfl
    have : evalByI v 0 x ≤ 0 + v.W + v.period := h2
    omega
  obtain ⟨t, k1, k2⟩ := disturbed_since hi.gaps hb hne (by show t0 ≤ lastEval h; omega)
  obtain ⟨-, d, -, -, d3, -, d5⟩ := hi.busy t k1
  have hp : x.s.meas.chan[0].plausTimeout = true := by
    cases hp : x.s.meas.chan[0].plausTimeout with
    | true => rfl
    | false => have := d5 hp; omega
  have hf := hi.flag.trans hp
  refine ⟨hf, hi.inv.inv.cc.off fun hh => ?_⟩
  rw [hh] at hf
  cases hf

/-- When a current whose evaluation began in the last 3000 ms, less two watchdog periods, was plausible, the flag is not
    set. -/
theorem C111_current_ok (v : Speed) (c : Conf) (x : LoopI) (xs : List Int) (h : List (Nat × Bool)) (t0 : Nat)
    (hv : v.SaneI) (hx : LoopICurrs v c x xs h) (hb : (t0, true) ∈ h) (hT : x.T + 2 * v.W < t0 + 3000) :
    x.s.cc.emerg.getLsbD 0 = false := by
  have hi := hx.inv hv
  rw [hi.flag]
  cases hd : disturbedSince h with
  | none => exact (hi.calm hd).2
  | some t =>
    obtain ⟨-, d, -, d2, -, d4, -⟩ := hi.busy t hd
    cases hp : x.s.meas.chan[0].plausTimeout with
    | false => rfl
    | true =>
      have := d4 hp
      have := disturbed_false hi.gaps hd _ hb (show t < t0 by omega)
      cases this

/-- As soon as a plausible current is evaluated, the flag is gone. -/
theorem C111_current_back (v : Speed) (c : Conf) (x : LoopI) (xs : List Int) (h : List (Nat × Bool)) (t0 : Nat)
    (hv : v.SaneI) (hx : LoopICurrs v c x xs ((t0, true) :: h)) : x.s.cc.emerg.getLsbD 0 = false := by
  have hi := hx.inv hv
  rw [hi.flag]
  exact (hi.calm rfl).2

/-! ### concrete runs -/

set_option maxRecDepth 200000 in
/-- A current sense input stuck at the top, with 240 and 195 ms inside the evaluations: after the smoothing has
    caught up, all values are implausible; `C111_current_lost` applies. -/
example : ∃ x xs h, LoopICurrs .shipped .m88p x xs h ∧ (∀ r ∈ h, 3000 ≤ r.1 → r.2 = false) ∧
    3000 + 3000 + 2 * Speed.shipped.period + 4 * Speed.shipped.W ≤ x.T ∧ (∃ r ∈ h, r.2 = true) := by
  have h : (currCmdsI .shipped .m88p 0xFF (cyclesI 20 280 1023)).any (fun x =>
      x.2.2.all (fun r => decide (3000 ≤ r.1 → r.2 = false)) &&
      decide (3000 + 3000 + 2 * Speed.shipped.period + 4 * Speed.shipped.W ≤ x.1.T) && x.2.2.any (·.2)) = true := by decide
  match e : currCmdsI .shipped .m88p 0xFF (cyclesI 20 280 1023) with
  | none => rw [e] at h; cases h
  | some x =>
    rw [e] at h
    simp only [Option.any_some, Bool.and_eq_true, decide_eq_true_eq, List.all_eq_true, List.any_eq_true] at h
    exact ⟨x.1, x.2.1, x.2.2, currCmdsI_currs validEeprom_m88p e, h.1.1, h.1.2, h.2⟩

set_option maxRecDepth 100000 in
/-- The same run earlier: the smoothed current has become implausible, the timeout runs, and `C111_current_ok` applies. -/
example : ∃ x xs h, LoopICurrs .shipped .m88p x xs h ∧ (∃ r ∈ h, r.2 = true ∧ x.T + 2 * Speed.shipped.W < r.1 + 3000) ∧
    x.s.meas.chan[0].timerRunning = true := by
  have h : (currCmdsI .shipped .m88p 0xFF (cyclesI 9 280 1023)).any (fun x =>
      x.2.2.any (fun r => r.2 && decide (x.1.T + 2 * Speed.shipped.W < r.1 + 3000)) &&
      x.1.s.meas.chan[0].timerRunning) = true := by decide
  match e : currCmdsI .shipped .m88p 0xFF (cyclesI 9 280 1023) with
  | none => rw [e] at h; cases h
  | some x =>
    rw [e] at h
    simp only [Option.any_some, Bool.and_eq_true, decide_eq_true_eq, List.any_eq_true] at h
    exact ⟨x.1, x.2.1, x.2.2, currCmdsI_currs validEeprom_m88p e, h.1, h.2⟩

set_option maxRecDepth 100000 in
/-- Readings of 40 and 60 have been evaluated and a reading of 200 is waiting; its evaluation takes 100 ms, and the feedback
    is then 0.3 A (`C111_current`). -/
example : ∃ x y xs h, LoopICurrs .shipped .m88p x xs h ∧ LoopIStep .m88p x (some .measureWork) y ∧ InTimeI .shipped y ∧
    x.s.meas.resultAvail = true ∧ x.s.meas.active = 0 ∧ y.T = x.T + 100 ∧ xs = [60, 40] ∧ y.s.cc.feedback = 195 := by
  have h : (currCmdsI .shipped .m88p 0xFF (cyclesI 1 280 40 ++ cyclesI 1 280 60 ++ samplesI 50 280 ++ roundI [] 0xFF ++
      samplesI 5 200 ++ [.reset])).any (fun x => (loopCmdI .shipped .m88p NeverI x.1 (.call .measureWork [100])).any fun y =>
      x.1.s.meas.resultAvail && x.1.s.meas.active == 0 && x.2.1 == [60, 40] && y.s.cc.feedback == 195) = true := by decide
  match e : currCmdsI .shipped .m88p 0xFF (cyclesI 1 280 40 ++ cyclesI 1 280 60 ++ samplesI 50 280 ++ roundI [] 0xFF ++
      samplesI 5 200 ++ [.reset]) with
  | none => rw [e] at h; cases h
  | some x =>
    rw [e, Option.any_some] at h
    match e1 : loopCmdI .shipped .m88p NeverI x.1 (.call .measureWork [100]) with
    | none => rw [e1] at h; cases h
    | some y =>
      rw [e1] at h
      simp only [Option.any_some, Bool.and_eq_true, beq_iff_eq] at h
      obtain ⟨k1, k2, k3⟩ := loopCmdI_call e1
      exact ⟨x.1, y, x.2.1, x.2.2, currCmdsI_currs validEeprom_m88p e, k1, k2, h.1.1.1, h.1.1.2, k3, h.1.2, h.2⟩

end Verif.Props
