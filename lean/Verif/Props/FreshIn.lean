import Verif.Proofs.FreshIn
/-
C118: the display keeps up with the measurements, with interrupts inside the work functions.
-/
namespace Verif.Props
open Verif.Spec

variable {v : Speed} {c : Conf}

/-- Whenever no update is pending, the digits hold the text that belongs to the screen and the present values, also with
    interrupts inside the work functions. -/
theorem C118_screen (v : Speed) (c : Conf) (x : LoopI) (hv : v.SaneI) (h : LoopIRun v c x) (hu : x.s.menu.updReq = false) :
    ∃ txt, ScreenText x.s txt ∧ DisplayShows x.s.disp txt (ShowsHeating x.s && x.s.menu.dispHeating) := by
  rcases (h.shown hv).shown with h1 | h1
  · rw [hu] at h1; cases h1
  · exact h1

/-- An update of the display is pending for at most two watchdog periods: then the digits have been written again. -/
theorem C118_pending (v : Speed) (c : Conf) (x y : LoopI) (hv : v.SaneI) (h : LoopIRun v c x)
    (hs : StretchI v c UpToDateAfterI x y) : y.T ≤ x.T + 2 * v.W := by
  have key : StretchI v c (CallsI .menu) x y := by
    induction hs with
    | start => exact StretchI.start
    | @step y e z hst hs ht hn ih =>
      refine ih.step hs ht ?_
      rintro ⟨f, pinb, rfl, h2⟩
      cases h2
      have hy := hst.run h
      rcases hs.once hv (hy.inv hv) ht with ⟨h1, -⟩ | ⟨f, t, t', hf, it, -, h1, hw, h2⟩
      · cases h1
      cases hf
      exact hn (h2.view.2.1.symm.trans (((hy.shown hv).kept h1.kept).menuWork it _ hw).2.2)
  exact C98_calls v c .menu x y hv (by decide) h key

/-- Whenever no update is pending and there is no error, the temperature screen shows the latest plausible
    temperature (0 before the first one). -/
theorem C118_shows (v : Speed) (c : Conf) (x : LoopI) (h : List (Nat × Int × Bool)) (hv : v.SaneI)
    (hx : LoopIReads v c x h) (hu : x.s.menu.updReq = false) (hst : x.s.menu.state = .curtemp)
    (he : x.s.menu.dispErr = 0) : ∃ txt dot, DisplayShows x.s.disp txt dot ∧
      TempText (((latest h).map fun r => r.2.1).getD 0) (unitOf x.s.ct.idle x.s.ct.boost) txt := by
  obtain ⟨txt, h1, h2⟩ := C118_screen v c x hv hx.run hu
  obtain ⟨k1, k2⟩ := hx.value hv
  refine ⟨txt, _, h2, ?_⟩
  unfold ScreenText at h1
  rw [hst] at h1
  simp only [he, if_true] at h1
  rw [← k1, ← k2]
  exact h1

/-- This temperature is not out of date: when it is older than 3000 ms, two evaluation periods and six watchdog
    periods, an error is shown instead. -/
theorem C118_age (v : Speed) (c : Conf) (x : LoopI) (h : List (Nat × Int × Bool)) (hv : v.SaneI)
    (hx : LoopIReads v c x h) (hu : x.s.menu.updReq = false) (he : x.s.menu.dispErr = 0)
    (hT : 3000 + 2 * v.period + 6 * v.W ≤ x.T) :
    ∃ t val, latest h = some (t, val, true) ∧ x.T < t + 3000 + 2 * v.period + 6 * v.W := by
  rcases hx.menu with ⟨z, h1, h2, h3⟩ | ⟨w, z, h', h1, h2, ht, h3, h4, h5⟩
  · have := C98_calls v c .menu z x hv (by decide) h1 h3
    have hp : v.period = 5 + 50 + 2 * v.A + 4 * v.W := rfl
    omega
  have hz := C98_calls v c .menu z x hv (by decide) h3.run h5
  have hview : z.s.menu.dispErr = 0 := by
    rcases (h5.view hv h3.run).view with hh | ⟨-, hh⟩
    · rw [hu] at hh; cases hh
    · simp only [viewOf, Prod.mk.injEq] at hh
      rw [← hh.2.1]
      exact he
  have hem : z.s.ct.emergency = false := by
    rcases h2.once hv (h1.inv hv) ht with ⟨k, -⟩ | ⟨f, t, t', hf, it, -, k1, hw, k2⟩
    · cases k
    cases hf
    have := (menuWork_flags it hw).2.2.1
    rw [k2.view.2.2.2.2.2, k2.same.2.2.2.2.2.2.1, hview] at this
    exact this.symm
  obtain ⟨q, k1, k2, k3⟩ := h3.good hv
  have hlt : z.T < q.T + 3000 + 2 * v.period + 3 * v.W := by
    apply Nat.lt_of_not_le
    intro hle
    have := (C98_sensor_lost v c q z hv k1 k2 hle).1
    rw [hem] at this
    cases this
  rcases k3 with k3 | ⟨r, hr, hb, hT'⟩
  · omega
  obtain ⟨⟨t, val, b⟩, hl⟩ := Option.isSome_iff_exists.mp
    (List.find?_isSome.mpr ⟨r, h4 r hr, hb⟩ : (latest h).isSome)
  have hbt : b = true := List.find?_some hl
  subst hbt
  refine ⟨t, val, hl, ?_⟩
  have hle : r.1 ≤ t := latest_le hx.sorted.2 hl (h4 r hr) hb
  omega

/-- The evaluation of the latest temperature began less than an evaluation period and a watchdog period ago; so with
    plausible readings that of the one that is shown did. -/
theorem C118_recent (v : Speed) (c : Conf) (x : LoopI) (h : List (Nat × Int × Bool)) (hv : v.SaneI)
    (hx : LoopIReads v c x h) (hT : v.period ≤ x.T) :
    ∃ t val b h', h = (t, val, b) :: h' ∧ x.T < t + v.period + v.W := by
  obtain ⟨z, h1, h2, h3⟩ := hx.last hv
  have hp := C98_period v c 1 z x hv (by decide) h1 h2
  rcases h3 with ⟨-, h3⟩ | ⟨t, val, b, h', rfl, h3⟩
  · omega
  · exact ⟨t, val, b, h', rfl, by omega⟩

/-! ### concrete runs -/

set_option maxRecDepth 200000 in
/-- After more than 6.6 s, with 240 and 195 ms inside the evaluations, the last ones of them without a sensor, the screen
    still shows the last plausible temperature, 265 C. -/
example : ∃ x h t, LoopIReads .shipped .m88p x h ∧ x.s.menu.updReq = false ∧ x.s.menu.state = .curtemp ∧
    x.s.menu.dispErr = 0 ∧ 3000 + 2 * Speed.shipped.period + 6 * Speed.shipped.W ≤ x.T ∧
    latest h = some (t, 16955, true) ∧ t + 1500 < x.T ∧ TempText 16955 [67, 46] [50, 54, 53, 67, 46] := by
  have h : (readCmdsI .shipped .m88p 0xFF (cyclesI 11 280 0 ++ cyclesI 4 1023 0)).any (fun x =>
      x.1.s.menu.updReq == false && decide (x.1.s.menu.state = .curtemp) && x.1.s.menu.dispErr == 0 &&
      decide (3000 + 2 * Speed.shipped.period + 6 * Speed.shipped.W ≤ x.1.T) &&
      (latest x.2).any fun r => r.2.1 == 16955 && decide (r.1 + 1500 < x.1.T)) = true := by decide
  match e : readCmdsI .shipped .m88p 0xFF (cyclesI 11 280 0 ++ cyclesI 4 1023 0) with
  | none => rw [e] at h; cases h
  | some x =>
    rw [e] at h
    simp only [Option.any_some, Bool.and_eq_true, beq_iff_eq, decide_eq_true_eq] at h
    obtain ⟨⟨⟨⟨h1, h2⟩, h3⟩, h4⟩, h5⟩ := h
    obtain ⟨⟨t, val, b⟩, hl, h5⟩ := (Option.any_eq_true _ _).mp h5
    simp only [Bool.and_eq_true, beq_iff_eq, decide_eq_true_eq] at h5
    have hb : b = true := List.find?_some hl
    obtain ⟨rfl, h6⟩ := h5
    subst hb
    exact ⟨x.1, x.2, t, readCmdsI_reads validEeprom_m88p e, h1, h2, h3, h4, hl, h6, 265, [50, 54, 53],
      by unfold NearestAway; decide, rfl, rfl, rfl⟩

private instance (x : LoopI) (e : Option Ev) (y : LoopI) : Decidable (UpToDateAfterI x e y) := by
  unfold UpToDateAfterI; infer_instance

set_option maxRecDepth 100000 in
/-- The bound of `C118_pending` is attained: the update requested at boot is still pending after 500 ms, the last 250 ms
    of which are spent inside the evaluation of the first temperature. -/
example : ∃ x y, LoopIRun .shipped .m88p x ∧ StretchI .shipped .m88p UpToDateAfterI x y ∧
    y.T = x.T + 2 * Speed.shipped.W := by
  have h : ((loopBootI .m88p 0xFF).bind fun x => (loopCmdsI .shipped .m88p UpToDateAfterI x
      (samplesI 50 280 ++ List.replicate 200 .tick ++ [.reset, .call .measureWork [250]])).map fun y => (x, y)).any
      (fun z => z.2.T == z.1.T + 2 * Speed.shipped.W) = true := by decide
  obtain ⟨z, e, hz⟩ := (Option.any_eq_true _ _).mp h
  obtain ⟨x, h1, h2⟩ := Option.bind_eq_some_iff.mp e
  obtain ⟨y, h3, rfl⟩ := Option.map_eq_some_iff.mp h2
  exact ⟨x, y, loopBootI_run h1 validEeprom_m88p, loopCmdsI_stretch h3, by simpa using hz⟩

end Verif.Props
