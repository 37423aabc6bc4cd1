import Verif.Spec.Fresh
import Verif.Props.Loop
import Verif.Props.Display
import Verif.Proofs.View
/-
C86: the temperature display keeps up with the measurements.
-/
namespace Verif.Props
open Verif.Spec

variable {v : Speed} {c : Conf}

private theorem reads_temps {x : Loop} {h : List (Nat × Int × Bool)} (hh : LoopReads v c x h) :
    LoopTemps v c x (h.map fun r => (r.1, r.2.2)) := by
  induction hh with
  | boot hv e => exact LoopTemps.boot hv e
  | reads _ hs ht hr hb ih => exact LoopTemps.reads ih hs ht hr hb
  | other _ hs ht hn ih => exact LoopTemps.other ih hs ht hn

private theorem reads_run {x : Loop} {h : List (Nat × Int × Bool)} (hh : LoopReads v c x h) : LoopRun v c x := by
  induction hh with
  | boot hv e => exact LoopRun.boot hv e
  | reads _ hs ht _ _ ih => exact ih.step hs ht
  | other _ hs ht _ ih => exact ih.step hs ht

/-- the temperature controller has the latest plausible temperature -/
private theorem reads_value {x : Loop} {h : List (Nat × Int × Bool)} (hh : LoopReads v c x h) :
    x.s.mtPrev = ((latest h).map fun r => r.2.1).getD 0 ∧ x.s.ct.feedback = x.s.mtPrev := by
  induction hh with
  | boot hv e =>
    obtain ⟨-, st, -, b, t, hb, ⟨-, ht⟩, rfl⟩ := (boot_ok hv).elim e
    exact ⟨hb.mt, hb.fb.trans hb.mt.symm⟩
  | @reads x y h t b hx hs _ hr hb ih =>
    have hi := Running.inv (reads_run hx).running
    obtain ⟨hav, ha, hval⟩ := hr
    rcases hs.sys with ⟨h1, -⟩ | ⟨f, hf, -, hst, -⟩
    · cases h1
    cases hf
    rcases step_eff hi hst with ⟨h1, -⟩ | ⟨-, -, p, pl, hm⟩
    · exact absurd ⟨rfl, hav⟩ h1
    obtain ⟨w, ⟨-, -, hw⟩, ⟨h1, h2⟩, -⟩ := hm.tempValue hi hav ha
    obtain rfl := TempValue.unique hval hw
    have e1 := (hm.temp ha).mtPrev
    have e2 := (hm.temp ha).feedback
    by_cases hp : PlausibleTemp t
    · have hpl := h1.mpr hp
      have hpt : p = t := h2.2.2.2.2 hp.1 hp.2
      obtain rfl : b = true := hb.mpr hp
      rw [if_pos hpl] at e1
      rw [hpl] at e2
      exact ⟨e1.trans hpt, e2.trans e1.symm⟩
    · have hpl : pl ≠ .plausible := fun hh => hp (h1.mp hh)
      obtain rfl : b = false := by
        cases b with
        | false => rfl
        | true => exact absurd (hb.mp rfl) hp
      rw [if_neg hpl] at e1
      refine ⟨e1.trans ih.1, ?_⟩
      rw [e2, e1]
      cases pl with
      | plausible => exact absurd rfl hpl
      | notPlausible => rfl
      | timeout => exact ih.2
  | @other x e y h hx hs _ hn ih =>
    have hi := Running.inv (reads_run hx).running
    rcases hs.sys with ⟨-, h1, -⟩ | ⟨f, rfl, -, hst, -⟩
    · rw [h1]; exact ih
    rcases step_eff hi hst with ⟨-, hc⟩ | ⟨rfl, h2, p, pl, hm⟩
    · rw [hc.mtPrev, hc.feedback]; exact ih
    · have hact : x.s.meas.active = 0 ∨ x.s.meas.active = 1 := by have := hi.meas.act; omega
      rcases hact with ha | ha
      · obtain ⟨-, f, hc⟩ := hm.curr ha
        rw [hc.mtPrev, hc.ct]; exact ih
      · exact absurd ⟨rfl, h2, ha⟩ hn

/-- between two calls of the menu's work function a changed view means that an update is requested -/
private theorem stretch_view {x y : Loop} (hx : LoopRun v c x) (hs : Stretch v c (Calls .menu) x y) :
    ViewKept x.s y.s := by
  induction hs with
  | start => exact ViewKept.refl _
  | @step y e z hst hs _ hn ih =>
    have hi := Running.inv (hst.run hx).running
    rcases hs.sys with ⟨-, h1, -⟩ | ⟨f, rfl, -, hf, -⟩
    · rw [h1]; exact ih
    · refine ih.trans (ViewKept.step hi (fun he => hn ?_) hf)
      exact ⟨f, 0, rfl, by rw [he]; rfl⟩

/-- the latest call of the menu's work function -/
private theorem last_menu {x : Loop} {h : List (Nat × Int × Bool)} (hh : LoopReads v c x h) :
    (∃ z, LoopRun v c z ∧ z.T = 0 ∧ Stretch v c (Calls .menu) z x) ∨
    ∃ w z h', LoopRun v c w ∧ step c w.s .menuWork = some z.s ∧ LoopReads v c z h' ∧ (∀ r ∈ h', r ∈ h) ∧
      Stretch v c (Calls .menu) z x := by
  induction hh with
  | @boot ee pinb s hv e => exact Or.inl ⟨_, LoopRun.boot hv e, rfl, Stretch.start⟩
  | @reads x y h t b hx hs ht hr hb ih =>
    have hn : ¬ Calls .menu x (some .measureWork) y := by
      rintro ⟨f, pinb, h1, h2⟩
      cases h1
      cases h2
    rcases ih with ⟨z, h1, h2, h3⟩ | ⟨w, z, h', h1, h2, h3, h4, h5⟩
    · exact Or.inl ⟨z, h1, h2, h3.step hs ht hn⟩
    · exact Or.inr ⟨w, z, h', h1, h2, h3, fun r hr => List.mem_cons_of_mem _ (h4 r hr), h5.step hs ht hn⟩
  | @other x e y h hx hs ht hne ih =>
    by_cases hn : Calls .menu x e y
    · obtain ⟨f, pinb, rfl, h2⟩ := hn
      cases h2
      rcases hs.sys with ⟨h1, -⟩ | ⟨f, hf, -, hst, -⟩
      · cases h1
      cases hf
      exact Or.inr ⟨x, y, h, reads_run hx, hst, LoopReads.other hx hs ht hne, fun _ => id, Stretch.start⟩
    · rcases ih with ⟨z, h1, h2, h3⟩ | ⟨w, z, h', h1, h2, h3, h4, h5⟩
      · exact Or.inl ⟨z, h1, h2, h3.step hs ht hn⟩
      · exact Or.inr ⟨w, z, h', h1, h2, h3, h4, h5.step hs ht hn⟩

/-- the temperatures are in the order of time -/
private theorem reads_sorted {x : Loop} {h : List (Nat × Int × Bool)} (hh : LoopReads v c x h) :
    (∀ r ∈ h, r.1 ≤ x.T) ∧ h.Pairwise fun r q => q.1 ≤ r.1 := by
  induction hh with
  | boot _ _ => exact ⟨fun r hr => (by cases hr), List.Pairwise.nil⟩
  | @reads x y h t b hx hs _ _ _ ih =>
    have := hs.time
    refine ⟨fun r hr => ?_, List.pairwise_cons.mpr ⟨fun r hr => ih.1 r hr, ih.2⟩⟩
    rcases List.mem_cons.mp hr with rfl | hr
    · exact this.1
    · exact Nat.le_trans (ih.1 r hr) this.1
  | other _ hs _ _ ih => exact ⟨fun r hr => Nat.le_trans (ih.1 r hr) hs.time.1, ih.2⟩

theorem latest_le {h : List (Nat × Int × Bool)} {r q : Nat × Int × Bool}
    (hs : h.Pairwise fun r q => q.1 ≤ r.1) (hl : latest h = some q) (hr : r ∈ h) (hb : r.2.2 = true) : r.1 ≤ q.1 := by
  unfold latest at hl
  induction h with
  | nil => cases hr
  | cons a l ih =>
    obtain ⟨h1, h2⟩ := List.pairwise_cons.mp hs
    rw [List.find?_cons] at hl
    split at hl
    · cases hl
      rcases List.mem_cons.mp hr with rfl | hr
      · exact Nat.le_refl _
      · exact h1 r hr
    · rename_i hn
      rcases List.mem_cons.mp hr with rfl | hr
      · rw [hb] at hn; cases hn
      · exact ih h2 hl hr

/-- the latest evaluation of the temperature -/
private theorem last_read {x : Loop} {h : List (Nat × Int × Bool)} (hh : LoopReads v c x h) :
    ∃ z, LoopRun v c z ∧ Stretch v c (EvaluatesCh 1) z x ∧
      ((h = [] ∧ z.T = 0) ∨ ∃ t val b h', h = (t, val, b) :: h' ∧ z.T = t) := by
  induction hh with
  | boot hv e => exact ⟨_, LoopRun.boot hv e, Stretch.start, Or.inl ⟨rfl, rfl⟩⟩
  | @reads x y h t b hx hs ht _ _ _ =>
    refine ⟨y, (reads_run hx).step hs ht, Stretch.start, Or.inr ⟨x.T, t, b, h, rfl, ?_⟩⟩
    rcases hs.sys with ⟨h1, -⟩ | ⟨f, hf, -, -, hT, -⟩
    · cases h1
    cases hf
    exact hT
  | other hx hs ht hn ih =>
    obtain ⟨z, h1, h2, h3⟩ := ih
    exact ⟨z, h1, h2.step hs ht hn, h3⟩

/-- An update of the display is pending for at most two watchdog periods: then the digits have been written again. -/
theorem C86_pending (v : Speed) (c : Conf) (x y : Loop) (h : LoopRun v c x)
    (hs : Stretch v c UpToDateAfter x y) : y.T ≤ x.T + 2 * v.W := by
  have key : Stretch v c (Calls .menu) x y := by
    induction hs with
    | start => exact Stretch.start
    | @step y e z hst hs ht hn ih =>
      refine ih.step hs ht ?_
      rintro ⟨f, pinb, rfl, h2⟩
      cases h2
      rcases hs.sys with ⟨h1, -⟩ | ⟨f, hf, -, hw, -⟩
      · cases h1
      cases hf
      exact hn (C61_work c _ _ (hst.run h).running hw).1
  exact C70_calls v c .menu x y (by decide) h key

/-- Whenever no update is pending and there is no error, the temperature screen shows the latest plausible
    temperature (0 before the first one). -/
theorem C86_shows (v : Speed) (c : Conf) (x : Loop) (h : List (Nat × Int × Bool)) (hx : LoopReads v c x h)
    (hu : x.s.menu.updReq = false) (hst : x.s.menu.state = .curtemp) (he : x.s.menu.dispErr = 0) :
    ∃ txt dot, DisplayShows x.s.disp txt dot ∧
      TempText (((latest h).map fun r => r.2.1).getD 0) (unitOf x.s.ct.idle x.s.ct.boost) txt := by
  obtain ⟨txt, h1, h2⟩ := C61_between c x.s (reads_run hx).running hu
  obtain ⟨k1, k2⟩ := reads_value hx
  refine ⟨txt, _, h2, ?_⟩
  unfold ScreenText at h1
  rw [hst] at h1
  simp only [he, if_true] at h1
  rw [← k1, ← k2]
  exact h1

/-- This temperature is not out of date: when it is older than 3000 ms, two evaluation periods and two watchdog
    periods, an error is shown instead. -/
theorem C86_age (v : Speed) (c : Conf) (x : Loop) (h : List (Nat × Int × Bool)) (hv : v.Sane)
    (hx : LoopReads v c x h) (hu : x.s.menu.updReq = false) (he : x.s.menu.dispErr = 0)
    (hT : 3000 + 2 * v.period + 2 * v.W < x.T) :
    ∃ t val, latest h = some (t, val, true) ∧ x.T ≤ t + 3000 + 2 * v.period + 2 * v.W := by
  rcases last_menu hx with ⟨z, h1, h2, h3⟩ | ⟨w, z, h', h1, h2, h3, h4, h5⟩
  · have := C70_calls v c .menu z x (by decide) h1 h3
    omega
  have hz := C70_calls v c .menu z x (by decide) (reads_run h3) h5
  have hview : z.s.menu.dispErr = 0 := by
    rcases (stretch_view (reads_run h3) h5).view with hh | ⟨-, hh⟩
    · rw [hu] at hh; cases hh
    · simp only [viewOf, Prod.mk.injEq] at hh
      rw [← hh.2.1]
      exact he
  have hem : z.s.ct.emergency = false := by
    have := (C49_flags c w.s z.s h1.running h2).2.2.1
    rw [hview] at this
    exact this.symm
  have key : ∃ r ∈ h', x.T ≤ r.1 + 3000 + 2 * v.period + 2 * v.W ∧ r.2.2 = true := by
    apply Classical.byContradiction
    intro hno
    have hall : ∀ r ∈ h'.map fun r => (r.1, r.2.2), x.T - (3000 + 2 * v.period + 2 * v.W) ≤ r.1 → r.2 = false := by
      intro r hr hle
      obtain ⟨r', hr', rfl⟩ := List.mem_map.mp hr
      cases hb : r'.2.2 with
      | false => rfl
      | true =>
        refine absurd ⟨r', hr', ?_, hb⟩ hno
        simp only [] at hle
        omega
    have := (C73_sensor_lost v c z _ _ hv (reads_temps h3) hall (by omega)).1
    rw [hem] at this
    cases this
  obtain ⟨r, hr, hT', hb⟩ := key
  obtain ⟨⟨t, val, b⟩, hl⟩ := Option.isSome_iff_exists.mp
    (List.find?_isSome.mpr ⟨r, h4 r hr, hb⟩ : (latest h).isSome)
  have hbt : b = true := List.find?_some hl
  subst hbt
  refine ⟨t, val, hl, ?_⟩
  have hle : r.1 ≤ t := latest_le (reads_sorted hx).2 hl (h4 r hr) hb
  omega

/-- The latest temperature evaluated at all is always less than an evaluation period old; so with plausible readings
    the one that is shown is. -/
theorem C86_recent (v : Speed) (c : Conf) (x : Loop) (h : List (Nat × Int × Bool)) (hv : v.Sane)
    (hx : LoopReads v c x h) (hT : v.period ≤ x.T) :
    ∃ t val b h', h = (t, val, b) :: h' ∧ x.T < t + v.period := by
  obtain ⟨z, h1, h2, h3⟩ := last_read hx
  have hp := C71_period v c 1 z x hv (by decide) h1 h2
  rcases h3 with ⟨-, h3⟩ | ⟨t, val, b, h', rfl, h3⟩
  · omega
  · exact ⟨t, val, b, h', rfl, by omega⟩

/-! ### concrete runs -/

/-- a command, with the history of temperatures -/
private def readCmd (v : Speed) (c : Conf) (x : Loop × List (Nat × Int × Bool)) (a : Cmd) :
    Option (Loop × List (Nat × Int × Bool)) :=
  match a with
  | .ev .measureWork =>
    if x.1.s.meas.resultAvail = true ∧ x.1.s.meas.active = 1 then
      let a := (480 - 150) * 64 * (x.1.s.meas.avgSum / x.1.s.meas.avgCount - (sensorRaw c).1)
      let b := (sensorRaw c).2 - (sensorRaw c).1
      if NearestAway a b (nearest a b) then
        (loopCmd v c Never x.1 (.ev .measureWork)).map fun y =>
          let t := 150 * 64 + nearest a b - adjInForce c x.1.s.set.cache
          (y, (x.1.T, t, decide (PlausibleTemp t)) :: x.2)
      else none
    else (loopCmd v c (EvaluatesCh 1) x.1 (.ev .measureWork)).map fun y => (y, x.2)
  | a => (loopCmd v c (EvaluatesCh 1) x.1 a).map fun y => (y, x.2)

private theorem stretch_reads {x y : Loop} {l : List (Nat × Int × Bool)} (h : LoopReads v c x l)
    (hs : Stretch v c (EvaluatesCh 1) x y) : LoopReads v c y l := by
  induction hs with
  | start => exact h
  | step _ hs ht hn ih => exact ih.other hs ht hn

private theorem readCmd_reads {x y : Loop × List (Nat × Int × Bool)} {a : Cmd} (hx : LoopReads v c x.1 x.2)
    (h : readCmd v c x a = some y) : LoopReads v c y.1 y.2 := by
  have other : ∀ a, (loopCmd v c (EvaluatesCh 1) x.1 a).map (fun z => (z, x.2)) = some y → LoopReads v c y.1 y.2 := by
    intro a h
    obtain ⟨z, h1, h2⟩ := Option.map_eq_some_iff.mp h
    cases h2
    exact stretch_reads hx (loopCmd_stretch (evaluates_tick 1) h1)
  unfold readCmd at h
  split at h
  · split at h
    · rename_i hh
      simp only [] at h
      split at h
      · rename_i hn
        obtain ⟨z, h1, h2⟩ := Option.map_eq_some_iff.mp h
        cases h2
        obtain ⟨h3, h4⟩ := loopCmd_step h1
        exact LoopReads.reads hx h3 h4 ⟨hh.1, hh.2, _, hn, rfl⟩ (by simp)
      · cases h
    · exact other _ h
  · exact other _ h

private def readCmds (v : Speed) (c : Conf) (pinb : BitVec 8) (l : List Cmd) :
    Option (Loop × List (Nat × Int × Bool)) :=
  (loopBoot c pinb).bind fun x => l.foldlM (readCmd v c) (x, [])

private theorem readCmds_any {pinb : BitVec 8} {l : List Cmd} {P : Loop → List (Nat × Int × Bool) → Bool}
    (hv : ValidEeprom c (shippedEeprom c)) (h : (readCmds v c pinb l).any (fun y => P y.1 y.2) = true) :
    ∃ x h, LoopReads v c x h ∧ P x h = true := by
  match e : readCmds v c pinb l with
  | none => rw [e] at h; cases h
  | some y =>
    rw [e] at h
    obtain ⟨x, h1, h2⟩ := Option.bind_eq_some_iff.mp e
    obtain ⟨s, h3, rfl⟩ := Option.map_eq_some_iff.mp h1
    exact ⟨y.1, y.2, foldlM_inv (P := fun x => LoopReads v c x.1 x.2) (fun x a y hx h => readCmd_reads hx h) l
      (LoopReads.boot hv h3) h2, h⟩

set_option maxRecDepth 200000 in
/-- After 6 s, the last 2 s of which without a sensor, the screen still shows the temperature of 3750 ms: 265 C. -/
example : ∃ x h, LoopReads .shipped .m88p x h ∧ x.s.menu.updReq = false ∧ x.s.menu.state = .curtemp ∧
    x.s.menu.dispErr = 0 ∧ 3000 + 2 * Speed.shipped.period + 2 * Speed.shipped.W < x.T ∧
    latest h = some (3750, 16955, true) ∧ h.length = 12 ∧ TempText 16955 [67, 46] [50, 54, 53, 67, 46] := by
  obtain ⟨x, h, hr, hp⟩ := readCmds_any (v := .shipped) (c := .m88p) (pinb := 0xFF)
    (l := cycles 8 280 0 ++ cycles 4 1023 0) (P := fun x h => x.s.menu.updReq == false &&
      decide (x.s.menu.state = .curtemp) && x.s.menu.dispErr == 0 &&
      decide (3000 + 2 * Speed.shipped.period + 2 * Speed.shipped.W < x.T) &&
      latest h == some (3750, 16955, true) && h.length == 12) validEeprom_m88p (by decide)
  simp only [Bool.and_eq_true, beq_iff_eq, decide_eq_true_eq] at hp
  obtain ⟨⟨⟨⟨⟨h1, h2⟩, h3⟩, h4⟩, h5⟩, h6⟩ := hp
  exact ⟨x, h, hr, h1, h2, h3, h4, h5, h6, 265, [50, 54, 53], by unfold NearestAway; decide, rfl, rfl, rfl⟩

private instance (x : Loop) (e : Option Ev) (y : Loop) : Decidable (UpToDateAfter x e y) := by
  unfold UpToDateAfter; infer_instance

private theorem upToDate_tick : TickCheck c UpToDateAfter := by
  intro x n y t hs h
  rcases hs.sys with ⟨h1, -⟩ | ⟨f, hf, -, hst, -⟩
  · cases h1
  · cases hf
    unfold UpToDateAfter at h ⊢
    rw [← Option.some.inj hst] at h
    exact h

set_option maxRecDepth 100000 in
/-- The bound of `C86_pending` is attained: the update requested at boot is made after 500 ms. -/
example : ∃ x y, LoopRun .shipped .m88p x ∧ Stretch .shipped .m88p UpToDateAfter x y ∧
    y.T = x.T + 2 * Speed.shipped.W := by
  have h : ((loopBoot .m88p 0xFF).bind fun x => (loopCmds .shipped .m88p UpToDateAfter x
      (samples 50 280 ++ [.pause 200, .reset, .pause 250])).map fun y => (x, y)).any
      (fun z => z.2.T == z.1.T + 2 * Speed.shipped.W) = true := by decide
  obtain ⟨z, e, hz⟩ := (Option.any_eq_true _ _).mp h
  obtain ⟨x, h1, h2⟩ := Option.bind_eq_some_iff.mp e
  obtain ⟨y, h3, rfl⟩ := Option.map_eq_some_iff.mp h2
  exact ⟨x, y, loopBoot_run h1 validEeprom_m88p, loopCmds_stretch upToDate_tick h3, by simpa using hz⟩

end Verif.Props
