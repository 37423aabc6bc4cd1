import Verif.Props.Measure
/-
Property theorems about the current measurement over its history of readings (C32, C33) and about the
averaging time (C63).
-/
namespace Verif.Props
open Verif Verif.Spec

/-! ### C32: the current -/

private theorem smooth_range {xs : List Int} (h : ∀ x ∈ xs, 0 ≤ x ∧ x ≤ 1023) :
    (0 ≤ (smooth xs).1 ∧ (smooth xs).1 ≤ 16368) ∧ 0 ≤ (smooth xs).2 ∧ (smooth xs).2 ≤ 1023 := by
  induction xs with
  | nil => decide
  | cons x xs ih =>
    have hx := h x (List.mem_cons_self ..)
    cases xs with
    | nil =>
      show (0 ≤ x ∧ x ≤ 16368) ∧ 0 ≤ x ∧ x ≤ 1023
      omega
    | cons y ys =>
      have := (ih fun z hz => h z (List.mem_cons_of_mem _ hz)).1
      show (0 ≤ (smooth (y :: ys)).1 - (smooth (y :: ys)).1 / 16 + x ∧ _ ≤ _) ∧
        0 ≤ ((smooth (y :: ys)).1 - (smooth (y :: ys)).1 / 16 + x) / 16 ∧ _ ≤ _
      show (_ ∧ (smooth (y :: ys)).1 - (smooth (y :: ys)).1 / 16 + x ≤ 16368) ∧
        _ ∧ ((smooth (y :: ys)).1 - (smooth (y :: ys)).1 / 16 + x) / 16 ≤ 1023
      omega

theorem filter_smooth {mc : MeasCurr} {xs : List Int} {x : Int} (h : ∀ y ∈ xs, 0 ≤ y ∧ y ≤ 1023)
    (hx : 0 ≤ x ∧ x ≤ 1023) (h0 : xs = [] → mc.initialized = false)
    (h1 : xs ≠ [] → mc.initialized = true ∧ mc.filter = (smooth xs).1) :
    (meascurrFilter mc x).1.filter = (smooth (x :: xs)).1 ∧
      (meascurrFilter mc x).2 = (smooth (x :: xs)).2 := by
  unfold meascurrFilter
  cases xs with
  | nil =>
    rw [h0 rfl]
    refine ⟨rfl, ?_⟩
    show cMin x 1023 = x
    unfold cMin; split <;> omega
  | cons y ys =>
    obtain ⟨i1, i2⟩ := h1 (by simp)
    have hr := (smooth_range h).1
    rw [i1, i2]
    generalize ha : (smooth (y :: ys)).1 = a at *
    have e := lpU16Run_eq (b := a) (x := x) (M := 1023) (s := 4) (by decide) (by decide) hr.1
      (by rw [show (1023 * 2 ^ 4 : Int) = 16368 by decide]; exact hr.2) hx.1 hx.2
    rw [show (2 ^ 4 : Int) = 16 by decide] at e
    unfold lpStep at e
    have e2 : smooth (x :: y :: ys) = (a - a / 16 + x, (a - a / 16 + x) / 16) := by
      show ((smooth (y :: ys)).1 - (smooth (y :: ys)).1 / 16 + x,
        ((smooth (y :: ys)).1 - (smooth (y :: ys)).1 / 16 + x) / 16) = _
      rw [ha]
    rw [e2]
    simp only [if_true, e]
    refine ⟨trivial, ?_⟩
    unfold cMin; split <;> omega

theorem CurrValue.unique {raw v w : Int} (h1 : CurrValue raw v) (h2 : CurrValue raw w) : v = w :=
  NearestAway.unique (by decide) h1 h2

/-- what is known about the current measurement -/
structure CurrMem (s : Sys) (xs : List Int) : Prop where
  fb : s.mcurr.prevFeedback = s.cc.feedback
  rng : ∀ x ∈ xs, 0 ≤ x ∧ x ≤ 1023
  fresh : xs = [] → s.mcurr.initialized = false
  filt : xs ≠ [] → s.mcurr.initialized = true ∧ s.mcurr.filter = (smooth xs).1

/-- the evaluation of a current -/
theorem currEval {c : Conf} {s s' : Sys} {xs : List Int} {p : Int} {pl : Plaus} (hi : Inv c s)
    (hav : s.meas.resultAvail = true) (ha : s.meas.active = 0) (hk : CurrMem s xs) (hm : MeasEff c s s' p pl) :
    ∃ v ch f, CurrReady s xs v ∧ (pl = .plausible ↔ PlausibleCurr v) ∧ LimitedTo 0 (5 * 640) v p ∧
      plausStep meascurrConfig s.now s.meas.chan[0] v = some (ch, p, pl) ∧
      s'.meas.chan = s.meas.chan.set 0 ch ∧ CurrMem s' (s.meas.avgSum / s.meas.avgCount :: xs) ∧
      CurrEff { s with mcurr := { s.mcurr with filter := f } } s' p pl := by
  obtain ⟨ch, f, t, e, he⟩ := hm.meas
  have hf := hm.filt _ _ e
  obtain ⟨k1, v, hv, ⟨h1, h2⟩, ch', h3, h4⟩ := measHandle_curr e ha hi.meas.sum hi.meas.cnt.1 hi.meas.adj0
  have k1 : ({ s.mcurr with filter := f } : MeasCurr) =
    (meascurrFilter s.mcurr (s.meas.avgSum / s.meas.avgCount)).1 := k1
  have hv : CurrValue (meascurrFilter s.mcurr (s.meas.avgSum / s.meas.avgCount)).2 v := hv
  have hcnt := hi.meas.avail hav
  have hx : 0 ≤ s.meas.avgSum / s.meas.avgCount ∧ s.meas.avgSum / s.meas.avgCount ≤ 1023 :=
    ⟨Int.ediv_nonneg hi.meas.sum.1 (by omega), Int.ediv_le_of_le_mul hcnt hi.meas.sum.2⟩
  obtain ⟨g1, g2⟩ := filter_smooth hk.rng hx hk.fresh hk.filt
  rw [g2] at hv
  obtain ⟨-, f', hc⟩ := hm.curr ha
  refine ⟨v, ch', f', ⟨hav, ha, hv⟩, h1, h2, h3, by rw [he]; exact h4, ⟨?_, ?_, fun hh => (by cases hh), fun _ => ?_⟩, hc⟩
  · rw [hc.prev, hc.feedback]
    have := hk.fb
    cases pl
    · rfl
    · rfl
    · exact this
  · intro x hx'
    rcases List.mem_cons.mp hx' with rfl | hx'
    · exact hx
    · exact hk.rng x hx'
  · refine ⟨hc.init, ?_⟩
    rw [hf, k1, g1]

theorem CurrMem.same {s s' : Sys} {xs : List Int} (h : CurrMem s xs) (h1 : s'.mcurr = s.mcurr)
    (h2 : s'.cc.feedback = s.cc.feedback) : CurrMem s' xs :=
  ⟨by rw [h1, h2]; exact h.fb, h.rng, by rw [h1]; exact h.fresh, by rw [h1]; exact h.filt⟩

theorem currHist_inv {c : Conf} {s : Sys} {T : Nat} {xs : List Int} {h : List (Nat × Bool)}
    (ht : CurrHist c s T xs h) : Running c s ∧ s.now = nowAt T ∧ CurrMem s xs := by
  induction ht with
  | boot hv e =>
    obtain ⟨-, st, -, b, t, hb, -, rfl⟩ := (boot_ok hv).elim e
    refine ⟨Running.boot hv e, hb.now, ⟨?_, by simp, fun _ => hb.init, fun hh => absurd rfl hh⟩⟩
    show b.mcurr.prevFeedback = b.cc.feedback
    rw [hb.mcurr, hb.cc]
    rfl
  | @tick s s' T xs h _ hs ih =>
    obtain ⟨i1, i2, i3⟩ := ih
    refine ⟨i1.step (e := .tick) rfl hs, ?_, ?_⟩
    · cases hs
      show timerTick s.now = _
      rw [i2]
      unfold timerTick nowAt toU16
      omega
    · cases hs
      exact i3.same rfl rfl
  | @reads s s' T xs h v b _ hr hb hs ih =>
    obtain ⟨i1, i2, i3⟩ := ih
    have hi := Running.inv i1
    rcases measureWork_eff hi hs with ⟨h, -⟩ | ⟨-, p, pl, hm⟩
    · rw [hr.1] at h; cases h
    obtain ⟨_, _, _, -, -, -, -, -, k, -⟩ := currEval hi hr.1 hr.2.1 i3 hm
    exact ⟨i1.step rfl hs, hm.now.trans i2, k⟩
  | @other s e s' T xs h _ hp hs hn hne ih =>
    obtain ⟨i1, i2, i3⟩ := ih
    have hi := Running.inv i1
    refine ⟨i1.step hp hs, (step_now hi hs hn).trans i2, ?_⟩
    rcases step_eff hi hs with ⟨-, hc⟩ | ⟨h1, h2, p, pl, hm⟩
    · exact i3.same hc.mcurr (congrArg ContrCurr.feedback hc.cc :)
    · have ha : s.meas.active = 1 := by
        have := hi.meas.act
        by_contra hh
        exact hne ⟨h1, h2, by omega⟩
      obtain ⟨w, hw⟩ := (hm.temp ha).cc
      exact i3.same (hm.temp ha).mcurr (congrArg ContrCurr.feedback hw :)

/-- The evaluation of a current in the running firmware: its value is the smoothed mean reading, with
    0..65 as 0..1.1 A.  A value from 0 A to 5 A becomes the current controller's feedback; any other
    value leaves the feedback as it is. -/
theorem C32_current (c : Conf) (s s' : Sys) (T : Nat) (xs : List Int) (h : List (Nat × Bool))
    (hh : CurrHist c s T xs h) (hr : s.meas.resultAvail = true) (ha : s.meas.active = 0)
    (hs : step c s .measureWork = some s') :
    ∃ v, CurrReady s xs v ∧ (∀ x ∈ s.meas.avgSum / s.meas.avgCount :: xs, 0 ≤ x ∧ x ≤ 1023) ∧
      (PlausibleCurr v → s'.cc.feedback = v) ∧ (¬ PlausibleCurr v → s'.cc.feedback = s.cc.feedback) := by
  obtain ⟨i1, -, i3⟩ := currHist_inv hh
  have hi := Running.inv i1
  rcases measureWork_eff hi hs with ⟨h, -⟩ | ⟨-, p, pl, hm⟩
  · rw [hr] at h; cases h
  obtain ⟨v, ch, f, h1, h2, h3, -, -, k, hc⟩ := currEval hi hr ha i3 hm
  refine ⟨v, h1, k.rng, fun hp => ?_, fun hp => ?_⟩
  · obtain rfl := h2.mpr hp
    rw [hc.feedback]
    show p = v
    unfold LimitedTo at h3
    unfold PlausibleCurr at hp
    omega
  · rw [hc.feedback]
    cases pl
    · exact absurd (h2.mp rfl) hp
    · exact i3.fb
    · rfl

/-- The same for a temperature: a plausible value becomes the temperature controller's feedback, any
    other value leaves it as it is. -/
theorem C32_temperature (c : Conf) (s s' : Sys) (v : Int) (h : Running c s) (hv : TempReady c s v)
    (hs : step c s .measureWork = some s') :
    (PlausibleTemp v → s'.ct.feedback = v) ∧ (¬ PlausibleTemp v → s'.ct.feedback = s.ct.feedback) := by
  have key : s.mtPrev = s.ct.feedback := by
    clear hv hs
    induction h with
    | boot hv e =>
      obtain ⟨-, st, -, b, t, hb, -, rfl⟩ := (boot_ok hv).elim e
      exact hb.mt.trans hb.fb.symm
    | @step s e s' hr hp hs ih =>
      have hi := Running.inv hr
      rcases step_eff hi hs with ⟨-, hc⟩ | ⟨h1, h2, p, pl, hm⟩
      · rw [hc.mtPrev, hc.feedback]; exact ih
      · have hact : s.meas.active = 0 ∨ s.meas.active = 1 := by have := hi.meas.act; omega
        rcases hact with ha | ha
        · obtain ⟨-, f, hc⟩ := hm.curr ha
          rw [hc.ct, hc.mtPrev]
          exact ih
        · rw [(hm.temp ha).mtPrev, (hm.temp ha).feedback]
          cases pl
          · rfl
          · rfl
          · exact ih
  have hi := Running.inv h
  obtain ⟨hav, ha, hval⟩ := hv
  rcases step_eff hi hs with ⟨h1, -⟩ | ⟨-, -, p, pl, hm⟩
  · exact absurd ⟨rfl, hav⟩ h1
  obtain ⟨w, ⟨-, -, hw⟩, ⟨h1, h2⟩, -⟩ := hm.tempValue hi hav ha
  obtain rfl := TempValue.unique hval hw
  have hf := (hm.temp ha).feedback
  refine ⟨fun hp => ?_, fun hp => ?_⟩
  · obtain rfl := h1.mpr hp
    rw [hf]
    exact h2.2.2.2.2 hp.1 hp.2
  · rw [hf]
    cases pl
    · exact absurd (h1.mp rfl) hp
    · exact key
    · rfl

/-- what a run has as its history of currents -/
private theorem currHist_run {c : Conf} {es : List Ev} {s s' : Sys} {T : Nat} {xs : List Int}
    {h : List (Nat × Bool)} (ht : CurrHist c s T xs h) (hd : (T :: h.map (·.1)).Pairwise (· ≥ ·))
    (e : runOk c s es = some s') :
    ∃ xs' h', CurrHist c s' (T + es.count .tick) xs' h' ∧ xs'.length = h'.length ∧
      ((T + es.count .tick) :: h'.map (·.1)).Pairwise (· ≥ ·) := by
  induction es generalizing s T xs h with
  | nil =>
    cases e
    refine ⟨xs, h, ht, ?_, hd⟩
    clear hd
    induction ht with
    | boot => rfl
    | tick _ _ ih => exact ih
    | reads _ _ _ _ ih => rw [List.length_cons, List.length_cons, ih]
    | other _ _ _ _ _ ih => exact ih
  | cons x es ih =>
    unfold runOk at e
    split at e
    · rename_i hp
      obtain ⟨t, e1, e2⟩ := Option.bind_eq_some_iff.mp e
      by_cases hx : x = .tick
      · subst hx
        rw [List.count_cons_self, show T + (es.count .tick + 1) = T + 1 + es.count .tick by omega]
        exact ih (ht.tick e1) (by
          rw [List.pairwise_cons] at hd ⊢
          exact ⟨fun a ha => by have := hd.1 a ha; omega, hd.2⟩) e2
      · rw [List.count_cons_of_ne (by exact hx)]
        by_cases hy : x = .measureWork ∧ s.meas.resultAvail = true ∧ s.meas.active = 0
        · obtain ⟨rfl, y1, y2⟩ := hy
          obtain ⟨i1, -, i3⟩ := currHist_inv ht
          have hi := Running.inv i1
          rcases step_eff hi e1 with ⟨h1, -⟩ | ⟨-, -, p, pl, hm⟩
          · exact absurd ⟨rfl, y1⟩ h1
          obtain ⟨w, _, _, hw, -⟩ := currEval hi y1 y2 i3 hm
          have hd' : (T :: T :: h.map (·.1)).Pairwise (· ≥ ·) := by
            rw [List.pairwise_cons]
            refine ⟨fun a ha => ?_, hd⟩
            rcases List.mem_cons.mp ha with rfl | ha
            · exact le_refl _
            · exact (List.pairwise_cons.mp hd).1 a ha
          by_cases hpl : PlausibleCurr w
          · exact ih (ht.reads (b := true) hw ⟨fun _ => hpl, fun _ => rfl⟩ e1) hd' e2
          · exact ih (ht.reads (b := false) hw ⟨fun hh => (by cases hh), fun hh => absurd hh hpl⟩ e1) hd' e2
        · exact ih (ht.other hp e1 hx hy) hd e2
    · cases e

set_option maxRecDepth 100000 in
/-- readings of 40 and 60 have been evaluated, a reading of 200 is waiting; smoothed it is 18, 0.3 A -/
example : (∃ s T xs h, CurrHist .m88p s T xs h ∧ s.meas.resultAvail = true ∧ s.meas.active = 0 ∧
      s.meas.avgSum / s.meas.avgCount = 200 ∧ s.cc.feedback = 65) ∧
    smooth [200, 60, 40] = (292, 18) ∧ CurrValue 18 195 ∧ CurrValue 6 65 := by
  refine ⟨?_, by decide, by unfold CurrValue NearestAway; decide, by unfold CurrValue NearestAway; decide⟩
  have hr : (demo .m88p 0xFF (reading 50 280 ++ reading 5 40 ++ reading 50 280 ++ reading 5 60 ++
      reading 50 280 ++ ticks 5 ++ [.adc 200])).any (fun s => s.meas.resultAvail && s.meas.active == 0 &&
        s.meas.avgSum / s.meas.avgCount == 200 && s.cc.feedback == 65) = true := by decide
  match e : demo .m88p 0xFF (reading 50 280 ++ reading 5 40 ++ reading 50 280 ++ reading 5 60 ++
      reading 50 280 ++ ticks 5 ++ [.adc 200]) with
  | none => rw [e] at hr; cases hr
  | some s =>
    rw [e] at hr
    obtain ⟨b, e1, e2⟩ := Option.bind_eq_some_iff.mp e
    obtain ⟨xs, h, j1, -⟩ := currHist_run (CurrHist.boot validEeprom_m88p e1) (by simp) e2
    simp only [Option.any_some, Bool.and_eq_true, beq_iff_eq] at hr
    exact ⟨s, _, xs, h, j1, hr.1.1.1, hr.1.1.2, hr.1.2, hr.2⟩

/-! ### C33: the current -/

/-- In the running firmware: after every event, the "no current reading" flag of the current controller
    is set, which keeps the heater off (C36), exactly if the latest evaluated current was implausible and
    all currents of the 3000 ms before it were. -/
theorem C33_current_lost (c : Conf) (s : Sys) (T : Nat) (xs : List Int) (h : List (Nat × Bool))
    (ht : CurrHist c s T xs h) (hg : GapsOk (h.map (·.1))) :
    s.cc.emerg.getLsbD 0 = true ↔ ∃ t, disturbedSince h = some t ∧ 3000 ≤ (h.map (·.1)).headD 0 - t := by
  suffices hh : Remembers s.meas.chan[0] h ∧
      (s.cc.emerg.getLsbD 0 = true ↔ ∃ t, disturbedSince h = some t ∧ 3000 ≤ lastTime h - t) from hh.2
  induction ht with
  | boot hv e =>
    obtain ⟨-, st, -, b, t, hb, -, rfl⟩ := (boot_ok hv).elim e
    refine ⟨⟨fun _ => hb.fresh0, fun t hh => by cases hh⟩, ?_⟩
    show b.cc.emerg.getLsbD 0 = true ↔ _
    rw [hb.cc]
    exact ⟨fun hh => (by cases hh), fun ⟨t, hh, _⟩ => (by cases hh)⟩
  | tick _ hs ih => cases hs; exact ih hg
  | @reads s s' T xs h v b htd hr hb hs ih =>
    obtain ⟨hrun, hnow, hmem⟩ := currHist_inv htd
    have hi := Running.inv hrun
    obtain ⟨hav, ha, hval⟩ := hr
    obtain ⟨i1, i2⟩ := ih (gaps_tail hg)
    rcases step_eff hi hs with ⟨h1, -⟩ | ⟨-, -, p, pl, hm⟩
    · exact absurd ⟨rfl, hav⟩ h1
    obtain ⟨w, ch, f, ⟨-, -, hw⟩, -, -, hst, hch, -, hc⟩ := currEval hi hav ha hmem hm
    obtain rfl := CurrValue.unique hval hw
    obtain ⟨ch', p', k1, -, k3⟩ := plaus_step (cfg := meascurrConfig) rfl (T := T) (v := v) hg i1 hb
    rw [hnow, k1] at hst
    simp only [Option.some.injEq, Prod.mk.injEq] at hst
    obtain ⟨rfl, -, hver⟩ := hst
    have hc1 : s'.meas.chan[0] = ch' := by rw [hch]; exact Vector.getElem_set_self ..
    rw [hc1]
    refine ⟨k3, ?_⟩
    have hb0 : ∀ x : BitVec 8, (x &&& ~~~1#8).getLsbD 0 = false := by decide
    have hb1 : ∀ x : BitVec 8, (x ||| 1#8).getLsbD 0 = true := by decide
    rw [hc.flags, ← hver]
    have hl : lastTime ((T, b) :: h) = T := rfl
    rw [hl]
    unfold verdict
    cases hd : disturbedSince ((T, b) :: h) with
    | none =>
      show (s.cc.emerg &&& ~~~1#8).getLsbD 0 = true ↔ _
      rw [hb0]
      exact ⟨fun hh => (by cases hh), fun ⟨t, hh, _⟩ => (by cases hh)⟩
    | some t =>
      by_cases h3 : 3000 ≤ T - t
      · simp only [if_pos h3]
        show (s.cc.emerg ||| 1#8).getLsbD 0 = true ↔ _
        rw [hb1]
        exact ⟨fun _ => ⟨t, rfl, h3⟩, fun _ => rfl⟩
      · simp only [if_neg h3]
        show s.cc.emerg.getLsbD 0 = true ↔ _
        rw [i2]
        refine ⟨fun ⟨t', j1, j2⟩ => ?_, fun ⟨t', j1, j2⟩ => (by cases j1; omega)⟩
        exfalso
        cases b with
        | true => cases hd
        | false =>
          have : disturbedSince ((T, false) :: h) = some ((disturbedSince h).getD T) := rfl
          rw [this, j1, Option.getD_some, Option.some.injEq] at hd
          have hle : lastTime h ≤ T := by
            cases h with
            | nil => cases j1
            | cons r h => exact hg.1
          omega
  | @other s e s' T xs h htd hp hs hn hne ih =>
    obtain ⟨i1, i2⟩ := ih hg
    have hi := Running.inv (currHist_inv htd).1
    have key : (s'.meas.chan[0].timerRunning = s.meas.chan[0].timerRunning ∧
        s'.meas.chan[0].timer = s.meas.chan[0].timer ∧
        s'.meas.chan[0].plausTimeout = s.meas.chan[0].plausTimeout) ∧
        s'.cc.emerg.getLsbD 0 = s.cc.emerg.getLsbD 0 := by
      rcases step_eff hi hs with ⟨-, hc⟩ | ⟨h1, h2, p, pl, hm⟩
      · exact ⟨hc.chan0, by rw [hc.cc_emerg]⟩
      · have ha : s.meas.active = 1 := by
          have := hi.meas.act
          by_contra hh
          exact hne ⟨h1, h2, by omega⟩
        obtain ⟨ch, f, t, k1, k2⟩ := hm.meas
        obtain ⟨ch', hlt, k3⟩ := measHandle_chan k1
        constructor
        · have hx : s'.meas.chan[0] = s.meas.chan[0] := by
            rw [k2]
            show ch[0] = _
            have k3 : ch = s.meas.chan.set s.meas.active ch' hlt := k3
            rw [k3]
            exact Vector.getElem_set_ne (by omega) (by omega) (by omega)
          rw [hx]
          exact ⟨rfl, rfl, rfl⟩
        · have b0 : ∀ x : BitVec 8, (x &&& ~~~2#8).getLsbD 0 = x.getLsbD 0 := by decide
          have b1 : ∀ x : BitVec 8, (x ||| 2#8).getLsbD 0 = x.getLsbD 0 := by decide
          rw [(hm.temp ha).flags]
          split
          · split
            · rw [b1]
            · rw [b0]
          · rfl
    obtain ⟨⟨x1, x2, x3⟩, x4⟩ := key
    rw [x4]
    exact ⟨⟨fun hh => by rw [x1, x3]; exact i1.calm hh,
      fun t hh => by rw [x1, x2, x3]; exact i1.busy t hh⟩, i2⟩

/-- the current input is at its maximum for a while; smoothed, it becomes implausible after some readings -/
private def currLost : List (Nat × List Ev) :=
  (List.replicate 7 [(50, [Ev.adc 280, .measureWork]), (5, [Ev.adc 1023, .measureWork])]).flatten ++
    [(3050, [.adc 280, .measureWork]), (5, [.adc 1023, .measureWork])]

set_option maxRecDepth 100000 in
/-- the flag is reached with a history of readings -/
example : ∃ s T xs h, CurrHist .m88p s T xs h ∧ GapsOk (h.map (·.1)) ∧ s.cc.emerg.getLsbD 0 = true := by
  obtain ⟨b, s, eb, es, hP⟩ := demoPaused_any (c := .m88p) (pinb := 0xFF) (l := currLost)
    (P := fun s => s.cc.emerg.getLsbD 0) validEeprom_m88p (by decide)
  obtain ⟨xs, h, j1, -, j2⟩ := currHist_run (CurrHist.boot validEeprom_m88p eb) (by simp) es
  refine ⟨s, _, xs, h, j1, ?_, hP⟩
  rw [pausedEvs_ticks, show 0 + (currLost.map fun x => x.1 + x.2.count .tick).sum = 3440 by decide,
    List.pairwise_cons] at j2
  exact gaps_of_short j2.2 fun a ha => by have := j2.1 a ha; omega

/-! ### C63: the averaging time -/

theorem window_inv {c : Conf} {s : Sys} {T a : Nat} (h : Window c s T a) :
    Running c s ∧ s.now = nowAt T ∧ s.meas.avgTimer = nowAt (a + avgTime s.meas.active) ∧ a ≤ T := by
  induction h with
  | boot hv e =>
    obtain ⟨-, st, -, b, t, hb, ⟨-, ht⟩, rfl⟩ := (boot_ok hv).elim e
    refine ⟨Running.boot hv e, hb.now, ?_, le_refl _⟩
    show t = nowAt (0 + avgTime 1)
    rw [ht]
    decide
  | @tick s s' T a _ hs ih =>
    obtain ⟨i1, i2, i3, i4⟩ := ih
    refine ⟨i1.step (e := .tick) rfl hs, ?_, ?_, by omega⟩
    · cases hs
      show timerTick s.now = _
      rw [i2]
      unfold timerTick nowAt toU16
      omega
    · cases hs; exact i3
  | @evaluated s s' T a _ hr hs ih =>
    obtain ⟨i1, i2, i3, i4⟩ := ih
    have hi := Running.inv i1
    rcases measureWork_eff hi hs with ⟨h, -⟩ | ⟨-, p, pl, hm⟩
    · rw [hr] at h; cases h
    refine ⟨i1.step rfl hs, hm.now.trans i2, ?_, le_refl _⟩
    rw [hm.window, i2]
    obtain ⟨_, _, _, -, k⟩ := hm.meas
    rw [show s'.meas.active = 1 - s.meas.active by rw [k]]
    rcases (by have := hi.meas.act; omega : s.meas.active = 0 ∨ s.meas.active = 1) with ha | ha
    · rw [ha]
      show toU16 (nowAt T + 50) = nowAt (T + 50)
      unfold nowAt toU16
      omega
    · rw [ha]
      show toU16 (nowAt T + 5) = nowAt (T + 5)
      unfold nowAt toU16
      omega
  | @other s e s' T a _ hp hs hn hne ih =>
    obtain ⟨i1, i2, i3, i4⟩ := ih
    have hi := Running.inv i1
    refine ⟨i1.step hp hs, (step_now hi hs hn).trans i2, ?_, i4⟩
    by_cases hx : ∃ x, e = .adc x
    · obtain ⟨x, rfl⟩ := hx
      cases hs
      have : (adcIsr s.now s.meas x).avgTimer = s.meas.avgTimer ∧
          (adcIsr s.now s.meas x).active = s.meas.active := by
        unfold adcIsr
        simp only []
        split <;> exact ⟨rfl, rfl⟩
      show (adcIsr s.now s.meas x).avgTimer = nowAt (a + avgTime (adcIsr s.now s.meas x).active)
      rw [this.1, this.2]
      exact i3
    · have := step_meas hi hs (fun x hh => hx ⟨x, hh⟩) hne
      rw [show s'.meas.avgTimer = s.meas.avgTimer from (congrArg Meas.avgTimer this :),
        show s'.meas.active = s.meas.active from (congrArg Meas.active this :)]
      exact i3

/-- A sample completes the measurement of the active channel exactly if the averaging time (5 ms for the
    current, 50 ms for the temperature) has passed since the channel was selected; otherwise sampling goes
    on. -/
theorem C63_window (c : Conf) (s s' : Sys) (T a x : Nat) (h : Window c s T a)
    (hp : possible s (.adc x) = true) (hs : step c s (.adc x) = some s')
    (hT : T < a + avgTime s.meas.active + 32768) :
    (s'.meas.resultAvail = true ↔ a + avgTime s.meas.active ≤ T) ∧
    s'.meas.adcOn = !s'.meas.resultAvail := by
  obtain ⟨i1, i2, i3, i4⟩ := window_inv h
  have hi := Running.inv i1
  simp only [possible, Bool.and_eq_true, decide_eq_true_eq] at hp
  have hav := hi.meas.conv hp.1.1
  have hx : timerExpired s.now s.meas.avgTimer = decide (a + avgTime s.meas.active ≤ T) := by
    rw [i2, i3, Bool.eq_iff_iff]
    have : avgTime s.meas.active ≤ 50 := by unfold avgTime; split <;> decide
    unfold timerExpired timerCountSince nowAt toU16 toS16
    simp only [ge_iff_le, decide_eq_true_eq]
    omega
  cases hs
  show ((adcIsr s.now s.meas x).resultAvail = true ↔ _) ∧ (adcIsr s.now s.meas x).adcOn =
    !(adcIsr s.now s.meas x).resultAvail
  unfold adcIsr
  simp only [hx, decide_eq_true_eq]
  split
  · rename_i h1
    exact ⟨⟨fun _ => h1, fun _ => rfl⟩, rfl⟩
  · rename_i h1
    refine ⟨⟨fun h2 => ?_, fun h2 => absurd h2 h1⟩, ?_⟩
    · have h2 : s.meas.resultAvail = true := h2
      rw [hav] at h2; cases h2
    · show s.meas.adcOn = !s.meas.resultAvail
      rw [hav, hp.1.1]
      rfl

/-- Nothing else completes a measurement. -/
theorem C63_only (c : Conf) (s s' : Sys) (e : Ev) (h : Running c s) (hs : step c s e = some s')
    (h0 : s.meas.resultAvail = false) (h1 : s'.meas.resultAvail = true) : ∃ x, e = .adc x := by
  by_contra hn
  have := step_meas (Running.inv h) hs (fun x hh => hn ⟨x, hh⟩) (fun hh => by rw [h0] at hh; cases hh.2)
  have : s'.meas.resultAvail = s.meas.resultAvail := (congrArg Meas.resultAvail this :)
  rw [h0, h1] at this
  cases this

private theorem window_run {c : Conf} {es : List Ev} {s s' : Sys} {T a : Nat} (h : Window c s T a)
    (hn : ∀ e ∈ es, e ≠ .measureWork) (e : runOk c s es = some s') :
    Window c s' (T + es.count .tick) a := by
  induction es generalizing s T with
  | nil => cases e; exact h
  | cons x xs ih =>
    unfold runOk at e
    split at e
    · rename_i hp
      obtain ⟨t, e1, e2⟩ := Option.bind_eq_some_iff.mp e
      have hn' : ∀ e ∈ xs, e ≠ .measureWork := fun y hy => hn y (List.mem_cons_of_mem _ hy)
      by_cases hx : x = .tick
      · subst hx
        rw [List.count_cons_self, show T + (xs.count .tick + 1) = T + 1 + xs.count .tick by omega]
        exact ih (h.tick e1) hn' e2
      · rw [List.count_cons_of_ne (by exact hx)]
        exact ih (h.other hp e1 hx fun hh => hn x (List.mem_cons_self ..) hh.1) hn' e2
    · cases e

set_option maxRecDepth 100000 in
/-- samples 49 ms and 50 ms after boot, with the temperature selected -/
example : (∃ s, Window .m88p s 49 0 ∧ possible s (.adc 280) = true ∧ s.meas.active = 1 ∧
      (step .m88p s (.adc 280)).any (fun s' => !s'.meas.resultAvail)) ∧
    (∃ s, Window .m88p s 50 0 ∧ possible s (.adc 280) = true ∧ s.meas.active = 1 ∧
      (step .m88p s (.adc 280)).any (fun s' => s'.meas.resultAvail)) := by
  constructor
  · have hr : (demo .m88p 0xFF ([.adc 280] ++ ticks 49)).any (fun s => possible s (.adc 280) &&
        s.meas.active == 1 && (step .m88p s (.adc 280)).any (fun s' => !s'.meas.resultAvail)) = true := by decide
    match e : demo .m88p 0xFF ([.adc 280] ++ ticks 49) with
    | none => rw [e] at hr; cases hr
    | some s =>
      rw [e] at hr
      obtain ⟨b, e1, e2⟩ := Option.bind_eq_some_iff.mp e
      have hw := window_run (Window.boot validEeprom_m88p e1) (by decide) e2
      simp only [Option.any_some, Bool.and_eq_true, beq_iff_eq] at hr
      exact ⟨s, hw, hr.1.1, hr.1.2, hr.2⟩
  · have hr : (demo .m88p 0xFF ([.adc 280] ++ ticks 50)).any (fun s => possible s (.adc 280) &&
        s.meas.active == 1 && (step .m88p s (.adc 280)).any (fun s' => s'.meas.resultAvail)) = true := by decide
    match e : demo .m88p 0xFF ([.adc 280] ++ ticks 50) with
    | none => rw [e] at hr; cases hr
    | some s =>
      rw [e] at hr
      obtain ⟨b, e1, e2⟩ := Option.bind_eq_some_iff.mp e
      have hw := window_run (Window.boot validEeprom_m88p e1) (by decide) e2
      simp only [Option.any_some, Bool.and_eq_true, beq_iff_eq] at hr
      exact ⟨s, hw, hr.1.1, hr.1.2, hr.2⟩

end Verif.Props
