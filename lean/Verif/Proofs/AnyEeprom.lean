import Verif.Spec.AnyEeprom
import Verif.Proofs.Effects
/-
What holds in the running firmware whatever the EEPROM contains.
-/
namespace Verif
open Spec

/-- the part of the invariant that does not depend on the settings -/
structure AnyInv (s : Sys) : Prop where
  mcurr : 0 ≤ s.mcurr.prevFeedback ∧ s.mcurr.prevFeedback ≤ 3200
  mt : -1280 ≤ s.mtPrev ∧ s.mtPrev ≤ 32000
  fb : s.ct.feedback = s.mtPrev
  cc : CcInv s.cc s.ocr
  emerg : s.ct.emergency = true → s.cc.pid.setpoint = 0
  restr : s.cc.restricted = decide (s.mtPrev < 6400)

/-- a step of something else than the measurement -/
structure Still (s s' : Sys) : Prop where
  ocr : s'.ocr = s.ocr
  mtPrev : s'.mtPrev = s.mtPrev
  mcurr : s'.mcurr = s.mcurr
  emerg : s'.ct.emergency = s.ct.emergency
  feedback : s'.ct.feedback = s.ct.feedback
  cc : stripSp s'.cc = stripSp s.cc
  sp : s'.cc.pid.setpoint = s.cc.pid.setpoint ∨ s'.cc.pid.setpoint = 0

theorem Still.refl (s : Sys) : Still s s := ⟨rfl, rfl, rfl, rfl, rfl, rfl, Or.inl rfl⟩

theorem Quiet.still {s s' : Sys} (h : Quiet s s') : Still s s' :=
  ⟨h.ocr, h.mtPrev, h.mcurr, h.emerg, h.feedback, h.cc, h.sp.imp (·.1) id⟩

theorem Still.cc_eq {s s' : Sys} (h : Still s s') :
    s'.cc = { s.cc with pid := { s.cc.pid with setpoint := s'.cc.pid.setpoint } } := by
  have e := h.cc
  unfold stripSp at e
  have e2 : ({ ({ s'.cc with pid := { s'.cc.pid with setpoint := 0 } } : ContrCurr) with
      pid := { ({ s'.cc with pid := { s'.cc.pid with setpoint := 0 } } : ContrCurr).pid with
        setpoint := s'.cc.pid.setpoint } } : ContrCurr) = s'.cc := rfl
  rw [e] at e2
  exact e2.symm

theorem Still.emerg' {s s' : Sys} (h : Still s s') : s'.cc.emerg = s.cc.emerg :=
  (congrArg ContrCurr.emerg h.cc :)

theorem CcInv.setpoint {cc : ContrCurr} {ocr w : Int} (h : CcInv cc ocr) (hw : 0 ≤ w ∧ w ≤ 3200) :
    CcInv { cc with pid := { cc.pid with setpoint := w } } ocr :=
  { h with
    sp := hw
    range := { h.range with sp := ⟨hw.1, by show w ≤ 30720; omega⟩ } }

theorem AnyInv.still {s s' : Sys} (h : AnyInv s) (hs : Still s s') : AnyInv s' where
  mcurr := by rw [hs.mcurr]; exact h.mcurr
  mt := by rw [hs.mtPrev]; exact h.mt
  fb := by rw [hs.feedback, hs.mtPrev]; exact h.fb
  cc := by
    rw [hs.cc_eq, hs.ocr]
    refine h.cc.setpoint ?_
    rcases hs.sp with e | e
    · rw [e]; exact h.cc.sp
    · rw [e]; decide
  emerg := by
    rw [hs.emerg]
    intro he
    rcases hs.sp with e | e
    · rw [e]; exact h.emerg he
    · exact e
  restr := by
    have e : s'.cc.restricted = s.cc.restricted := by rw [hs.cc_eq]
    rw [e, hs.mtPrev]
    exact h.restr

theorem tempToAmps_range {y a : Int} (h : tempToAmps y = some a) : 0 ≤ a ∧ a ≤ 3200 := by
  unfold tempToAmps at h
  obtain ⟨x, -, h⟩ := Option.bind_eq_some_iff.mp h
  cases h
  unfold fixptClamp CURR_NEGLIM CURR_POSLIM
  simp only []
  split_ifs <;> omega

/-- what a processed temperature does, whatever the settings are -/
theorem AnyInv.tempFeedback {s s' : Sys} {r : Int} (h : AnyInv { s with ct := { s.ct with feedback := r } })
    (e : contrtempSetFeedback s r = some s') : AnyInv s' := by
  unfold contrtempSetFeedback at e
  obtain ⟨u, hu⟩ : ∃ u, (if r ≠ s.ct.feedback then
      menuRequestUpdate { s with ct := { s.ct with feedback := r } } else s) =
      { s with ct := { s.ct with feedback := r }, menu := { s.menu with updReq := u } } := by
    split
    · exact ⟨true, rfl⟩
    · rename_i h
      rw [ne_eq, not_not] at h
      subst h
      exact ⟨s.menu.updReq, rfl⟩
  simp only [hu] at e
  generalize hg : ({ s with ct := { s.ct with feedback := r }, menu := { s.menu with updReq := u } } : Sys) = t at e
  have ht : AnyInv t := by rw [← hg]; exact { h with }
  clear h hg hu
  unfold contrtempRun at e
  split at e
  · cases e; exact ht
  split at e
  · cases e; exact ht
  rename_i hen hem
  obtain ⟨dt, ed, e⟩ := Option.bind_eq_some_iff.mp e
  obtain ⟨⟨pid', y⟩, ep, e⟩ := Option.bind_eq_some_iff.mp e
  obtain ⟨a, ea, e⟩ := Option.bind_eq_some_iff.mp e
  have ha := tempToAmps_range ea
  have key : ∀ (fl : BitVec 8) (w : Int), 0 ≤ w ∧ w ≤ 3200 →
      ((contrcurrSetEmerg { t with ct := { t.ct with dtTimer := timerSetNow t.now, pid := pid' } } fl).bind
        fun s => some (contrcurrSetSetpoint s w)) = some s' → AnyInv s' := by
    intro fl w hw e
    obtain ⟨o, e1, hcc⟩ := contrcurrSetEmerg_ok
      (s := { t with ct := { t.ct with dtTimer := timerSetNow t.now, pid := pid' } }) fl ht.cc
    rw [e1, Option.bind_some] at e
    cases e
    exact { mcurr := ht.mcurr, mt := ht.mt, fb := ht.fb, cc := hcc.setpoint hw,
            emerg := fun hh => absurd (show t.ct.emergency = true from hh) hem, restr := ht.restr }
  simp only [] at e
  by_cases hr : r > 30720
  · simp only [if_pos hr] at e
    exact key _ CURR_NEGLIM (by decide) e
  · simp only [if_neg hr] at e
    exact key _ a ha e

theorem AnyInv.tempResult {s s' : Sys} {p : Int} {pl : Plaus} (h : AnyInv s) (hp : -1280 ≤ p ∧ p ≤ 32000)
    (e : meastempResult s p pl = some s') : AnyInv s' := by
  have hset : ∀ b, AnyInv (contrtempSetEmerg s b) := by
    intro b
    unfold contrtempSetEmerg contrtempDoSetEmerg
    split
    · simp only []
      split
      · exact { h with cc := h.cc.setpoint (w := 0) (by decide), emerg := fun _ => rfl, restr := h.restr }
      · rename_i hb
        exact { h with emerg := fun hh => absurd hh hb }
    · exact h
  unfold meastempResult at e
  cases pl with
  | plausible =>
    have h1 := hset false
    refine AnyInv.tempFeedback ?_ e
    exact { mcurr := h1.mcurr, mt := hp, fb := rfl, cc := { h1.cc with }, emerg := h1.emerg, restr := rfl }
  | notPlausible =>
    refine AnyInv.tempFeedback ?_ e
    exact { h with fb := rfl }
  | timeout =>
    cases e
    exact hset true

theorem AnyInv.currResult {s s' : Sys} {p : Int} {pl : Plaus} (h : AnyInv s) (hp : 0 ≤ p ∧ p ≤ 3200)
    (e : meascurrResult s p pl = some s') :
    AnyInv s' ∧ s'.ct = s.ct ∧ s'.mtPrev = s.mtPrev ∧
      s'.cc.emerg = pl.pick (s.cc.emerg &&& ~~~1#8) s.cc.emerg (s.cc.emerg ||| 1#8) ∧
      (Programmed s s' ∨ s'.ocr = 0x1FFF) := by
  unfold meascurrResult at e
  have run : ∀ (fl : BitVec 8) (q r : Int) (o : Int), CcInv { s.cc with emerg := fl } o → 0 ≤ r ∧ r ≤ 3200 →
      0 ≤ q ∧ q ≤ 3200 →
      ((contrcurrSetFeedback { s with cc := { s.cc with emerg := fl }, ocr := o, mcurr := { s.mcurr with prevFeedback := q } } r).bind
        fun s => some { s with mcurr := { s.mcurr with initialized := true } }) = some s' →
      AnyInv s' ∧ s'.ct = s.ct ∧ s'.mtPrev = s.mtPrev ∧ s'.cc.emerg = fl ∧ (Programmed s s' ∨ s'.ocr = 0x1FFF) := by
    intro fl q r o hcc hr hq e
    obtain ⟨cc', ocr', e1, h1, h2, h3, h4, y, y1, y2, y3, y4, y5⟩ := contrcurrSetFeedback_ok
      (s := { s with cc := { s.cc with emerg := fl }, ocr := o, mcurr := { s.mcurr with prevFeedback := q } }) hcc hr
    rw [e1, Option.bind_some] at e
    cases e
    exact ⟨{ mcurr := hq, mt := h.mt, fb := h.fb, cc := h1, emerg := fun hh => h2.trans (h.emerg hh), restr := h3.trans h.restr },
      rfl, rfl, h4, Or.inl ⟨y, y1, y2, y3, y4, y5⟩⟩
  cases pl with
  | plausible =>
    obtain ⟨o, e1, hcc⟩ := contrcurrSetEmerg_ok (s := s) (s.cc.emerg &&& ~~~1#8) h.cc
    simp only [e1, Option.bind_eq_bind, Option.bind_some] at e
    exact run _ p p o hcc hp hp e
  | notPlausible =>
    obtain ⟨o, e1, hcc⟩ := contrcurrSetEmerg_ok (s := s) s.cc.emerg h.cc
    simp only [e1, Option.bind_eq_bind, Option.bind_some] at e
    exact run _ s.mcurr.prevFeedback _ o hcc h.mcurr h.mcurr e
  | timeout =>
    obtain ⟨o, e1, hcc⟩ := contrcurrSetEmerg_ok (s := s) (s.cc.emerg ||| 1#8) h.cc
    simp only [e1, Option.bind_eq_bind, Option.bind_some] at e
    cases e
    refine ⟨{ h with cc := hcc, emerg := h.emerg, restr := h.restr }, rfl, rfl, rfl, Or.inr (hcc.off ?_)⟩
    show s.cc.emerg ||| 1#8 ≠ 0
    generalize s.cc.emerg = x
    revert x
    decide

/-- whatever the adjustment, a reading is reported within the limits of its channel -/
theorem measPlaus_clip {c : Conf} {cfg : MeasConfig} (hle : cfg.negLim ≤ cfg.posLim) {now phys p : Int} {ch ch' : MeasChan}
    {pl : Plaus} (e : measPlaus c cfg now ch phys = some (ch', p, pl)) : cfg.negLim ≤ p ∧ p ≤ cfg.posLim := by
  have tail : ∀ (ch1 : MeasChan) (p1 : Int) (pl1 : Plaus), cfg.negLim ≤ p1 ∧ p1 ≤ cfg.posLim →
      ((do
        let ch ← if pl1 ≠ .plausible ∧ !ch1.timerRunning then do
            let t ← timerArm now cfg.timeoutMs
            pure { ch1 with timer := t, timerRunning := true }
          else pure ch1
        let ch := if ch.timerRunning && timerExpired now ch.timer then { ch with plausTimeout := true }
                  else ch
        return (ch, p1, if ch.plausTimeout then .timeout else pl1)) :
          Option (MeasChan × Int × Plaus)) = some (ch', p, pl) → cfg.negLim ≤ p ∧ p ≤ cfg.posLim := by
    intro ch1 p1 pl1 h1 e
    simp only [] at e
    split at e
    · obtain ⟨x, -, e⟩ := Option.bind_eq_some_iff.mp e
      cases e
      exact h1
    · cases e
      exact h1
  have mid : ∀ q : Int, ((do
      let (ch, phys, plaus) :=
        if q < cfg.negLim then (ch, cfg.negLim, Plaus.notPlausible)
        else if q > cfg.posLim then (ch, cfg.posLim, Plaus.notPlausible)
        else ({ ch with timerRunning := false, plausTimeout := false }, q, Plaus.plausible)
      let ch ← if plaus ≠ .plausible ∧ !ch.timerRunning then do
          let t ← timerArm now cfg.timeoutMs
          pure { ch with timer := t, timerRunning := true }
        else pure ch
      let ch := if ch.timerRunning && timerExpired now ch.timer then { ch with plausTimeout := true }
                else ch
      return (ch, phys, if ch.plausTimeout then .timeout else plaus)) :
          Option (MeasChan × Int × Plaus)) = some (ch', p, pl) → cfg.negLim ≤ p ∧ p ≤ cfg.posLim := by
    intro q e
    by_cases h1 : q < cfg.negLim
    · simp only [if_pos h1] at e
      exact tail _ _ _ ⟨by omega, hle⟩ e
    · by_cases h2 : q > cfg.posLim
      · simp only [if_neg h1, if_pos h2] at e
        exact tail _ _ _ ⟨hle, by omega⟩ e
      · simp only [if_neg h1, if_neg h2] at e
        exact tail { ch with timerRunning := false, plausTimeout := false } q .plausible ⟨by omega, by omega⟩ e
  unfold measPlaus at e
  simp only [] at e
  split at e
  · obtain ⟨q, -, e⟩ := Option.bind_eq_some_iff.mp e
    exact mid q e
  · exact mid phys e

/-- the evaluation of a measurement, whatever the settings are -/
theorem AnyInv.measure {c : Conf} {s s' : Sys} (h : AnyInv s) (hr : s.meas.resultAvail = true)
    (e : measureWork c s = some s') : AnyInv s' ∧
      ((s.meas.active = 0 ∧ s'.ct = s.ct ∧ (∃ pl : Plaus, s'.cc.emerg =
          pl.pick (s.cc.emerg &&& ~~~1#8) s.cc.emerg (s.cc.emerg ||| 1#8)) ∧
        (Programmed s s' ∨ s'.ocr = 0x1FFF)) ∨
      (s.meas.active = 1 ∧ ∃ p pl, TempEff s s' p pl)) := by
  unfold measureWork at e
  simp only [hr, if_true] at e
  obtain ⟨⟨m, mc, phys, plaus⟩, e1, e⟩ := Option.bind_eq_some_iff.mp e
  simp only [] at e
  unfold measHandle at e1
  obtain ⟨cfg, f1, e1⟩ := Option.bind_eq_some_iff.mp e1
  obtain ⟨raw, -, e1⟩ := Option.bind_eq_some_iff.mp e1
  simp only [] at f1 e1
  generalize hmc : (if s.meas.active = 0 then meascurrFilter s.mcurr raw else (s.mcurr, raw)) = x at e1
  have hpf : x.1.prevFeedback = s.mcurr.prevFeedback := by
    rw [← hmc]
    split
    · unfold meascurrFilter
      rfl
    · rfl
  obtain ⟨v, -, e1⟩ := Option.bind_eq_some_iff.mp e1
  split at e1
  case isFalse => cases e1
  rename_i hact
  obtain ⟨⟨ch, q, pl⟩, f2, e1⟩ := Option.bind_eq_some_iff.mp e1
  cases e1
  have hcase : s.meas.active = 0 ∨ s.meas.active = 1 := by omega
  have h1 : ∀ m, AnyInv { s with meas := m, mcurr := x.1 } := fun m => { h with mcurr := (by rw [hpf]; exact h.mcurr) }
  rcases hcase with ha | ha
  · have hcfg : cfg = meascurrConfig := by
      unfold measConfig at f1
      rw [if_pos ha] at f1
      cases f1; rfl
    subst hcfg
    have hq := measPlaus_clip (by decide) f2
    rw [if_neg (by rw [ha]; decide)] at e
    obtain ⟨t, e2, e⟩ := Option.bind_eq_some_iff.mp e
    obtain ⟨m', -, e⟩ := Option.bind_eq_some_iff.mp e
    cases e
    obtain ⟨k1, k2, k3, k4, k5⟩ := (h1 _).currResult (p := q) ⟨hq.1, hq.2⟩ e2
    exact ⟨{ k1 with }, Or.inl ⟨ha, k2, ⟨pl, k4⟩, k5⟩⟩
  · have hcfg : cfg = meastempConfig c := by
      unfold measConfig at f1
      rw [if_neg (by omega), if_pos ha] at f1
      cases f1; rfl
    subst hcfg
    have hq := measPlaus_clip (by show (-1280 : Int) ≤ 32000; decide) f2
    rw [if_pos ha] at e
    obtain ⟨t, e2, e⟩ := Option.bind_eq_some_iff.mp e
    obtain ⟨m', -, e⟩ := Option.bind_eq_some_iff.mp e
    cases e
    have hx : x.1 = s.mcurr := by rw [← hmc, if_neg (by omega)]
    have k1 := (h1 _).tempResult (p := q) ⟨hq.1, hq.2⟩ e2
    have k2 := meastempResult_eff e2
    refine ⟨{ k1 with }, Or.inr ⟨ha, q, pl, { k2 with mcurr := k2.mcurr.trans hx, run := fun a b d => ?_ }⟩⟩
    exact { k2.run a b d with }

/-- one step, whatever the settings are -/
theorem AnyInv.step {c : Conf} {s s' : Sys} {e : Ev} (h : AnyInv s) (hs : step c s e = some s') : AnyInv s' ∧
    (Still s s' ∨ (e = .measureWork ∧ s.meas.resultAvail = true ∧
      ((s.meas.active = 0 ∧ s'.ct = s.ct ∧ (∃ pl : Plaus, s'.cc.emerg =
          pl.pick (s.cc.emerg &&& ~~~1#8) s.cc.emerg (s.cc.emerg ||| 1#8)) ∧
        (Programmed s s' ∨ s'.ocr = 0x1FFF)) ∨
      (s.meas.active = 1 ∧ ∃ p pl, TempEff s s' p pl)))) := by
  have st : Still s s' → AnyInv s' ∧ (Still s s' ∨ (e = .measureWork ∧ s.meas.resultAvail = true ∧
      ((s.meas.active = 0 ∧ s'.ct = s.ct ∧ (∃ pl : Plaus, s'.cc.emerg =
          pl.pick (s.cc.emerg &&& ~~~1#8) s.cc.emerg (s.cc.emerg ||| 1#8)) ∧
        (Programmed s s' ∨ s'.ocr = 0x1FFF)) ∨
      (s.meas.active = 1 ∧ ∃ p pl, TempEff s s' p pl)))) := fun k => ⟨h.still k, Or.inl k⟩
  cases e with
  | tick => cases hs; exact st ⟨rfl, rfl, rfl, rfl, rfl, rfl, Or.inl rfl⟩
  | adc raw => cases hs; exact st ⟨rfl, rfl, rfl, rfl, rfl, rfl, Or.inl rfl⟩
  | eeIsr =>
    obtain ⟨set, -, hs⟩ := Option.bind_eq_some_iff.mp hs
    cases hs
    exact st ⟨rfl, rfl, rfl, rfl, rfl, rfl, Or.inl rfl⟩
  | eeDone => cases hs; exact st ⟨rfl, rfl, rfl, rfl, rfl, rfl, Or.inl rfl⟩
  | measureWork =>
    cases hav : s.meas.resultAvail with
    | false =>
      have hs : Verif.measureWork c s = some s' := hs
      have hm : ({ s.meas with resultAvail := false } : Meas) = s.meas := by rw [← hav]
      unfold Verif.measureWork at hs
      simp only [hav, hm, Bool.false_eq_true, if_false, Option.some.injEq] at hs
      subst hs
      exact ⟨h, Or.inl (Still.refl _)⟩
    | true =>
      obtain ⟨k1, k2⟩ := h.measure hav hs
      exact ⟨k1, Or.inr ⟨rfl, rfl, k2⟩⟩
  | menuWork => exact st (Quiet.menuWork c s _ hs).still
  | displayWork =>
    obtain ⟨pd, -, hs⟩ := Option.bind_eq_some_iff.mp hs
    cases hs
    exact st ⟨rfl, rfl, rfl, rfl, rfl, rfl, Or.inl rfl⟩
  | buttonsWork pinb => exact st (Quiet.buttonsWork c s pinb _ hs).still
  | settingsWork => cases hs; exact st ⟨rfl, rfl, rfl, rfl, rfl, rfl, Or.inl rfl⟩

/-- `contrtemp_init` needs nothing of the settings but an existing active preset -/
theorem bootTemp_any {c : Conf} {s : Sys} :
    (s.set.cache.active < 6 → ∃ ct', contrtempInit c s = some { s with
        ct := ct'
        cc := { s.cc with pid := { s.cc.pid with setpoint := 0 } }
        menu := { s.menu with updReq := true } } ∧ ct'.emergency = false ∧ ct'.feedback = s.ct.feedback) ∧
    (¬ s.set.cache.active < 6 → contrtempInit c s = none) := by
  constructor
  · intro ha
    have e : s.set.cache.presetsGet = some s.set.cache.sp[s.set.cache.active] := by
      unfold Settings.presetsGet
      exact Vector.getElem?_eq_getElem ha
    unfold contrtempInit contrtempDoSetEnabled contrtempSetBoost
    simp only [e, Option.bind_eq_bind, Option.bind_some]
    have e0 : s.set.cache.k[0]? = some s.set.cache.k[0] := rfl
    simp only [e0, Option.bind_some]
    cases c.boost
    · exact ⟨_, rfl, rfl, rfl⟩
    · exact ⟨_, rfl, rfl, rfl⟩
  · intro ha
    have e : s.set.cache.presetsGet = none := by
      unfold Settings.presetsGet
      exact Vector.getElem?_eq_none (by omega)
    unfold contrtempInit
    simp only [e, Option.bind_eq_bind, Option.bind_none]

theorem measureStart_ok {c : Conf} {s : Sys} (h : s.meas.active = 0) : ∃ m, measureStart c s = some { s with meas := m } := by
  unfold measureStart adcTriggerNext
  have e : ringNext s.meas.active 1 = 1 := by rw [h]; decide
  have e1 : measConfig c 1 = some (meastempConfig c) := rfl
  simp only [e, e1, Option.bind_eq_bind, Option.bind_some]
  rw [timerArm_eq s.now (ms := (meastempConfig c).avgMs) (by show (0 : Int) ≤ 50; decide) (by show (50 : Int) ≤ 32767; decide)]
  exact ⟨_, rfl⟩

/-- booting from an EEPROM with any content -/
theorem bootTail_any {c : Conf} {pinb : BitVec 8} {s : Sys} {p : Ports} {d : Display}
    (e1 : displayEnable 0 bootPorts Display.zero true = some (p, d))
    (hz : s = { zeroSys s.set with ports := p, disp := d, btn := { prev := 0, debounce := 0 } }) :
    (s.set.cache.active < 6 → Safe (bootTail c pinb s) AnyInv) ∧
    (¬ s.set.cache.active < 6 → bootTail c pinb s = none) := by
  have z1 : s.now = 0 := by rw [hz]; rfl
  have z2 : s.meas = zeroMeas := by rw [hz]; rfl
  have z3 : s.mcurr.prevFeedback = 0 := by rw [hz]; rfl
  have z4 : s.mtPrev = 0 := by rw [hz]; rfl
  have z5 : s.cc = (zeroSys s.set).cc := by rw [hz]; rfl
  have z6 : s.ct.feedback = 0 := by rw [hz]; rfl
  have z7 : s.menu.state = .curtemp := by rw [hz]; rfl
  have z8 : s.ports = p := by rw [hz]
  have z9 : s.disp = d := by rw [hz]
  clear hz
  obtain ⟨hm, m, em, hav, hac, -, -⟩ := zeroMeas_inv c (meascurrInit s) z2
  have ec := bootCurr (s := { meascurrInit s with meas := m }) z5 z1
  obtain ⟨t1, t2⟩ := bootTemp_any (c := c)
    (s := { { meascurrInit s with meas := m } with cc := bootCc, ocr := 0x1FFF })
  refine ⟨fun ha => ?_, fun ha => ?_⟩
  · obtain ⟨ct', et, hem, hfb⟩ := t1 ha
    unfold bootTail
    simp only [em, ec, et, Option.bind_eq_bind, Option.bind_some]
    generalize hg : pwmcurrInit _ = s2
    have g : AnyInv s2 ∧ s2.now = 0 ∧ s2.meas.active = 0 ∧ s2.ports = bootPwm p ∧ s2.disp = d ∧ s2.menu.state = .curtemp := by
      rw [← hg]
      refine ⟨⟨?_, ?_, ?_, bootCc_inv, ?_, ?_⟩, z1, hac, ?_, z9, z7⟩
      · show 0 ≤ s.mcurr.prevFeedback ∧ s.mcurr.prevFeedback ≤ 3200
        rw [z3]; decide
      · show -1280 ≤ s.mtPrev ∧ s.mtPrev ≤ 32000
        rw [z4]; decide
      · show ct'.feedback = s.mtPrev
        rw [hfb, z4]; exact z6
      · intro hh
        exact absurd (show ct'.emergency = true from hh) (by rw [hem]; decide)
      · show true = decide (s.mtPrev < 6400)
        rw [z4]; rfl
      · show bootPwm s.ports = _
        rw [z8]
    clear hg
    obtain ⟨gi, gn, ga, gp, gd, gs⟩ := g
    have last : ∀ s3 : Sys, AnyInv s3 → s3.meas.active = 0 → Safe (measureStart c (unusedPinsInit s3)) AnyInv := by
      intro s3 h3 ha3
      obtain ⟨m, e⟩ := measureStart_ok (c := c) (s := unusedPinsInit s3) ha3
      exact ⟨_, e, { h3 with }⟩
    have plain : Safe ((menuSetState c s2 .curtemp).bind fun s => measureStart c (unusedPinsInit s)) AnyInv := by
      unfold menuSetState
      rw [if_pos gs]
      exact last s2 gi ga
    unfold menuInit
    split
    · rename_i hc
      split
      · have hio : ∃ q dd, displayEnable 0 (bootPwm p) d false = some (q, dd) := by
          obtain ⟨q, dd, j1, _⟩ := bootIo_ok (c := c) (dbg := true) (by rw [hc]; intro h; cases h)
          simp only [bootIo, e1, Option.bind_eq_bind, Option.bind_some, if_true, pure] at j1
          match e : displayEnable 0 (bootPwm p) d false with
          | none => rw [e] at j1; cases j1
          | some (a, b) => exact ⟨a, b, rfl⟩
        obtain ⟨q, dd, j1⟩ := hio
        have ed : debugEnable c s2 true = some { s2 with
            debugEn := true
            ports := { q with v := { q.v with txen := true } }
            disp := dd } := by
          unfold debugEnable
          simp only [hc, if_true, gn, gp, gd, Bool.not_true, j1, Option.bind_eq_bind,
            Option.bind_some, pure]
        simp only [ed, Option.bind_eq_bind, Option.bind_some]
        unfold menuSetState
        rw [if_neg (by rw [gs]; decide)]
        refine last _ ?_ ?_
        · exact { gi with }
        · exact ga
      · exact plain
    · exact plain
  · unfold bootTail
    simp only [em, ec, t2 ha, Option.bind_eq_bind, Option.bind_some, Option.bind_none]

theorem boot_any (c : Conf) (ee : Nat → Nat) (pinb : BitVec 8) : ∃ st, settingsInit c ee = some st ∧
    (st.cache.active < 6 → Safe (boot c ee pinb) AnyInv) ∧ (¬ st.cache.active < 6 → boot c ee pinb = none) := by
  obtain ⟨st, e0, -⟩ := settingsInit_ok c ee
  obtain ⟨p, d, e1, hp, hd⟩ := bootDisp_ok
  have hb := bootFirst c (s := buttonsInit (zeroSys st)) rfl rfl rfl rfl e1 hp hd
  refine ⟨st, e0, ?_⟩
  rw [boot_eq, e0, Option.bind_some, hb, Option.bind_some]
  exact bootTail_any (s := { buttonsInit (zeroSys st) with ports := p, disp := d }) e1 rfl

theorem Spec.RunningAny.inv {c : Conf} {s : Sys} (h : RunningAny c s) : AnyInv s := by
  obtain ⟨ee, h⟩ := h
  induction h with
  | @boot pinb s e =>
    obtain ⟨st, -, h1, h2⟩ := boot_any c ee pinb
    by_cases ha : st.cache.active < 6
    · exact (h1 ha).elim e
    · rw [h2 ha] at e; cases e
  | step _ _ hs ih => exact (ih.step hs).1

end Verif
