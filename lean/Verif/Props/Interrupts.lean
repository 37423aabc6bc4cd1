import Verif.Proofs.Commute
import Verif.Proofs.Effects
import Verif.Proofs.Lasting
import Verif.Spec.Lasting
import Verif.Props.Calm
import Verif.Model.Loop
import Verif.Spec.Interrupts
/-
Theorems: interrupts and work functions do not disturb each other (C79).
-/
namespace Verif.Props
open Verif Verif.Spec

/-- the work functions which use nothing an interrupt writes -/
private def blind : Ev → Bool
  | .menuWork | .displayWork | .buttonsWork _ => true
  | _ => false

private theorem blind_com {c : Conf} {p : IsrData} {s : Sys} {e : Ev} (he : blind e = true) :
    step c (isrSet p s) e = (step c s e).map (isrSet p) := by
  cases e with
  | menuWork => exact menuWork_com
  | buttonsWork pinb => exact buttonsWork_com pinb
  | displayWork => exact com_bindV (x := displayWork s.now s.ports s.disp) fun _ => rfl
  | _ => cases he

private def isrOf (s : Sys) : IsrData :=
  { avgCount := s.meas.avgCount, avgSum := s.meas.avgSum, resultAvail := s.meas.resultAvail, adcOn := s.meas.adcOn,
    eeOff := s.set.eeOff, eerie := s.set.eerie, eeprom := s.set.eeprom, prog := s.set.prog }

private theorem differs_iff {s t : Sys} : DiffersByIsr s t ↔ t = isrSet (isrOf t) s := by
  constructor
  · intro h
    obtain ⟨tn, tset, tm, t1, t2, t3, t4, t5, t6, t7, t8, t9, ta⟩ := t
    obtain ⟨m1, m2, m3, m4, m5, m6, m7⟩ := tm
    obtain ⟨s1, s2, s3, s4, s5, s6, s7, s8⟩ := tset
    cases h.now; cases h.mcurr; cases h.mtPrev; cases h.cc; cases h.ct; cases h.ocr; cases h.menu; cases h.btn
    cases h.disp; cases h.ports; cases h.debugEn
    have a1 := h.chan; have a2 := h.active; have a3 := h.avgTimer
    have b1 := h.storeTimer; have b2 := h.storeRequest; have b3 := h.cache; have b4 := h.eeIndex
    simp only at a1 a2 a3 b1 b2 b3 b4
    subst a1; subst a2; subst a3; subst b1; subst b2; subst b3; subst b4
    rfl
  · intro h
    rw [h]
    exact ⟨rfl, rfl, rfl, rfl, rfl, rfl, rfl, rfl, rfl, rfl, rfl, rfl, rfl, rfl, rfl, rfl, rfl, rfl⟩

/-- The work functions of menu, display and buttons do not use what the interrupts of the ADC and the EEPROM write:
    whatever is found there, they do the same (or are undefined alike), and leave it as it is. -/
theorem C79_blind {c : Conf} {s t : Sys} {e : Ev} (he : e = .menuWork ∨ e = .displayWork ∨ ∃ pinb, e = .buttonsWork pinb)
    (h : DiffersByIsr s t) :
    (step c t e = none ↔ step c s e = none) ∧
    ∀ s' t', step c s e = some s' → step c t e = some t' → DiffersByIsr s' t' ∧ KeepsIsr s s' ∧ KeepsIsr t t' := by
  have hb : blind e = true := by rcases he with rfl | rfl | ⟨p, rfl⟩ <;> rfl
  have hs : step c s e = (step c s e).map (isrSet (isrOf s)) := blind_com (p := isrOf s) hb
  have ht : step c t e = (step c s e).map (isrSet (isrOf t)) := by
    have h1 : step c (isrSet (isrOf t) s) e = _ := blind_com hb
    rwa [← differs_iff.mp h] at h1
  constructor
  · rw [ht]; exact Option.map_eq_none_iff
  · intro s' t' es et
    rw [es] at hs ht
    rw [ht] at et
    have hs' : s' = isrSet (isrOf s) s' := Option.some.inj hs
    have ht' : isrSet (isrOf t) s' = t' := Option.some.inj et
    refine ⟨?_, ?_, ?_⟩
    · rw [← ht']
      exact ⟨rfl, rfl, rfl, rfl, rfl, rfl, rfl, rfl, rfl, rfl, rfl, rfl, rfl, rfl, rfl, rfl, rfl, rfl⟩
    · rw [hs']
      exact ⟨rfl, rfl, rfl, rfl, rfl, rfl, rfl, rfl⟩
    · rw [← ht']
      exact ⟨rfl, rfl, rfl, rfl, rfl, rfl, rfl, rfl⟩

/-- the work functions of menu, display and buttons keep what the ADC interrupt reads -/
private theorem blind_keeps {c : Conf} {s s' : Sys} {e : Ev} (he : blind e = true) (hs : step c s e = some s') :
    KeepsIsr s s' := by
  have h : step c s e = (step c s e).map (isrSet (isrOf s)) := blind_com (p := isrOf s) he
  rw [hs] at h
  have h : s' = isrSet (isrOf s) s' := Option.some.inj h
  rw [h]
  exact ⟨rfl, rfl, rfl, rfl, rfl, rfl, rfl, rfl⟩

/-- what the ADC interrupt does, as an update -/
private theorem adc_set {c : Conf} {s t : Sys} (raw : Nat) (h : KeepsIsr s t) (hn : t.now = s.now)
    (ha : t.meas.avgTimer = s.meas.avgTimer) :
    step c t (.adc raw) = some (isrSet (isrOf { s with meas := adcIsr s.now s.meas raw }) t) := by
  have hp : isrOf { s with meas := adcIsr s.now s.meas raw } = isrOf { t with meas := adcIsr t.now t.meas raw } := by
    unfold isrOf adcIsr
    simp only [hn, ha, h.avgSum, h.avgCount, h.eeOff, h.eerie, h.eeprom, h.prog]
    split <;> simp only [h.resultAvail, h.adcOn]
  rw [hp]
  unfold step adcIsr
  simp only []
  split <;> rfl

/-- what the end of programming does, as an update -/
private theorem done_set {c : Conf} {s t : Sys} (h : KeepsIsr s t) :
    step c t .eeDone = some (isrSet (isrOf { s with set := eeProgDone s.set }) t) := by
  have hp : isrOf { s with set := eeProgDone s.set } = isrOf { t with set := eeProgDone t.set } := by
    unfold isrOf eeProgDone
    simp only [h.avgSum, h.avgCount, h.resultAvail, h.adcOn, h.prog]
    cases s.set.prog <;> simp only [h.eeOff, h.eerie, h.eeprom, h.prog]
  rw [hp]
  unfold step eeProgDone
  simp only []
  cases hq : t.set.prog with
  | none => rfl
  | some x => rfl

/-- the EEPROM interrupt does not use the request to store -/
private theorem eeIsr_other {c : Conf} (s : SettingsSt) (a : Int) (b : Bool) :
    eeIsr c { s with storeTimer := a, storeRequest := b } =
      (eeIsr c s).map fun x => { x with storeTimer := a, storeRequest := b } := by
  unfold eeIsr
  simp only []
  cases s.cache.image[s.eeOff]? with
  | none => rfl
  | some d =>
    simp only [Option.bind_eq_bind, Option.bind_some]
    by_cases hx : (if c.eering = true then s.eeIndex else 0) < c.nrEe
    · simp only [if_pos hx]
      by_cases hy : eeReadByte c s.eeprom ((if c.eering = true then s.eeIndex else 0) * 64 + s.eeOff) = d
      · simp only [if_pos hy]
        rfl
      · simp only [if_neg hy]
        rfl
    · simp only [if_neg hx]
      rfl

/-- the EEPROM interrupt leaves the request to store alone -/
private theorem eeIsr_same {c : Conf} {s x : SettingsSt} (h : eeIsr c s = some x) :
    x = { x with storeTimer := s.storeTimer, storeRequest := s.storeRequest } := by
  have h1 := eeIsr_other (c := c) s s.storeTimer s.storeRequest
  rw [show ({ s with storeTimer := s.storeTimer, storeRequest := s.storeRequest } : SettingsSt) = s from rfl, h] at h1
  exact Option.some.inj h1

/-- the end of programming and the work function of the settings -/
private theorem work_done {c : Conf} {now : Int} (s : SettingsSt) :
    (settingsWork c now (eeProgDone s)).1 = eeProgDone (settingsWork c now s).1 := by
  cases hp : s.prog with
  | none =>
    have h1 : eeProgDone s = s := by unfold eeProgDone; rw [hp]
    have h2 : (settingsWork c now s).1.prog = none := by
      rw [← hp]
      unfold settingsWork
      cases s.storeRequest <;> cases timerExpired now s.storeTimer <;> cases c.eering <;> rfl
    rw [h1]
    unfold eeProgDone
    rw [h2]
  | some x =>
    obtain ⟨a, d⟩ := x
    have h1 : eeProgDone s = { s with eeprom := fun x => if x = a then d else s.eeprom x, prog := none } := by
      unfold eeProgDone; rw [hp]
    rw [h1]
    unfold settingsWork
    simp only []
    cases hr : s.storeRequest <;> cases ht : timerExpired now s.storeTimer <;> cases c.eering <;>
      (unfold eeProgDone; simp [hp, hr])

private theorem eeIsr_keeps {c : Conf} {s x : SettingsSt} (h : eeIsr c s = some x) :
    x.cache = s.cache ∧ x.eeIndex = s.eeIndex := by
  unfold eeIsr at h
  obtain ⟨d, -, h⟩ := Option.bind_eq_some_iff.mp h
  simp only [] at h
  by_cases hx : (if c.eering = true then s.eeIndex else 0) < c.nrEe
  · rw [if_pos hx] at h
    cases h
    constructor
    · exact (apply_ite SettingsSt.cache _ _ _).trans (ite_self _)
    · exact (apply_ite SettingsSt.eeIndex _ _ _).trans (ite_self _)
  · rw [if_neg hx] at h
    cases h

private theorem isr_work {c : Conf} {now : Int} {s : SettingsSt}
    (h : s.storeRequest = true → (settingsWork c now s).1.storeRequest = false → False) :
    (eeIsr c s).map (fun x => (settingsWork c now x).1) = eeIsr c (settingsWork c now s).1 := by
  have hn : s.storeRequest = false ∨ timerExpired now s.storeTimer = false := by
    cases hr : s.storeRequest with
    | false => exact Or.inl rfl
    | true =>
      refine Or.inr ?_
      cases hx : timerExpired now s.storeTimer with
      | false => rfl
      | true =>
        refine (h hr ?_).elim
        unfold settingsWork
        simp only [hr, hx]
        cases c.eering <;> rfl
  have hw : ∀ x : SettingsSt, x = { x with storeTimer := s.storeTimer, storeRequest := s.storeRequest } →
      (settingsWork c now x).1 = x := by
    intro x hx
    have h1 : x.storeRequest = s.storeRequest := (congrArg (fun y : SettingsSt => y.storeRequest) hx :)
    have h2 : x.storeTimer = s.storeTimer := (congrArg (fun y : SettingsSt => y.storeTimer) hx :)
    unfold settingsWork
    rw [h1, h2]
    rcases hn with hn | hn
    · rw [hn]; rfl
    · rw [hn]; cases s.storeRequest <;> rfl
  rw [hw s rfl]
  cases hx : eeIsr c s with
  | none => rfl
  | some x => exact congrArg some (hw x (eeIsr_same hx))

/-- what the EEPROM interrupt does, as an update -/
private theorem ee_set {c : Conf} {s t : Sys} (h : KeepsIsr s t) (hi : t.set.eeIndex = s.set.eeIndex)
    (hc : t.set.cache = s.set.cache) :
    step c t .eeIsr = (eeIsr c s.set).map fun x => isrSet (isrOf { s with set := x }) t := by
  have hm : ∀ x : SettingsSt, isrSet (isrOf { s with set := x }) t =
      { t with set := { t.set with eeOff := x.eeOff, eerie := x.eerie, eeprom := x.eeprom, prog := x.prog } } := by
    intro x
    unfold isrSet isrOf
    simp only [← h.avgCount, ← h.avgSum, ← h.resultAvail, ← h.adcOn]
  simp only [hm]
  have ht : t.set = { s.set with storeTimer := t.set.storeTimer, storeRequest := t.set.storeRequest } := by
    simp only [← hi, ← hc, ← h.eeOff, ← h.eerie, ← h.eeprom, ← h.prog]
  show (eeIsr c t.set).bind _ = _
  rw [ht, eeIsr_other]
  cases hx : eeIsr c s.set with
  | none => rfl
  | some x =>
    obtain ⟨h1, h2⟩ := eeIsr_keeps hx
    simp only [Option.map_some, Option.bind_some, ← h1, ← h2]
    rfl

/-- an interrupt which, before and after a work function, makes the same update -/
private theorem commute {c : Conf} {s : Sys} {e f : Ev} (he : blind e = true) {u : Option IsrData}
    (hf : ∀ t, t = s ∨ step c s e = some t → step c t f = u.map fun p => isrSet p t) : EitherOrder c s f e := by
  unfold EitherOrder
  rw [hf s (Or.inl rfl)]
  cases u with
  | none =>
    cases ht : step c s e with
    | none => rfl
    | some t => exact (hf t (Or.inr ht)).symm
  | some p =>
    show step c (isrSet p s) e = _
    rw [blind_com he]
    cases ht : step c s e with
    | none => rfl
    | some t => exact (hf t (Or.inr ht)).symm

/-- **C79**: an interrupt of the ADC may come before or after a call of the work functions of menu, display, buttons and
    settings; the result is the same. -/
theorem C79_adc (c : Conf) (s : Sys) (h : Running c s) (raw : Nat) (e : Ev)
    (he : e = .menuWork ∨ e = .displayWork ∨ (∃ pinb, e = .buttonsWork pinb) ∨ e = .settingsWork) :
    EitherOrder c s (.adc raw) e := by
  have hb : blind e = true ∨ e = .settingsWork := by rcases he with rfl | rfl | ⟨p, rfl⟩ | rfl <;> simp [blind]
  rcases hb with hb | rfl
  · refine commute hb (u := some (isrOf { s with meas := adcIsr s.now s.meas raw })) fun t ht => ?_
    rcases ht with rfl | ht
    · exact adc_set raw ⟨rfl, rfl, rfl, rfl, rfl, rfl, rfl, rfl⟩ rfl rfl
    · refine adc_set raw (blind_keeps hb ht) (step_now (Running.inv h) ht (by rintro rfl; cases hb)) ?_
      have := step_meas (Running.inv h) ht (by rintro x rfl; cases hb) (by rintro ⟨rfl, -⟩; cases hb)
      exact (congrArg (fun m : Meas => m.avgTimer) this :)
  · rfl

/-- **C79**: while the ADC can interrupt, `measure_work` has nothing to evaluate: it changes nothing. -/
theorem C79_adc_measure (c : Conf) (s : Sys) (h : Running c s) (raw : Nat) (hp : possible s (.adc raw) = true) :
    step c s .measureWork = some s := by
  have hon : s.meas.adcOn = true := by
    simp only [possible, Bool.and_eq_true] at hp
    exact hp.1.1
  have hav := (Running.inv h).meas.conv hon
  show measureWork c s = _
  unfold measureWork
  rw [hav]
  have hm : ({ s.meas with resultAvail := false } : Meas) = s.meas := by rw [← hav]
  simp only [hm]
  rfl

private theorem measure_com {c : Conf} {s : Sys} {f : Ev} {u : Option SettingsSt}
    (hf : ∀ t : Sys, t.set = s.set → step c t f = u.map fun q => setSet q t) : EitherOrder c s f .measureWork := by
  have hk : ∀ t, step c s .measureWork = some t → t.set = s.set := by
    intro t ht
    have h1 : measureWork c (setSet s.set s) = _ := measureWork_com
    rw [show setSet s.set s = s from rfl, show measureWork c s = some t from ht] at h1
    have h1 : t = setSet s.set t := Option.some.inj h1
    rw [h1]; rfl
  unfold EitherOrder
  rw [hf s rfl]
  cases u with
  | none =>
    cases ht : step c s .measureWork with
    | none => rfl
    | some t => exact (hf t (hk t ht)).symm
  | some q =>
    show measureWork c (setSet q s) = _
    rw [measureWork_com]
    cases ht : step c s .measureWork with
    | none => rw [show measureWork c s = none from ht]; rfl
    | some t => rw [show measureWork c s = some t from ht]; exact (hf t (hk t ht)).symm

/-- **C79**: the end of the programming of an EEPROM byte may come before or after a call of any work function. -/
theorem C79_eeDone (c : Conf) (s : Sys) (e : Ev) (he : e.isIsr = false) : EitherOrder c s .eeDone e := by
  have hb : blind e = true ∨ e = .settingsWork ∨ e = .measureWork := by
    cases e <;> first | (cases he; done) | simp [blind]
  rcases hb with hb | rfl | rfl
  · refine commute hb (u := some (isrOf { s with set := eeProgDone s.set })) fun t ht => ?_
    rcases ht with rfl | ht
    · exact done_set ⟨rfl, rfl, rfl, rfl, rfl, rfl, rfl, rfl⟩
    · exact done_set (blind_keeps hb ht)
  · show some _ = some _
    simp only [work_done]
  · refine measure_com (u := some (eeProgDone s.set)) fun t ht => ?_
    show some _ = some _
    rw [ht]; rfl

/-- **C79**: the EEPROM interrupt may come before or after a call of a work function which does not change the settings
    and does not start a store. -/
theorem C79_eeIsr (c : Conf) (s : Sys) (h : Running c s) (e : Ev) (he : e.isIsr = false)
    (hc : ∀ t, step c s e = some t → t.set.cache = s.set.cache ∧ ¬ StartsStore s t) : EitherOrder c s .eeIsr e := by
  have hb : blind e = true ∨ e = .settingsWork ∨ e = .measureWork := by
    cases e <;> first | (cases he; done) | simp [blind]
  rcases hb with hb | rfl | rfl
  · refine commute hb (u := (eeIsr c s.set).map fun x => isrOf { s with set := x }) fun t ht => ?_
    rw [Option.map_map]
    rcases ht with rfl | ht
    · exact ee_set ⟨rfl, rfl, rfl, rfl, rfl, rfl, rfl, rfl⟩ rfl rfl
    · refine ee_set (blind_keeps hb ht) ?_ (hc t ht).1
      rcases step_set (Running.inv h) ht with ⟨_, rfl, -⟩ | ⟨rfl, -⟩ | ⟨rfl, -⟩ | h | ⟨x, -, h⟩
      · cases hb
      · cases hb
      · cases hb
      · rw [h]
      · rw [h]; rfl
  · have hw := isr_work (c := c) (now := s.now) (s := s.set) fun h1 h2 => (hc _ rfl).2 ⟨h1, h2⟩
    unfold EitherOrder
    have h1 : ∀ t : Sys, step c t .eeIsr = (eeIsr c t.set).bind fun x => some (setSet x t) := fun _ => rfl
    have h2 : ∀ t : Sys, step c t .settingsWork = some (setSet (settingsWork c t.now t.set).1 t) := fun _ => rfl
    simp only [h2, Option.bind_some]
    rw [h1, h1]
    have h3 : (setSet (settingsWork c s.now s.set).1 s).set = (settingsWork c s.now s.set).1 := rfl
    rw [h3, ← hw]
    cases eeIsr c s.set <;> rfl
  · refine measure_com (u := eeIsr c s.set) fun t ht => ?_
    show (eeIsr c t.set).bind _ = _
    rw [ht]
    cases eeIsr c s.set <;> rfl

/-! ### concrete cases -/

set_option maxRecDepth 100000 in
/-- The sample which completes the first averaging window, and the call of `menu_work` which shows the first screen. -/
example : ∃ s, Running .m88p s ∧ possible s (.adc 280) = true ∧
    (∃ t, step .m88p s (.adc 280) = some t ∧ t.meas.resultAvail = true) ∧
    (∃ t, step .m88p s .menuWork = some t ∧ s.menu.updReq = true ∧ t.menu.updReq = false) := by
  obtain ⟨s, h, hp⟩ := demo_any (c := .m88p) (pinb := 0xFF) validEeprom_m88p (es := ticks 60)
    (P := fun s => possible s (.adc 280) && ((step .m88p s (.adc 280)).any (fun t => t.meas.resultAvail) &&
      ((step .m88p s .menuWork).any (fun t => s.menu.updReq && !t.menu.updReq)))) (by decide)
  simp only [Bool.and_eq_true] at hp
  obtain ⟨t, h1, h2⟩ := (Option.any_eq_true _ _).mp hp.2.1
  obtain ⟨u, h3, h4⟩ := (Option.any_eq_true _ _).mp hp.2.2
  simp only [Bool.and_eq_true, Bool.not_eq_true'] at h4
  exact ⟨s, h, hp.1, ⟨t, h1, h2⟩, u, h3, h4⟩

set_option maxRecDepth 100000 in
/-- In the middle of a store, plus is pressed: the ramp gets ready, the settings stay as they are (so far). -/
example : ∃ x : Loop, Running .m88p x.s ∧ possible x.s .eeIsr = true ∧ x.s.set.eeOff = 52 ∧
    (∃ t, step .m88p x.s (.buttonsWork 0xEF) = some t ∧ t.set.cache = x.s.set.cache ∧ ¬ StartsStore x.s t ∧
      x.s.menu.ramp = .none ∧ t.menu.ramp = .preUp) := by
  let cmds : List Cmd := samples 20 280 ++ round 0xEF ++ samples 20 280 ++ round 0xFF ++ samples 10 280 ++ [.pause 10] ++
    round 0xEF ++ samples 5 0 ++ [.pause 15] ++ round 0xFF ++ cycles 2 280 0
  have h : ((loopBoot .m88p 0xFF).bind fun x => (loopCmds .shipped .m88p Never x cmds).bind fun y =>
      (loopDrive .shipped .m88p Never 74 y).bind fun z => (loopCmds .shipped .m88p Never z
        [.reset, .ev .measureWork, .ev .menuWork, .ev .displayWork]).bind fun x =>
      (step .m88p x.s (.buttonsWork 0xEF)).map fun t => possible x.s .eeIsr && decide (x.s.set.eeOff = 52 ∧
        t.set.cache = x.s.set.cache ∧ t.set.storeRequest = x.s.set.storeRequest ∧ x.s.menu.ramp = .none ∧
        t.menu.ramp = .preUp)) = some true := by decide
  obtain ⟨b, hb, h⟩ := Option.bind_eq_some_iff.mp h
  obtain ⟨y, k1, h⟩ := Option.bind_eq_some_iff.mp h
  obtain ⟨z, k2, h⟩ := Option.bind_eq_some_iff.mp h
  obtain ⟨x, k3, h⟩ := Option.bind_eq_some_iff.mp h
  obtain ⟨t, ht, h⟩ := Option.map_eq_some_iff.mp h
  simp only [Bool.and_eq_true, decide_eq_true_eq] at h
  have hx : LoopLife .shipped .m88p x := ((loopCmds_stretch never_tick k1).trans
    ((loopDrive_stretch never_tick 74 k2).trans (loopCmds_stretch never_tick k3))).life (loopBoot_life hb)
  obtain ⟨r, S, hi⟩ := hx.inv (by unfold Speed.Sane; decide)
  have hr : Running .m88p x.s := (lasting_inv hi.last).1
  refine ⟨x, hr, h.1, h.2.1, t, ht, h.2.2.1, ?_, h.2.2.2.2⟩
  rintro ⟨h1, h2⟩
  rw [h.2.2.2.1, h1] at h2
  cases h2

end Verif.Props
