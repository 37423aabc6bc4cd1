import Verif.Proofs.InvTemp
/-
Measurement keeps the invariant.
-/
namespace Verif
open Spec

/-- the averaged raw value -/
theorem measRaw_ok {m : Meas} {adj : Int} (h : MeasInv m adj) (hc : 0 < m.avgCount) :
    ∃ r, measRaw m = some r ∧ r = m.avgSum / m.avgCount ∧ 0 ≤ r ∧ r ≤ 1023 := by
  have h1 : m.avgSum / m.avgCount ≤ 1023 :=
    Int.ediv_le_of_le_mul hc h.sum.2
  have h0 : 0 ≤ m.avgSum / m.avgCount := Int.ediv_nonneg h.sum.1 (by omega)
  refine ⟨m.avgSum / m.avgCount, ?_, rfl, h0, h1⟩
  unfold measRaw
  rw [if_neg (by omega)]
  unfold toU16
  rw [Int.emod_eq_of_lt h0 (by omega)]
  rfl

theorem meascurrFilter_ok (mc : MeasCurr) {raw : Int} (h : 0 ≤ raw ∧ raw ≤ 1023) :
    ∃ f out, meascurrFilter mc raw = ({ mc with filter := f }, out) ∧ 0 ≤ out ∧ out ≤ 1023 := by
  unfold meascurrFilter
  cases mc.initialized
  · refine ⟨lpU16Set raw, cMin raw 1023, rfl, ?_⟩
    unfold cMin; split_ifs <;> omega
  · refine ⟨(lpU16Run mc.filter raw 4).1, cMin (lpU16Run mc.filter raw 4).2 1023, rfl, ?_⟩
    unfold lpU16Run cMin toU16
    simp only []
    split_ifs <;> omega

/-- physical limits of a channel -/
structure CfgOk (cfg : MeasConfig) : Prop where
  lo : -1280 ≤ cfg.negLim
  hi : cfg.posLim ≤ 32000
  le : cfg.negLim ≤ cfg.posLim
  ms : 0 ≤ cfg.timeoutMs ∧ cfg.timeoutMs ≤ 32767
  avg : 0 ≤ cfg.avgMs ∧ cfg.avgMs ≤ 32767

theorem measPlaus_ok {c : Conf} {cfg : MeasConfig} (hcfg : CfgOk cfg) (now : Int) (ch : MeasChan)
    {phys : Int} (hp : -2000000 ≤ phys ∧ phys ≤ 2000000) (ha : -6336 ≤ ch.adj ∧ ch.adj ≤ 6336) :
    ∃ ch' p' pl, measPlaus c cfg now ch phys = some (ch', p', pl) ∧ ch'.adj = ch.adj ∧
      cfg.negLim ≤ p' ∧ p' ≤ cfg.posLim := by
  have e1 : (if c.adj then fixptSub phys ch.adj else some phys) =
      some (if c.adj then phys - ch.adj else phys) := by
    split
    · rw [fixptSub_eq (by unfold S24; omega) (by unfold S24; omega), sat_eq (by omega) (by omega)]
    · rfl
  have hle := hcfg.le
  have key : ∀ (ch1 : MeasChan) (p1 : Int) (pl1 : Plaus), ch1.adj = ch.adj →
      cfg.negLim ≤ p1 → p1 ≤ cfg.posLim →
      ∃ ch' p' pl, ((do
        let ch ← if pl1 ≠ .plausible ∧ !ch1.timerRunning then do
            let t ← timerArm now cfg.timeoutMs
            pure { ch1 with timer := t, timerRunning := true }
          else pure ch1
        let ch := if ch.timerRunning && timerExpired now ch.timer then { ch with plausTimeout := true }
                  else ch
        return (ch, p1, if ch.plausTimeout then .timeout else pl1)) :
          Option (MeasChan × Int × Plaus)) = some (ch', p', pl) ∧ ch'.adj = ch.adj ∧
      cfg.negLim ≤ p' ∧ p' ≤ cfg.posLim := by
    intro ch1 p1 pl1 ha1 l1 l2
    split
    · rw [timerArm_eq _ hcfg.ms.1 hcfg.ms.2]
      refine ⟨_, _, _, rfl, ?_, l1, l2⟩
      split <;> exact ha1
    · refine ⟨_, _, _, rfl, ?_, l1, l2⟩
      split <;> exact ha1
  unfold measPlaus
  have tail : ∀ q : Int, ∃ ch' p' pl, ((do
      let (ch, phys, plaus) :=
        if q < cfg.negLim then (ch, cfg.negLim, Plaus.notPlausible)
        else if q > cfg.posLim then (ch, cfg.posLim, Plaus.notPlausible)
        else ({ ch with timerRunning := false, plausTimeout := false }, q, Plaus.plausible)
      let ch ← if plaus ≠ .plausible ∧ !ch.timerRunning then do
          let t ← timerArm now cfg.timeoutMs
          pure { ch with timer := t, timerRunning := true }
        else pure ch
      let ch := if ch.timerRunning && timerExpired now ch.timer then { ch with plausTimeout := true }
                else ch
      return (ch, phys, if ch.plausTimeout then .timeout else plaus)) :
        Option (MeasChan × Int × Plaus)) = some (ch', p', pl) ∧ ch'.adj = ch.adj ∧
      cfg.negLim ≤ p' ∧ p' ≤ cfg.posLim := by
    intro q
    by_cases h1 : q < cfg.negLim
    · simp only [if_pos h1]
      exact key ch cfg.negLim .notPlausible rfl (by omega) (by omega)
    · simp only [if_neg h1]
      by_cases h2 : q > cfg.posLim
      · simp only [if_pos h2]
        exact key ch cfg.posLim .notPlausible rfl (by omega) (by omega)
      · simp only [if_neg h2]
        exact key { ch with timerRunning := false, plausTimeout := false } q .plausible rfl
          (by omega) (by omega)
  cases hc : c.adj
  · simp only [Bool.false_eq_true, if_false]
    exact tail phys
  · rw [hc] at e1
    simp only [if_true] at e1 ⊢
    rw [e1]
    exact tail _

theorem meascurrConfig_ok : CfgOk meascurrConfig := ⟨by decide, by decide, by decide, by decide, by decide⟩

theorem meastempConfig_ok (c : Conf) : CfgOk (meastempConfig c) :=
  ⟨by simp [meastempConfig], by simp [meastempConfig], by simp [meastempConfig],
   by simp [meastempConfig], by simp [meastempConfig]⟩

theorem scaleCurr_ok {raw : Int} (h : 0 ≤ raw ∧ raw ≤ 1023) :
    ∃ p, scale (toS16 raw) (toS16 meascurrConfig.rawLo) (toS16 meascurrConfig.rawHi)
      meascurrConfig.physLo meascurrConfig.physHi = some p ∧ -2000000 ≤ p ∧ p ≤ 2000000 := by
  have e : toS16 raw = raw := by unfold toS16; omega
  rw [e]
  show ∃ p, scale raw 0 65 0 704 = some p ∧ _
  refine ⟨_, scale_eq (by decide) (by decide) (by decide) (by unfold S16; omega) (by decide)
    (by omega), ?_⟩
  have hb : 0 ≤ rdiv ((704 - 0) * (raw - 0)) (65 - 0) ∧
      rdiv ((704 - 0) * (raw - 0)) (65 - 0) ≤ 720192 := by
    rw [rdiv_pos _ _ (by decide)]; split <;> omega
  rw [sat_eq (by omega) (by omega)]
  omega

theorem scaleTemp_ok (c : Conf) {raw : Int} (h : 0 ≤ raw ∧ raw ≤ 1023) :
    ∃ p, scale (toS16 raw) (toS16 (meastempConfig c).rawLo) (toS16 (meastempConfig c).rawHi)
      (meastempConfig c).physLo (meastempConfig c).physHi = some p ∧
      -2000000 ≤ p ∧ p ≤ 2000000 := by
  have e : toS16 raw = raw := by unfold toS16; omega
  rw [e]
  cases hc : c.smd
  · have e1 : (meastempConfig c).rawLo = 209 := by simp [meastempConfig, hc]
    have e2 : (meastempConfig c).rawHi = 410 := by simp [meastempConfig, hc]
    rw [e1, e2]
    show ∃ p, scale raw 209 410 9600 30720 = some p ∧ _
    refine ⟨_, scale_eq (by decide) (by decide) (by decide) (by unfold S16; omega) (by decide)
      (by omega), ?_⟩
    have hb : -400000 ≤ rdiv ((30720 - 9600) * (raw - 209)) (410 - 209) ∧
        rdiv ((30720 - 9600) * (raw - 209)) (410 - 209) ≤ 400000 := by
      rw [rdiv_pos _ _ (by decide)]; split <;> omega
    rw [sat_eq (by omega) (by omega)]
    omega
  · have e1 : (meastempConfig c).rawLo = 210 := by simp [meastempConfig, hc]
    have e2 : (meastempConfig c).rawHi = 411 := by simp [meastempConfig, hc]
    rw [e1, e2]
    show ∃ p, scale raw 210 411 9600 30720 = some p ∧ _
    refine ⟨_, scale_eq (by decide) (by decide) (by decide) (by unfold S16; omega) (by decide)
      (by omega), ?_⟩
    have hb : -400000 ≤ rdiv ((30720 - 9600) * (raw - 210)) (411 - 210) ∧
        rdiv ((30720 - 9600) * (raw - 210)) (411 - 210) ≤ 400000 := by
      rw [rdiv_pos _ _ (by decide)]; split <;> omega
    rw [sat_eq (by omega) (by omega)]
    omega

/-- a finished averaging window is evaluated without undefined behaviour, to a value in the range
    of the channel -/
theorem measHandle_ok {c : Conf} {now : Int} {m : Meas} {mc : MeasCurr} {adj : Int}
    (h : MeasInv m adj) (hc : 0 < m.avgCount) (ha : -6336 ≤ adj ∧ adj ≤ 6336) :
    ∃ ch f p pl, measHandle c now m mc =
        some ({ m with chan := ch }, { mc with filter := f }, p, pl) ∧
      ch[0].adj = 0 ∧ ch[1].adj = adj ∧
      (m.active = 0 → 0 ≤ p ∧ p ≤ 3200) ∧ -1280 ≤ p ∧ p ≤ 32000 := by
  obtain ⟨r, er, -, hr⟩ := measRaw_ok h hc
  unfold measHandle
  by_cases h0 : m.active = 0
  · obtain ⟨f, out, ef, ho⟩ := meascurrFilter_ok mc hr
    obtain ⟨ph, ep, hp⟩ := scaleCurr_ok ho
    obtain ⟨ch', p', pl, epl, eadj, hlo, hhi⟩ := measPlaus_ok (c := c) meascurrConfig_ok now
      m.chan[0] hp (by rw [h.adj0]; decide)
    have hlo' : 0 ≤ p' := hlo
    have hhi' : p' ≤ 3200 := hhi
    refine ⟨m.chan.set 0 ch', f, p', pl, ?_, ?_, ?_, fun _ => ⟨hlo', hhi'⟩, by omega, by omega⟩
    · have e1 : measConfig c 0 = some meascurrConfig := rfl
      simp only [h0, e1, er, Option.bind_eq_bind, Option.bind_some, if_true, ef, ep]
      simp only [show (0 : Nat) < 2 by decide, dite_true, epl, Option.bind_some]
      rfl
    · rw [Vector.getElem_set_self, eadj, h.adj0]
    · rw [Vector.getElem_set_ne _ _ (by decide), h.adj1]
  · have h1 : m.active = 1 := by have := h.act; omega
    obtain ⟨ph, ep, hp⟩ := scaleTemp_ok c hr
    obtain ⟨ch', p', pl, epl, eadj, hlo, hhi⟩ := measPlaus_ok (c := c) (meastempConfig_ok c) now
      m.chan[1] hp (by rw [h.adj1]; exact ha)
    have hlo' : -1280 ≤ p' := hlo
    have hhi' : p' ≤ 32000 := hhi
    refine ⟨m.chan.set 1 ch', mc.filter, p', pl, ?_, ?_, ?_, fun hh => absurd hh h0, hlo', hhi'⟩
    · have e1 : measConfig c 1 = some (meastempConfig c) := rfl
      simp only [h1, e1, er, Option.bind_eq_bind, Option.bind_some, one_ne_zero, if_false, ep]
      simp only [show (1 : Nat) < 2 by decide, dite_true, epl, Option.bind_some]
      rfl
    · rw [Vector.getElem_set_ne _ _ (by decide), h.adj0]
    · rw [Vector.getElem_set_self, eadj, h.adj1]

/-- starting the next channel -/
theorem adcTriggerNext_timer {c : Conf} {now : Int} {m m' : Meas} (h : m.active < 2)
    (e : adcTriggerNext c now m = some m') :
    m'.avgTimer = toU16 (now + if m.active = 0 then 50 else 5) := by
  unfold adcTriggerNext at e
  rcases (by omega : m.active = 0 ∨ m.active = 1) with ha | ha
  · rw [ha] at e ⊢
    have e1 : measConfig c (ringNext 0 1) = some (meastempConfig c) := rfl
    have e2 : timerArm now (meastempConfig c).avgMs = some (toU16 (now + toU16 50)) :=
      timerArm_eq now (meastempConfig_ok c).avg.1 (meastempConfig_ok c).avg.2
    simp only [e1, e2, Option.bind_eq_bind, Option.bind_some, pure, Option.some.injEq] at e
    rw [← e]
    rfl
  · rw [ha] at e ⊢
    have e1 : measConfig c (ringNext 1 1) = some meascurrConfig := rfl
    have e2 : timerArm now meascurrConfig.avgMs = some (toU16 (now + toU16 5)) :=
      timerArm_eq now (by decide) (by decide)
    simp only [e1, e2, Option.bind_eq_bind, Option.bind_some, pure, Option.some.injEq] at e
    rw [← e]
    rfl

theorem adcTriggerNext_ok {c : Conf} {now : Int} {m : Meas} {adj : Int} (h : m.active < 2)
    (hr : m.resultAvail = false) (ha0 : m.chan[0].adj = 0) (ha1 : m.chan[1].adj = adj) :
    ∃ t, adcTriggerNext c now m = some { m with
      active := 1 - m.active, avgSum := 0, avgCount := 0, avgTimer := t, adcOn := true } ∧
      MeasInv { m with
        active := 1 - m.active, avgSum := 0, avgCount := 0, avgTimer := t, adcOn := true } adj := by
  have hn : ringNext m.active 1 = 1 - m.active := by
    unfold ringNext
    have : m.active = 0 ∨ m.active = 1 := by omega
    rcases this with e | e <;> rw [e] <;> decide
  have hcfg : ∃ cfg, measConfig c (1 - m.active) = some cfg ∧ CfgOk cfg := by
    have : m.active = 0 ∨ m.active = 1 := by omega
    rcases this with e | e <;> rw [e]
    · exact ⟨_, rfl, meastempConfig_ok c⟩
    · exact ⟨_, rfl, meascurrConfig_ok⟩
  obtain ⟨cfg, ecfg, hcfg⟩ := hcfg
  refine ⟨toU16 (now + toU16 cfg.avgMs), ?_, ?_⟩
  · simp only [adcTriggerNext, hn, ecfg, Option.bind_eq_bind, Option.bind_some,
      timerArm_eq now hcfg.avg.1 hcfg.avg.2, pure]
  · exact ⟨by show 1 - m.active < 2; omega,
      ⟨le_refl _, by show (0 : Int) ≤ 65535; decide⟩, ⟨le_refl _, by simp⟩,
      fun hh => by simp [hr] at hh, fun _ => hr, ha0, ha1⟩

theorem Inv.tempResult {c : Conf} {s : Sys} {p : Int} (pl : Plaus) (h : Inv c s)
    (hp : -1280 ≤ p ∧ p ≤ 32000) :
    Safe (meastempResult s p pl) fun s' => Inv c s' ∧ Frame s s' ∧ s'.mcurr = s.mcurr ∧
      s'.mtPrev = if pl = .plausible then p else s.mtPrev := by
  cases pl
  · obtain ⟨h1, f1, m1, m2, -⟩ := h.tempEmerg false
    have h2 : Inv c (contrcurrSetRestricted { contrtempSetEmerg s false with mtPrev := p }
        (decide (p < 6400))) :=
      { h1 with mt := hp, cc := contrcurrSetRestricted_ok _ h1.cc, restr := rfl }
    refine (h2.tempFeedback hp).mono fun s' ⟨i1, i2, i3, i4⟩ => ⟨i1, ?_, ?_, ?_⟩
    · refine f1.trans (Frame.trans ?_ i2)
      exact ⟨rfl, rfl, rfl, rfl, rfl, rfl, rfl, _, rfl⟩
    · exact i4.trans m2
    · rw [if_pos rfl]; exact i3
  · refine (h.tempFeedback h.mt).mono fun s' ⟨i1, i2, i3, i4⟩ => ⟨i1, i2, i4, ?_⟩
    rw [if_neg (by decide)]; exact i3
  · obtain ⟨h1, f1, m1, m2, -⟩ := h.tempEmerg true
    exact Safe.pure ⟨h1, f1, m2, by rw [if_neg (by decide)]; exact m1⟩

theorem Inv.currEmerg {c : Conf} {s : Sys} (flags : BitVec 8) (h : Inv c s) :
    Safe (contrcurrSetEmerg s flags) fun s' => Inv c s' ∧ Frame s s' ∧ s'.mtPrev = s.mtPrev ∧
      s'.cc = { s.cc with emerg := flags } ∧ s'.ct = s.ct := by
  obtain ⟨ocr', e, hcc⟩ := contrcurrSetEmerg_ok flags h.cc
  exact ⟨_, e, { h with cc := hcc, emerg := h.emerg, restr := h.restr },
    ⟨rfl, rfl, rfl, rfl, rfl, rfl, rfl, _, rfl⟩, rfl, rfl, rfl⟩

/-- what a processed current measurement programs -/
def Programmed (s s' : Sys) : Prop :=
  ∃ y, pwmDuty y = some s'.ocr ∧ 0 ≤ y ∧ y ≤ 3200 ∧ (s.cc.restricted = true → y ≤ 1280) ∧
    (s.cc.pid.setpoint = 0 → y ≤ 320)

theorem Inv.currFeedback {c : Conf} {s : Sys} {p : Int} (h : Inv c s) (hp : 0 ≤ p ∧ p ≤ 3200) :
    Safe (contrcurrSetFeedback s p) fun s' => Inv c s' ∧ Frame s s' ∧ s'.mtPrev = s.mtPrev ∧
      s'.ct = s.ct ∧ Programmed s s' := by
  obtain ⟨cc', ocr', e, hcc, e1, e2, -, hpr⟩ := contrcurrSetFeedback_ok h.cc hp
  exact ⟨_, e, { h with
    cc := hcc
    emerg := fun hh => (by show cc'.pid.setpoint = 0; rw [e1]; exact h.emerg hh)
    restr := (by show cc'.restricted = _; rw [e2]; exact h.restr) },
    ⟨rfl, rfl, rfl, rfl, rfl, rfl, rfl, _, rfl⟩, rfl, rfl, hpr⟩

theorem Inv.currResult {c : Conf} {s : Sys} {p : Int} (pl : Plaus) (h : Inv c s)
    (hp : 0 ≤ p ∧ p ≤ 3200) :
    Safe (meascurrResult s p pl) fun s' => Inv c s' ∧ Frame s s' ∧ s'.mtPrev = s.mtPrev ∧
      s'.ct = s.ct ∧ (Programmed s s' ∨ s'.ocr = 0x1FFF) := by
  unfold meascurrResult
  simp only []
  refine Safe.bind (h.currEmerg _) fun s1 ⟨h1, f1, m1, c1, t1⟩ => ?_
  cases pl
  · have h2 : Inv c { s1 with mcurr := { s1.mcurr with prevFeedback := p } } := { h1 with mcurr := hp }
    refine Safe.bind (h2.currFeedback hp) fun s3 ⟨h3, f3, m3, t3, y, y1, y2, y3, y4, y5⟩ =>
      Safe.pure ⟨{ h3 with }, ?_, m3.trans m1, t3.trans t1, Or.inl ⟨y, y1, y2, y3, ?_, ?_⟩⟩
    · refine f1.trans (Frame.trans ?_ (f3.trans ⟨rfl, rfl, rfl, rfl, rfl, rfl, rfl, _, rfl⟩))
      exact ⟨rfl, rfl, rfl, rfl, rfl, rfl, rfl, _, rfl⟩
    · intro hh; apply y4; show s1.cc.restricted = true; rw [c1]; exact hh
    · intro hh; apply y5; show s1.cc.pid.setpoint = 0; rw [c1]; exact hh
  · refine Safe.bind (h1.currFeedback h1.mcurr) fun s3 ⟨h3, f3, m3, t3, y, y1, y2, y3, y4, y5⟩ =>
      Safe.pure ⟨{ h3 with }, ?_, m3.trans m1, t3.trans t1, Or.inl ⟨y, y1, y2, y3, ?_, ?_⟩⟩
    · exact f1.trans (f3.trans ⟨rfl, rfl, rfl, rfl, rfl, rfl, rfl, _, rfl⟩)
    · intro hh; apply y4; show s1.cc.restricted = true; rw [c1]; exact hh
    · intro hh; apply y5; show s1.cc.pid.setpoint = 0; rw [c1]; exact hh
  · refine Safe.pure ⟨{ h1 with }, f1.trans ⟨rfl, rfl, rfl, rfl, rfl, rfl, rfl, _, rfl⟩, m1, t1,
      Or.inr ?_⟩
    refine h1.cc.off ?_
    rw [c1]
    show s.cc.emerg ||| 1#8 ≠ 0
    generalize s.cc.emerg = e
    intro hh
    have := congrArg (fun b => BitVec.getLsbD b 0) hh
    simp at this

theorem Inv.measureStart {c : Conf} {s : Sys} (h : Inv c s) (hr : s.meas.resultAvail = false) :
    Safe (do
      let m ← adcTriggerNext c s.now s.meas
      return { s with meas := m }) (Inv c) := by
  obtain ⟨t, e, hm⟩ := adcTriggerNext_ok (c := c) (now := s.now) h.meas.act hr h.meas.adj0 h.meas.adj1
  simp only [e, Option.bind_eq_bind, Option.bind_some]
  exact Safe.pure { h with meas := hm }

/-- the evaluation of a finished averaging window -/
theorem Inv.measureWork {c : Conf} {s : Sys} (h : Inv c s) :
    Safe (Verif.measureWork c s) (Inv c) := by
  unfold Verif.measureWork
  simp only []
  cases hav : s.meas.resultAvail with
  | false =>
    have hm : ({ s.meas with resultAvail := false } : Meas) = s.meas := by rw [← hav]
    refine Safe.pure ?_
    simp only [hm]
    exact h
  | true =>
    simp only [if_true]
    have had : s.meas.adcOn = false := by
      cases e : s.meas.adcOn
      · rfl
      · have := h.meas.conv e; rw [hav] at this; cases this
    have hm1 : MeasInv { s.meas with resultAvail := false } (if c.adj then s.set.cache.adj else 0) :=
      { h.meas with avail := fun hh => (by cases hh), conv := fun hh => rfl }
    have hadj : -6336 ≤ (if c.adj then s.set.cache.adj else 0) ∧
        (if c.adj then s.set.cache.adj else 0) ≤ 6336 := by
      have := h.set.lim.adj
      split <;> omega
    obtain ⟨ch, f, p, pl, e, a0, a1, hp0, hp⟩ := measHandle_ok (c := c) (now := s.now)
      (mc := s.mcurr) hm1 (h.meas.avail hav) hadj
    simp only [e, Option.bind_eq_bind, Option.bind_some]
    have h2 : Inv c { s with meas := { s.meas with resultAvail := false, chan := ch },
                             mcurr := { s.mcurr with filter := f } } :=
      { h with meas := { hm1 with adj0 := a0, adj1 := a1 } }
    split
    · refine Safe.bind (h2.tempResult pl hp) fun s3 ⟨h3, f3, _, _⟩ => ?_
      exact h3.measureStart (by rw [f3.meas])
    · rename_i ha
      have ha' : s.meas.active = 0 := by have := h.meas.act; omega
      refine Safe.bind (h2.currResult pl (hp0 ha')) fun s3 ⟨h3, f3, _, _⟩ => ?_
      exact h3.measureStart (by rw [f3.meas])

end Verif
