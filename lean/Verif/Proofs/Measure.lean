import Verif.Spec.Meas
import Verif.Proofs.Effects
/-
The values computed by the measurement.
-/
namespace Verif
open Spec

/-- the plausibility check of one adjusted reading -/
def plausStep (cfg : MeasConfig) (now : Int) (ch : MeasChan) (v : Int) :
    Option (MeasChan × Int × Plaus) :=
  if v < cfg.negLim ∨ cfg.posLim < v then
    (if ch.timerRunning then some ch
     else (timerArm now cfg.timeoutMs).map fun t => { ch with timer := t, timerRunning := true }).map
      fun ch => ({ ch with plausTimeout := ch.plausTimeout || timerExpired now ch.timer },
        (if v < cfg.negLim then cfg.negLim else cfg.posLim),
        if ch.plausTimeout || timerExpired now ch.timer then Plaus.timeout else .notPlausible)
  else some ({ ch with timerRunning := false, plausTimeout := false }, v, .plausible)

theorem plausTail (ch : MeasChan) (now v : Int) (h : ch.timerRunning = true) :
    (some ((if ch.timerRunning && timerExpired now ch.timer then { ch with plausTimeout := true } else ch),
      v, if (if ch.timerRunning && timerExpired now ch.timer then
        { ch with plausTimeout := true } else ch).plausTimeout then Plaus.timeout
        else Plaus.notPlausible) : Option (MeasChan × Int × Plaus)) =
    some ({ ch with plausTimeout := ch.plausTimeout || timerExpired now ch.timer }, v,
      if ch.plausTimeout || timerExpired now ch.timer then Plaus.timeout else .notPlausible) := by
  obtain ⟨a, b, r, t⟩ := ch
  cases h
  cases hx : timerExpired now t <;> simp

theorem measPlaus_eq (c : Conf) (cfg : MeasConfig) (now : Int) (ch : MeasChan) (phys : Int) :
    measPlaus c cfg now ch phys =
      (if c.adj then fixptSub phys ch.adj else some phys).bind (plausStep cfg now ch) := by
  have key : ∀ v, (do
      let (ch, phys, plaus) :=
        if v < cfg.negLim then (ch, cfg.negLim, Plaus.notPlausible)
        else if v > cfg.posLim then (ch, cfg.posLim, Plaus.notPlausible)
        else ({ ch with timerRunning := false, plausTimeout := false }, v, Plaus.plausible)
      let ch ← if plaus ≠ .plausible ∧ !ch.timerRunning then do
          let t ← timerArm now cfg.timeoutMs
          pure { ch with timer := t, timerRunning := true }
        else pure ch
      let ch := if ch.timerRunning && timerExpired now ch.timer then { ch with plausTimeout := true }
                else ch
      return (ch, phys, if ch.plausTimeout then .timeout else plaus)) = plausStep cfg now ch v := by
    intro v
    unfold plausStep
    by_cases h1 : v < cfg.negLim
    · simp only [if_pos h1, if_pos (Or.inl h1)]
      cases hr : ch.timerRunning
      · simp only [ne_eq, reduceCtorEq, not_false_eq_true, Bool.not_false, and_self, if_true,
          Bool.false_eq_true, if_false]
        cases timerArm now cfg.timeoutMs with
        | none => rfl
        | some t => exact plausTail { ch with timer := t, timerRunning := true } now _ rfl
      · simp only [ne_eq, reduceCtorEq, not_false_eq_true, Bool.not_true, Bool.false_eq_true, and_false,
          if_false, if_true]
        exact plausTail ch now cfg.negLim hr
    · by_cases h2 : v > cfg.posLim
      · simp only [if_neg h1, if_pos h2, if_pos (Or.inr h2)]
        cases hr : ch.timerRunning
        · simp only [ne_eq, reduceCtorEq, not_false_eq_true, Bool.not_false, and_self, if_true,
            Bool.false_eq_true, if_false]
          cases timerArm now cfg.timeoutMs with
          | none => rfl
          | some t => exact plausTail { ch with timer := t, timerRunning := true } now _ rfl
        · simp only [ne_eq, reduceCtorEq, not_false_eq_true, Bool.not_true, Bool.false_eq_true, and_false,
            if_false, if_true]
          exact plausTail ch now cfg.posLim hr
      · simp only [if_neg h1, if_neg h2]
        have h3 : ¬ (v < cfg.negLim ∨ cfg.posLim < v) := fun h => h.elim h1 h2
        rw [if_neg h3]
        rfl
  unfold measPlaus
  cases c.adj
  · simp only [Bool.false_eq_true, if_false]
    exact key phys
  · simp only [if_true]
    cases fixptSub phys ch.adj with
    | none => rfl
    | some v => exact key v

/-- adjustment, limits and plausibility of one reading -/
theorem measPlaus_value {c : Conf} {cfg : MeasConfig} {now phys p : Int} {ch ch' : MeasChan} {pl : Plaus}
    (e : measPlaus c cfg now ch phys = some (ch', p, pl)) (hl : cfg.negLim ≤ cfg.posLim) :
    (pl = .plausible ↔ cfg.negLim ≤ (if c.adj then sat (phys - ch.adj) else phys) ∧
      (if c.adj then sat (phys - ch.adj) else phys) ≤ cfg.posLim) ∧
    LimitedTo cfg.negLim cfg.posLim (if c.adj then sat (phys - ch.adj) else phys) p := by
  rw [measPlaus_eq] at e
  obtain ⟨v, ev, e⟩ := Option.bind_eq_some_iff.mp e
  have hv : v = if c.adj then sat (phys - ch.adj) else phys := by
    split at ev
    · rename_i hc; rw [if_pos hc]; exact fixptSub_inv ev
    · rename_i hc; rw [if_neg hc]; exact (Option.some.inj ev).symm
  rw [← hv]
  unfold plausStep at e
  split at e
  · rename_i hr
    obtain ⟨ch2, -, e⟩ := Option.map_eq_some_iff.mp e
    simp only [Prod.mk.injEq] at e
    obtain ⟨-, e2, e3⟩ := e
    have h3 : pl ≠ .plausible := by rw [← e3]; split <;> simp
    refine ⟨⟨fun h => absurd h h3, fun h => by omega⟩, ?_⟩
    unfold LimitedTo
    split at e2 <;> omega
  · rename_i hr
    simp only [Option.some.injEq, Prod.mk.injEq] at e
    obtain ⟨-, e2, e3⟩ := e
    refine ⟨⟨fun _ => by omega, fun _ => e3.symm⟩, ?_⟩
    unfold LimitedTo; omega

theorem measRaw_value {m : Meas} {raw : Int} (e : measRaw m = some raw)
    (h : 0 ≤ m.avgSum ∧ m.avgSum ≤ 1023 * m.avgCount) (hc : 0 ≤ m.avgCount) :
    0 < m.avgCount ∧ raw = m.avgSum / m.avgCount ∧ 0 ≤ raw ∧ raw ≤ 1023 := by
  unfold measRaw at e
  split at e
  · cases e
  · rename_i h0
    have hpos : 0 < m.avgCount := by omega
    have h1 : 0 ≤ m.avgSum / m.avgCount := Int.ediv_nonneg h.1 hc
    have h2 : m.avgSum / m.avgCount ≤ 1023 := Int.ediv_le_of_le_mul hpos h.2
    have e := Option.some.inj e
    have : toU16 (m.avgSum / m.avgCount) = m.avgSum / m.avgCount := by unfold toU16; omega
    rw [this] at e
    rw [← e]
    exact ⟨hpos, rfl, h1, h2⟩

theorem measHandle_temp {c : Conf} {now p : Int} {m m' : Meas} {mc mc' : MeasCurr} {pl : Plaus}
    (e : measHandle c now m mc = some (m', mc', p, pl)) (ha : m.active = 1)
    (hs : 0 ≤ m.avgSum ∧ m.avgSum ≤ 1023 * m.avgCount) (hc : 0 ≤ m.avgCount)
    (hadj : -100000 ≤ m.chan[1].adj ∧ m.chan[1].adj ≤ 100000) :
    ∃ v, TempValue c (m.avgSum / m.avgCount) (if c.adj then m.chan[1].adj else 0) v ∧
      ((pl = .plausible ↔ PlausibleTemp v) ∧ LimitedTo (-20 * 64) (500 * 64) v p) ∧
      ∃ ch, plausStep (meastempConfig c) now m.chan[1] v = some (ch, p, pl) ∧
        m'.chan = m.chan.set 1 ch := by
  unfold measHandle at e
  obtain ⟨cfg, ecfg, e⟩ := Option.bind_eq_some_iff.mp e
  rw [ha] at ecfg
  have hcfg : meastempConfig c = cfg := by
    have : measConfig c 1 = some (meastempConfig c) := rfl
    rw [this] at ecfg
    exact Option.some.inj ecfg
  obtain ⟨raw, eraw, e⟩ := Option.bind_eq_some_iff.mp e
  obtain ⟨hpos, hraw, r0, r1⟩ := measRaw_value eraw hs hc
  rw [← hraw]
  have ha0 : ¬ (m.active = 0) := by omega
  simp only [if_neg ha0] at e
  obtain ⟨ph, eph, e⟩ := Option.bind_eq_some_iff.mp e
  have hlt : m.active < 2 := by omega
  simp only [dif_pos hlt] at e
  obtain ⟨⟨ch, p1, pl1⟩, epl, e⟩ := Option.bind_eq_some_iff.mp e
  simp only [pure, Option.some.injEq, Prod.mk.injEq] at e
  obtain ⟨hm', -, rfl, rfl⟩ := e
  subst hcfg
  obtain ⟨k1, k2⟩ := measPlaus_value epl (by show (-1280 : Int) ≤ 32000; decide)
  have hch : m.chan[m.active] = m.chan[1] := by congr 1
  rw [hch] at k1 k2 epl
  have e16 : toS16 raw = raw := by unfold toS16; omega
  rw [e16] at eph
  obtain ⟨n, hn, hb, hph⟩ : ∃ n, NearestAway ((480 - 150) * 64 * (raw - (sensorRaw c).1))
      ((sensorRaw c).2 - (sensorRaw c).1) n ∧ (-30000 ≤ n ∧ n ≤ 200000) ∧ ph = 9600 + n := by
    unfold sensorRaw
    cases hsm : c.smd
    · have e1 : (meastempConfig c).rawLo = 209 := by simp [meastempConfig, hsm]
      have e2 : (meastempConfig c).rawHi = 410 := by simp [meastempConfig, hsm]
      rw [e1, e2] at eph
      change scale raw 209 410 9600 30720 = some ph at eph
      have hb : -30000 ≤ rdiv ((30720 - 9600) * (raw - 209)) (410 - 209) ∧
          rdiv ((30720 - 9600) * (raw - 209)) (410 - 209) ≤ 200000 := by
        rw [rdiv_pos _ _ (by decide)]; split <;> omega
      refine ⟨rdiv ((30720 - 9600) * (raw - 209)) (410 - 209), rdiv_spec _ _ (by decide), hb, ?_⟩
      rw [scale_inv (by decide) eph, sat_eq (by omega) (by omega)]
    · have e1 : (meastempConfig c).rawLo = 210 := by simp [meastempConfig, hsm]
      have e2 : (meastempConfig c).rawHi = 411 := by simp [meastempConfig, hsm]
      rw [e1, e2] at eph
      change scale raw 210 411 9600 30720 = some ph at eph
      have hb : -30000 ≤ rdiv ((30720 - 9600) * (raw - 210)) (411 - 210) ∧
          rdiv ((30720 - 9600) * (raw - 210)) (411 - 210) ≤ 200000 := by
        rw [rdiv_pos _ _ (by decide)]; split <;> omega
      refine ⟨rdiv ((30720 - 9600) * (raw - 210)) (411 - 210), rdiv_spec _ _ (by decide), hb, ?_⟩
      rw [scale_inv (by decide) eph, sat_eq (by omega) (by omega)]
  have hv : (if c.adj then sat (ph - m.chan[1].adj) else ph) =
      150 * 64 + n - (if c.adj then m.chan[1].adj else 0) := by
    rw [hph]
    split
    · rw [sat_eq (by omega) (by omega)]; rfl
    · omega
  rw [measPlaus_eq] at epl
  obtain ⟨v, ev, epl⟩ := Option.bind_eq_some_iff.mp epl
  have hv' : v = if c.adj then sat (ph - m.chan[1].adj) else ph := by
    split at ev
    · rename_i hc; rw [if_pos hc]; exact fixptSub_inv ev
    · rename_i hc; rw [if_neg hc]; exact (Option.some.inj ev).symm
  rw [hv', hv] at epl
  rw [hv] at k1 k2
  refine ⟨_, ⟨n, hn, rfl⟩, ⟨k1, k2⟩, ch, epl, ?_⟩
  rw [← hm']
  show m.chan.set m.active ch hlt = _
  congr 1

theorem measHandle_curr {c : Conf} {now p : Int} {m m' : Meas} {mc mc' : MeasCurr} {pl : Plaus}
    (e : measHandle c now m mc = some (m', mc', p, pl)) (ha : m.active = 0)
    (hs : 0 ≤ m.avgSum ∧ m.avgSum ≤ 1023 * m.avgCount) (hc : 0 ≤ m.avgCount)
    (hadj : m.chan[0].adj = 0) :
    mc' = (meascurrFilter mc (m.avgSum / m.avgCount)).1 ∧
    ∃ v, CurrValue (meascurrFilter mc (m.avgSum / m.avgCount)).2 v ∧
      ((pl = .plausible ↔ PlausibleCurr v) ∧ LimitedTo 0 (5 * 640) v p) ∧
      ∃ ch, plausStep meascurrConfig now m.chan[0] v = some (ch, p, pl) ∧
        m'.chan = m.chan.set 0 ch := by
  unfold measHandle at e
  obtain ⟨cfg, ecfg, e⟩ := Option.bind_eq_some_iff.mp e
  rw [ha] at ecfg
  have hcfg : meascurrConfig = cfg := by
    have : measConfig c 0 = some meascurrConfig := rfl
    rw [this] at ecfg
    exact Option.some.inj ecfg
  obtain ⟨raw, eraw, e⟩ := Option.bind_eq_some_iff.mp e
  obtain ⟨hpos, hraw, r0, r1⟩ := measRaw_value eraw hs hc
  rw [← hraw]
  obtain ⟨f, out, ef, ho⟩ := meascurrFilter_ok mc ⟨r0, r1⟩
  rw [ef]
  simp only [if_pos ha, ef] at e
  obtain ⟨ph, eph, e⟩ := Option.bind_eq_some_iff.mp e
  have hlt : m.active < 2 := by omega
  simp only [dif_pos hlt] at e
  obtain ⟨⟨ch, p1, pl1⟩, epl, e⟩ := Option.bind_eq_some_iff.mp e
  simp only [pure, Option.some.injEq, Prod.mk.injEq] at e
  obtain ⟨hm', rfl, rfl, rfl⟩ := e
  subst hcfg
  obtain ⟨k1, k2⟩ := measPlaus_value epl (by show (0 : Int) ≤ 3200; decide)
  have hch : m.chan[m.active] = m.chan[0] := by congr 1
  rw [hch, hadj] at k1 k2
  rw [hch] at epl
  have e16 : toS16 out = out := by unfold toS16; omega
  rw [e16] at eph
  change scale out 0 65 0 704 = some ph at eph
  have hb : 0 ≤ rdiv ((704 - 0) * (out - 0)) (65 - 0) ∧
      rdiv ((704 - 0) * (out - 0)) (65 - 0) ≤ 720192 := by
    rw [rdiv_pos _ _ (by decide)]; split <;> omega
  have hph := scale_inv (by decide) eph
  rw [sat_eq (by omega) (by omega), Int.zero_add] at hph
  have hn := rdiv_spec ((704 - 0) * (out - 0)) (65 - 0) (by decide)
  rw [← hph] at hn hb
  have hv : (if c.adj then sat (ph - 0) else ph) = ph := by
    split
    · rw [sat_eq (by omega) (by omega)]; omega
    · rfl
  rw [hv] at k1 k2
  refine ⟨rfl, ph, ?_, ⟨k1, k2⟩, ch, ?_, ?_⟩
  · unfold CurrValue
    have : (704 - 0) * (out - 0) = 11 * 64 * out := by omega
    rw [this] at hn
    exact hn
  · rw [measPlaus_eq, hadj] at epl
    obtain ⟨v, ev, epl⟩ := Option.bind_eq_some_iff.mp epl
    have hv' : v = if c.adj then sat (ph - 0) else ph := by
      split at ev
      · rename_i hc; rw [if_pos hc]; exact fixptSub_inv ev
      · rename_i hc; rw [if_neg hc]; exact (Option.some.inj ev).symm
    rw [hv', hv] at epl
    exact epl
  · rw [← hm']
    show m.chan.set m.active ch hlt = _
    congr 1

/-- an evaluation touches only its own channel -/
theorem measHandle_chan {c : Conf} {now p : Int} {m m' : Meas} {mc mc' : MeasCurr} {pl : Plaus}
    (e : measHandle c now m mc = some (m', mc', p, pl)) :
    ∃ ch, ∃ h : m.active < 2, m'.chan = m.chan.set m.active ch := by
  unfold measHandle at e
  obtain ⟨cfg, -, e⟩ := Option.bind_eq_some_iff.mp e
  obtain ⟨raw, -, e⟩ := Option.bind_eq_some_iff.mp e
  obtain ⟨ph, -, e⟩ := Option.bind_eq_some_iff.mp e
  split at e
  · rename_i hlt
    obtain ⟨⟨ch, p1, pl1⟩, -, e⟩ := Option.bind_eq_some_iff.mp e
    simp only [pure, Option.some.injEq, Prod.mk.injEq] at e
    exact ⟨ch, hlt, by rw [← e.1]⟩
  · cases e

theorem TempValue.unique {c : Conf} {raw adj v w : Int} (h1 : TempValue c raw adj v)
    (h2 : TempValue c raw adj w) : v = w := by
  obtain ⟨n, hn, rfl⟩ := h1
  obtain ⟨m, hm, rfl⟩ := h2
  have : (sensorRaw c).2 - (sensorRaw c).1 ≠ 0 := by unfold sensorRaw; split <;> decide
  rw [NearestAway.unique this hn hm]

/-- the value of a temperature result in the running firmware -/
theorem MeasEff.tempValue {c : Conf} {s s' : Sys} {p : Int} {pl : Plaus} (h : Inv c s)
    (hav : s.meas.resultAvail = true) (ha : s.meas.active = 1) (he : MeasEff c s s' p pl) :
    ∃ v, TempReady c s v ∧ ((pl = .plausible ↔ PlausibleTemp v) ∧
      LimitedTo (-20 * 64) (500 * 64) v p) ∧
      ∃ ch, plausStep (meastempConfig c) s.now s.meas.chan[1] v = some (ch, p, pl) ∧
        s'.meas.chan = s.meas.chan.set 1 ch := by
  obtain ⟨ch, f, t, e, he'⟩ := he.meas
  have hadj := h.set.lim.adj
  have a1 := h.meas.adj1
  have hcnt := h.meas.cnt
  obtain ⟨v, hv, ⟨h1, h2⟩, ch1, hst, hch⟩ := measHandle_temp e ha h.meas.sum hcnt.1 (by
    show -100000 ≤ s.meas.chan[1].adj ∧ s.meas.chan[1].adj ≤ 100000
    rw [a1]; split <;> omega)
  refine ⟨v, ⟨hav, ha, ?_⟩, ⟨h1, h2⟩, ch1, hst, by rw [he']; exact hch⟩
  have : (if c.adj then s.meas.chan[1].adj else 0) = adjInForce c s.set.cache := by
    rw [a1]; unfold adjInForce; split <;> rfl
  rw [← this]
  exact hv

end Verif
