import Verif.Proofs.Quiet
import Verif.Proofs.InvBoot
/-
What one step of the running firmware does to the controllers and the heater output.
-/
namespace Verif
open Spec

/-- `contrtemp_run`: nothing while disabled or in emergency; otherwise flags, set point and, if a
    flag is newly set, the heater output -/
theorem contrtempRun_eff {s s' : Sys} {r : Int} (e : contrtempRun s r = some s') :
    ((s.ct.enabled = false ∨ s.ct.emergency = true) ∧ s' = s) ∨
    (s.ct.enabled = true ∧ s.ct.emergency = false ∧ ∃ pid' t' w fl o, s' = { s with
        ct := { s.ct with pid := pid', dtTimer := t' }
        cc := { s.cc with emerg := fl, pid := { s.cc.pid with setpoint := w } }
        ocr := o } ∧
      fl = (if r > 30720 then s.cc.emerg ||| 2#8 else s.cc.emerg &&& ~~~2#8) ∧
      (r > 30720 → w = 0) ∧ (o = s.ocr ∨ o = 0x1FFF) ∧
      pid'.setpoint = s.ct.pid.setpoint ∧ pid'.k = s.ct.pid.k ∧ t' = s.now ∧
      ∃ dt y a, elapsedDt s.now s.ct.dtTimer = some dt ∧ pidRun s.ct.pid dt r = some (pid', y) ∧
        tempToAmps y = some a ∧ (r ≤ 30720 → w = a)) := by
  unfold contrtempRun at e
  split at e
  · rename_i hen
    cases e
    exact Or.inl ⟨Or.inl (by simpa using hen), rfl⟩
  split at e
  · rename_i hem
    cases e
    exact Or.inl ⟨Or.inr hem, rfl⟩
  · rename_i hen hem
    have hen : s.ct.enabled = true := by simpa using hen
    have hem : s.ct.emergency = false := by simpa using hem
    obtain ⟨dt, ed, e⟩ := Option.bind_eq_some_iff.mp e
    obtain ⟨⟨pid', y⟩, ep, e⟩ := Option.bind_eq_some_iff.mp e
    obtain ⟨a, ea, e⟩ := Option.bind_eq_some_iff.mp e
    refine Or.inr ⟨hen, hem, ?_⟩
    have hk : pid'.setpoint = s.ct.pid.setpoint ∧ pid'.k = s.ct.pid.k := by
      obtain ⟨_, _, _, _, _, _, _, _, _, _, _, _, _, _, _, _, _, _, _, _, rfl, _⟩ := pidRun_inv ep
      exact ⟨rfl, rfl⟩
    have hse : ∀ (t : Sys) fl t', contrcurrSetEmerg t fl = some t' →
        ∃ o, t' = { t with cc := { t.cc with emerg := fl }, ocr := o } ∧ (o = t.ocr ∨ o = 0x1FFF) := by
      intro t fl t' h
      unfold contrcurrSetEmerg at h
      split at h
      · simp only at h
        split at h
        · erw [pwmcurrSet_zero] at h
          cases h
          exact ⟨_, rfl, Or.inr rfl⟩
        · cases h
          exact ⟨_, rfl, Or.inl rfl⟩
      · rename_i hh
        rw [ne_eq, not_not] at hh
        cases h
        subst hh
        exact ⟨_, rfl, Or.inl rfl⟩
    by_cases hr : r > 30720
    · simp only [if_pos hr] at e
      obtain ⟨t, et, e⟩ := Option.bind_eq_some_iff.mp e
      obtain ⟨o, rfl, ho⟩ := hse _ _ _ et
      cases e
      exact ⟨pid', _, 0, _, o, rfl, by rw [if_pos hr], fun _ => rfl, ho, hk.1, hk.2, rfl,
        dt, y, a, ed, ep, ea, fun h => absurd hr (by omega)⟩
    · simp only [if_neg hr] at e
      obtain ⟨t, et, e⟩ := Option.bind_eq_some_iff.mp e
      obtain ⟨o, rfl, ho⟩ := hse _ _ _ et
      cases e
      exact ⟨pid', _, a, _, o, rfl, by rw [if_neg hr], fun h => absurd h hr, ho, hk.1, hk.2, rfl,
        dt, y, a, ed, ep, ea, fun _ => rfl⟩

/-- a value that depends on the plausibility of a reading -/
def Plaus.pick {α : Type} (pl : Plaus) (plausible notPlausible timeout : α) : α :=
  match pl with
  | .plausible => plausible
  | .notPlausible => notPlausible
  | .timeout => timeout

/-- a run of the temperature controller with feedback `r` -/
structure TempRun (s s' : Sys) (r : Int) : Prop where
  timer : s'.ct.dtTimer = s.now
  law : ∃ dt y a, elapsedDt s.now s.ct.dtTimer = some dt ∧ pidRun s.ct.pid dt r = some (s'.ct.pid, y) ∧
    tempToAmps y = some a ∧ s'.cc.pid.setpoint = if r > 30720 then 0 else a

/-- what a temperature result with value `p` and plausibility `pl` does to the controllers -/
structure TempEff (s s' : Sys) (p : Int) (pl : Plaus) : Prop where
  mcurr : s'.mcurr = s.mcurr
  mtPrev : s'.mtPrev = if pl = .plausible then p else s.mtPrev
  emergency : s'.ct.emergency = pl.pick false s.ct.emergency true
  enabled : s'.ct.enabled = s.ct.enabled
  idle : s'.ct.idle = s.ct.idle
  boost : s'.ct.boost = s.ct.boost
  feedback : s'.ct.feedback = pl.pick p s.mtPrev s.ct.feedback
  cc : ∃ w, s'.cc = { s.cc with
    emerg := s'.cc.emerg, restricted := s'.cc.restricted, pid := { s.cc.pid with setpoint := w } }
  restricted : s'.cc.restricted = if pl = .plausible then decide (p < 6400) else s.cc.restricted
  flags : s'.cc.emerg =
    if pl ≠ .timeout ∧ s.ct.enabled = true ∧ s'.ct.emergency = false then
      (if s'.ct.feedback > 30720 then s.cc.emerg ||| 2#8 else s.cc.emerg &&& ~~~2#8)
    else s.cc.emerg
  ocr : s'.ocr = s.ocr ∨ s'.ocr = 0x1FFF
  k : s'.ct.pid.k = s.ct.pid.k
  sp : s'.ct.pid.setpoint = s.ct.pid.setpoint
  bi : s'.ct.biLet = s.ct.biLet ∧ s'.ct.biTimer = s.ct.biTimer
  off : s.ct.enabled = false → s'.cc.pid.setpoint = s.cc.pid.setpoint ∨ s'.cc.pid.setpoint = 0
  run : pl ≠ .timeout → s.ct.enabled = true → s'.ct.emergency = false → TempRun s s' s'.ct.feedback
  norun : ¬ (pl ≠ .timeout ∧ s.ct.enabled = true ∧ s'.ct.emergency = false) →
    s'.ct.dtTimer = s.ct.dtTimer ∧ s'.ct.pid = s.ct.pid

theorem tempFeedback_eff {s s' : Sys} {r : Int} (e : contrtempSetFeedback s r = some s') :
    s'.mcurr = s.mcurr ∧ s'.mtPrev = s.mtPrev ∧ s'.ct.emergency = s.ct.emergency ∧
    s'.ct.enabled = s.ct.enabled ∧ s'.ct.idle = s.ct.idle ∧ s'.ct.boost = s.ct.boost ∧
    s'.ct.feedback = r ∧ s'.cc.restricted = s.cc.restricted ∧
    (∃ w, s'.cc = { s.cc with emerg := s'.cc.emerg, pid := { s.cc.pid with setpoint := w } }) ∧
    s'.cc.emerg = (if s.ct.enabled = true ∧ s.ct.emergency = false then
      (if r > 30720 then s.cc.emerg ||| 2#8 else s.cc.emerg &&& ~~~2#8) else s.cc.emerg) ∧
    (s'.ocr = s.ocr ∨ s'.ocr = 0x1FFF) ∧ s'.ct.pid.k = s.ct.pid.k ∧
    s'.ct.pid.setpoint = s.ct.pid.setpoint ∧
    (s'.ct.biLet = s.ct.biLet ∧ s'.ct.biTimer = s.ct.biTimer) ∧
    (s.ct.enabled = false → s'.cc.pid.setpoint = s.cc.pid.setpoint) ∧
    (s.ct.enabled = true → s.ct.emergency = false → TempRun s s' r) ∧
    (¬ (s.ct.enabled = true ∧ s.ct.emergency = false) →
      s'.ct.dtTimer = s.ct.dtTimer ∧ s'.ct.pid = s.ct.pid) := by
  unfold contrtempSetFeedback at e
  obtain ⟨u, hu⟩ : ∃ u, (if r ≠ s.ct.feedback then
      menuRequestUpdate { s with ct := { s.ct with feedback := r } } else s) =
      { s with ct := { s.ct with feedback := r }, menu := { s.menu with updReq := u } } := by
    split
    · exact ⟨true, rfl⟩
    · rename_i h
      rw [ne_eq, not_not] at h
      subst h
      exact ⟨s.menu.updReq, rfl⟩
  simp only [hu] at e
  rcases contrtempRun_eff e with ⟨h, rfl⟩ | ⟨h1, h2, pid', t', w, fl, o, rfl, hf, hw0, ho, hsp, hk, ht, dt, y, a, k1, k2, k3, k4⟩
  · refine ⟨rfl, rfl, rfl, rfl, rfl, rfl, rfl, rfl, ⟨s.cc.pid.setpoint, rfl⟩, ?_, Or.inl rfl, rfl, rfl, ⟨rfl, rfl⟩, fun _ => rfl,
      fun h1 h2 => ?_, fun _ => ⟨rfl, rfl⟩⟩
    · rw [if_neg]
      rintro ⟨h1, h2⟩
      rcases h with h | h
      · exact absurd (h1.symm.trans h) (by decide)
      · exact absurd (h2.symm.trans h) (by decide)
    · rcases h with h | h
      · exact absurd (h1.symm.trans h) (by decide)
      · exact absurd (h2.symm.trans h) (by decide)
  · refine ⟨rfl, rfl, rfl, rfl, rfl, rfl, rfl, rfl, ⟨w, rfl⟩, ?_, ho, hk, hsp, ⟨rfl, rfl⟩,
      fun hh => absurd (h1.symm.trans hh) (by decide), fun _ _ => ⟨ht, dt, y, a, k1, k2, k3, ?_⟩,
      fun hh => absurd ⟨h1, h2⟩ hh⟩
    · rw [if_pos ⟨h1, h2⟩]
      exact hf
    · show w = _
      split
      · rename_i hr; exact hw0 hr
      · rename_i hr; exact k4 (by omega)

theorem tempEmerg_eff (s : Sys) (b : Bool) :
    ∃ w, (w = s.cc.pid.setpoint ∨ w = 0) ∧ contrtempSetEmerg s b = { s with
      ct := { s.ct with emergency := b }
      cc := { s.cc with pid := { s.cc.pid with setpoint := w } } } := by
  unfold contrtempSetEmerg
  split
  · unfold contrtempDoSetEmerg
    cases b
    · exact ⟨s.cc.pid.setpoint, Or.inl rfl, rfl⟩
    · exact ⟨0, Or.inr rfl, rfl⟩
  · rename_i h
    rw [ne_eq, not_not] at h
    subst h
    exact ⟨s.cc.pid.setpoint, Or.inl rfl, rfl⟩

theorem meastempResult_eff {s s' : Sys} {p : Int} {pl : Plaus}
    (e : meastempResult s p pl = some s') : TempEff s s' p pl := by
  unfold meastempResult at e
  cases pl
  · simp only at e
    obtain ⟨w0, h0, hw⟩ := tempEmerg_eff s false
    rw [hw] at e
    obtain ⟨e1, e2, e3, e4, e5, e6, e7, e8, ⟨w, e9⟩, e10, e11, e12, e13, e14, e15, e16, e17⟩ := tempFeedback_eff e
    refine ⟨e1, e2.trans (if_pos rfl).symm, e3, e4, e5, e6, e7, ⟨w, ?_⟩, e8.trans (if_pos rfl).symm, ?_, e11,
      e12, e13, e14, fun hh => ?_, fun _ h1 _ => ?_, fun hh => e17 ?_⟩
    · rw [e8]; exact e9
    · rw [e10, e7, e3]
      simp only [contrcurrSetRestricted, ne_eq, reduceCtorEq, not_false_eq_true, true_and]
    · rw [e15 hh]; exact h0
    · obtain ⟨f1, f2⟩ := e16 h1 rfl
      rw [e7]
      exact ⟨f1, f2⟩
    · rintro ⟨h1, -⟩
      exact hh ⟨by decide, h1, e3⟩
  · simp only at e
    obtain ⟨e1, e2, e3, e4, e5, e6, e7, e8, ⟨w, e9⟩, e10, e11, e12, e13, e14, e15, e16, e17⟩ := tempFeedback_eff e
    refine ⟨e1, e2.trans (if_neg (by decide)).symm, e3, e4, e5, e6, e7, ⟨w, ?_⟩,
      e8.trans (if_neg (by decide)).symm, ?_, e11, e12, e13, e14, fun hh => Or.inl (e15 hh),
      fun _ h1 h2 => ?_, fun hh => e17 ?_⟩
    · rw [e8]; exact e9
    · rw [e10, e7, e3]
      simp only [ne_eq, reduceCtorEq, not_false_eq_true, true_and]
    · rw [e7]
      exact e16 h1 (e3 ▸ h2)
    · rintro ⟨h1, h2⟩
      exact hh ⟨by decide, h1, e3.trans h2⟩
  · simp only at e
    obtain ⟨w0, h0, hw⟩ := tempEmerg_eff s true
    rw [hw] at e
    cases e
    exact ⟨rfl, (if_neg (by decide)).symm, rfl, rfl, rfl, rfl, rfl, ⟨w0, rfl⟩,
      (if_neg (by decide)).symm, (if_neg (by simp)).symm, Or.inl rfl, rfl, rfl, ⟨rfl, rfl⟩, fun _ => h0,
      fun hh => absurd rfl hh, fun _ => ⟨rfl, rfl⟩⟩

/-- a run of the current controller with measured feedback `x` -/
structure CurrRun (s s' : Sys) (x : Int) : Prop where
  timer : s'.cc.timer = s.now
  law : ∃ dt r y, elapsedDt s.now s.cc.timer = some dt ∧
    contrcurrSelect s.cc x = some (r, s'.cc.rState, s'.cc.model) ∧
    pidRun s.cc.pid dt r = some (s'.cc.pid, y) ∧
    s'.cc.prevY = (if s.cc.restricted = true ∧ y > 1280 then 1280 else y) ∧
    pwmDuty s'.cc.prevY = some s'.ocr

/-- what a current result with value `p` and plausibility `pl` does to the controllers -/
structure CurrEff (s s' : Sys) (p : Int) (pl : Plaus) : Prop where
  ct : s'.ct = s.ct
  mtPrev : s'.mtPrev = s.mtPrev
  init : s'.mcurr.initialized = true
  filter : s'.mcurr.filter = s.mcurr.filter
  prev : s'.mcurr.prevFeedback = if pl = .plausible then p else s.mcurr.prevFeedback
  flags : s'.cc.emerg = pl.pick (s.cc.emerg &&& ~~~1#8) s.cc.emerg (s.cc.emerg ||| 1#8)
  restricted : s'.cc.restricted = s.cc.restricted
  sp : s'.cc.pid.setpoint = s.cc.pid.setpoint
  ocr : Programmed s s' ∨ s'.ocr = 0x1FFF
  feedback : s'.cc.feedback = pl.pick p s.mcurr.prevFeedback s.cc.feedback
  run : pl ≠ .timeout → s'.cc.emerg = 0 → CurrRun s s' s'.cc.feedback
  norun : (pl = .timeout ∨ s'.cc.emerg ≠ 0) → s'.cc.timer = s.cc.timer ∧ s'.cc.pid = s.cc.pid ∧
    s'.cc.rState = s.cc.rState ∧ s'.cc.model = s.cc.model ∧ s'.cc.prevY = s.cc.prevY

theorem currRun_eff {s s' : Sys} {x : Int} (e : contrcurrRun s x = some s') :
    s'.ct = s.ct ∧ s'.mtPrev = s.mtPrev ∧ s'.mcurr = s.mcurr ∧ s'.cc.emerg = s.cc.emerg ∧
    s'.cc.restricted = s.cc.restricted ∧ s'.cc.pid.setpoint = s.cc.pid.setpoint ∧
    s'.cc.feedback = s.cc.feedback ∧
    (s.cc.enabled = true → s.cc.emerg = 0 → CurrRun s s' x) ∧
    (s.cc.emerg ≠ 0 → s'.cc = s.cc) := by
  unfold contrcurrRun at e
  split at e
  · rename_i hen
    cases e
    exact ⟨rfl, rfl, rfl, rfl, rfl, rfl, rfl, fun hh => absurd hen (by rw [hh]; decide), fun _ => rfl⟩
  split at e
  · rename_i hem
    cases e; exact ⟨rfl, rfl, rfl, rfl, rfl, rfl, rfl, fun _ hh => absurd hh hem, fun _ => rfl⟩
  rename_i hem
  rw [ne_eq, not_not] at hem
  obtain ⟨dt, ed, e⟩ := Option.bind_eq_some_iff.mp e
  obtain ⟨⟨r, st, m⟩, es, e⟩ := Option.bind_eq_some_iff.mp e
  obtain ⟨⟨pid', y⟩, ep, e⟩ := Option.bind_eq_some_iff.mp e
  obtain ⟨d, edu, e⟩ := Option.bind_eq_some_iff.mp e
  have hsp : pid'.setpoint = s.cc.pid.setpoint := by
    obtain ⟨_, _, _, _, _, _, _, _, _, _, _, _, _, _, _, _, _, _, _, _, rfl, _⟩ := pidRun_inv ep
    rfl
  have hy : (if s.cc.restricted then (if y > 1280 then 1280 else y) else y) =
      (if s.cc.restricted = true ∧ y > 1280 then 1280 else y) := by
    split <;> split <;> simp_all
  simp only [hy] at e edu
  cases e
  exact ⟨rfl, rfl, rfl, rfl, rfl, hsp, rfl, fun _ _ => ⟨rfl, dt, r, y, ed, es, ep, rfl, edu⟩,
    fun hh => absurd hem hh⟩

theorem meascurrResult_eff {c : Conf} {s s' : Sys} {p : Int} {pl : Plaus} (h : Inv c s)
    (hp : 0 ≤ p ∧ p ≤ 3200) (e : meascurrResult s p pl = some s') : CurrEff s s' p pl := by
  obtain ⟨-, -, -, -, hocr⟩ := (h.currResult pl hp).elim e
  unfold meascurrResult at e
  simp only [] at e
  cases pl
  · obtain ⟨s1, e1, e⟩ := Option.bind_eq_some_iff.mp e
    obtain ⟨o1, e1', -⟩ := contrcurrSetEmerg_ok (s.cc.emerg &&& ~~~1#8) h.cc
    rw [e1'] at e1
    cases e1
    obtain ⟨s2, e2, e⟩ := Option.bind_eq_some_iff.mp e
    cases e
    obtain ⟨j1, j2, j3, j4, j5, j6, j7, j8, j9⟩ := currRun_eff e2
    refine ⟨j1, j2, rfl, (congrArg MeasCurr.filter j3 :),
      (congrArg MeasCurr.prevFeedback j3 :).trans (if_pos rfl).symm, j4, j5, j6, hocr, j7, fun _ hh => ?_, ?_⟩
    · obtain ⟨f1, f2⟩ := j8 h.cc.en (j4.symm.trans hh)
      exact ⟨f1, by rw [show s2.cc.feedback = p from j7]; exact f2⟩
    · rintro (hh | hh)
      · cases hh
      · rw [j9 (j4 ▸ hh)]; exact ⟨rfl, rfl, rfl, rfl, rfl⟩
  · obtain ⟨s1, e1, e⟩ := Option.bind_eq_some_iff.mp e
    obtain ⟨o1, e1', -⟩ := contrcurrSetEmerg_ok s.cc.emerg h.cc
    rw [e1'] at e1
    cases e1
    obtain ⟨s2, e2, e⟩ := Option.bind_eq_some_iff.mp e
    cases e
    obtain ⟨j1, j2, j3, j4, j5, j6, j7, j8, j9⟩ := currRun_eff e2
    refine ⟨j1, j2, rfl, (congrArg MeasCurr.filter j3 :),
      (congrArg MeasCurr.prevFeedback j3 :).trans (if_neg (by decide)).symm, j4, j5, j6, hocr, j7,
      fun _ hh => ?_, ?_⟩
    · obtain ⟨f1, f2⟩ := j8 h.cc.en (j4.symm.trans hh)
      exact ⟨f1, by rw [show s2.cc.feedback = s.mcurr.prevFeedback from j7]; exact f2⟩
    · rintro (hh | hh)
      · cases hh
      · rw [j9 (j4 ▸ hh)]; exact ⟨rfl, rfl, rfl, rfl, rfl⟩
  · obtain ⟨s1, e1, e⟩ := Option.bind_eq_some_iff.mp e
    obtain ⟨o1, e1', -⟩ := contrcurrSetEmerg_ok (s.cc.emerg ||| 1#8) h.cc
    rw [e1'] at e1
    cases e1
    cases e
    exact ⟨rfl, rfl, rfl, rfl, (if_neg (by decide)).symm, rfl, rfl, rfl, hocr, rfl, fun hh => absurd rfl hh,
      fun _ => ⟨rfl, rfl, rfl, rfl, rfl⟩⟩

/-- what the measurement does in one call of `measure_work` when a result is available -/
structure MeasEff (c : Conf) (s s' : Sys) (p : Int) (pl : Plaus) : Prop where
  range : -1280 ≤ p ∧ p ≤ 32000
  meas : ∃ ch f t, measHandle c s.now { s.meas with resultAvail := false } s.mcurr =
      some ({ s.meas with resultAvail := false, chan := ch }, { s.mcurr with filter := f }, p, pl) ∧
    s'.meas = { s.meas with
      resultAvail := false, chan := ch, active := 1 - s.meas.active, avgSum := 0, avgCount := 0,
      avgTimer := t, adcOn := true }
  filt : ∀ m mc, measHandle c s.now { s.meas with resultAvail := false } s.mcurr = some (m, mc, p, pl) →
    s'.mcurr.filter = mc.filter
  window : s'.meas.avgTimer = toU16 (s.now + if s.meas.active = 0 then 50 else 5)
  temp : s.meas.active = 1 → TempEff s s' p pl
  curr : s.meas.active = 0 → (0 ≤ p ∧ p ≤ 3200) ∧
    ∃ f, CurrEff { s with mcurr := { s.mcurr with filter := f } } s' p pl
  now : s'.now = s.now
  set : s'.set = s.set
  btn : s'.btn = s.btn
  disp : s'.disp = s.disp
  ports : s'.ports = s.ports
  debugEn : s'.debugEn = s.debugEn
  menu : ∃ u, s'.menu = { s.menu with updReq := u }

theorem measureWork_eff {c : Conf} {s s' : Sys} (h : Inv c s) (e : measureWork c s = some s') :
    (s.meas.resultAvail = false ∧ s' = s) ∨
    (s.meas.resultAvail = true ∧ ∃ p pl, MeasEff c s s' p pl) := by
  unfold Verif.measureWork at e
  simp only [] at e
  cases hav : s.meas.resultAvail with
  | false =>
    have hm : ({ s.meas with resultAvail := false } : Meas) = s.meas := by rw [← hav]
    rw [hav] at e
    simp only [hm, Bool.false_eq_true, if_false, Option.some.injEq] at e
    exact Or.inl ⟨rfl, e.symm⟩
  | true =>
    rw [hav] at e
    simp only [if_true] at e
    refine Or.inr ⟨rfl, ?_⟩
    have hm1 : MeasInv { s.meas with resultAvail := false } (if c.adj then s.set.cache.adj else 0) :=
      { h.meas with avail := fun hh => (by cases hh), conv := fun hh => rfl }
    have hadj : -6336 ≤ (if c.adj then s.set.cache.adj else 0) ∧
        (if c.adj then s.set.cache.adj else 0) ≤ 6336 := by
      have := h.set.lim.adj
      split <;> omega
    obtain ⟨ch, f, p, pl, e1, a0, a1, hp0, hp⟩ := measHandle_ok (c := c) (now := s.now)
      (mc := s.mcurr) hm1 (h.meas.avail hav) hadj
    simp only [e1, Option.bind_eq_bind, Option.bind_some] at e
    have h2 : Inv c { s with meas := { s.meas with resultAvail := false, chan := ch },
                             mcurr := { s.mcurr with filter := f } } :=
      { h with meas := { hm1 with adj0 := a0, adj1 := a1 } }
    have next : ∀ (s3 s4 : Sys), s3.meas = { s.meas with resultAvail := false, chan := ch } →
        ((adcTriggerNext c s3.now s3.meas).bind fun m => some { s3 with meas := m }) = some s4 →
        ∃ t, t = toU16 (s3.now + if s.meas.active = 0 then 50 else 5) ∧ s4 = { s3 with meas := { s.meas with
          resultAvail := false, chan := ch, active := 1 - s.meas.active, avgSum := 0, avgCount := 0,
          avgTimer := t, adcOn := true } } := by
      intro s3 s4 hm e4
      obtain ⟨t, et, -⟩ := adcTriggerNext_ok (c := c) (now := s3.now)
        (m := { s.meas with resultAvail := false, chan := ch }) h.meas.act rfl a0 a1
      rw [hm, et] at e4
      cases e4
      exact ⟨t, adcTriggerNext_timer (m := { s.meas with resultAvail := false, chan := ch }) h.meas.act et, rfl⟩
    refine ⟨p, pl, ?_⟩
    split at e
    · rename_i ha
      obtain ⟨s3, e3, e⟩ := Option.bind_eq_some_iff.mp e
      obtain ⟨-, fr, -, -⟩ := (h2.tempResult pl hp).elim e3
      obtain ⟨t, ht, rfl⟩ := next s3 s' fr.meas e
      have he := meastempResult_eff e3
      have hf : f = s.mcurr.filter := by
        have := e1
        unfold measHandle at this
        obtain ⟨_, -, this⟩ := Option.bind_eq_some_iff.mp this
        obtain ⟨_, -, this⟩ := Option.bind_eq_some_iff.mp this
        have ha' : ¬ (s.meas.active = 0) := by rw [show s.meas.active = 1 from ha]; decide
        simp only [if_neg ha', show s.meas.active < 2 from h.meas.act, dite_true] at this
        obtain ⟨_, -, this⟩ := Option.bind_eq_some_iff.mp this
        obtain ⟨_, -, this⟩ := Option.bind_eq_some_iff.mp this
        simp only [pure, Option.some.injEq, Prod.mk.injEq] at this
        exact (congrArg MeasCurr.filter this.2.1).symm
      subst hf
      exact {
        range := hp
        meas := ⟨ch, _, t, e1, rfl⟩
        filt := fun m mc e' => by
          rw [e1] at e'
          cases e'
          exact (congrArg MeasCurr.filter he.mcurr :)
        window := by rw [← fr.now]; exact ht
        temp := fun _ => { he with run := fun h1 h2 h3 => ⟨(he.run h1 h2 h3).timer, (he.run h1 h2 h3).law⟩ }
        curr := fun h0 => absurd (ha.symm.trans h0) (by decide)
        now := fr.now, set := fr.set, btn := fr.btn, disp := fr.disp, ports := fr.ports
        debugEn := fr.debugEn, menu := fr.menu }
    · rename_i ha
      have ha' : s.meas.active = 0 := by have := h.meas.act; omega
      obtain ⟨s3, e3, e⟩ := Option.bind_eq_some_iff.mp e
      obtain ⟨-, fr, -, -⟩ := (h2.currResult pl (hp0 ha')).elim e3
      obtain ⟨t, ht, rfl⟩ := next s3 s' fr.meas e
      have he := meascurrResult_eff h2 (hp0 ha') e3
      exact {
        range := hp
        meas := ⟨ch, f, t, e1, rfl⟩
        filt := fun m mc e' => by
          rw [e1] at e'
          cases e'
          exact he.filter
        window := by rw [← fr.now]; exact ht
        temp := fun h0 => absurd (ha'.symm.trans h0) (by decide)
        curr := fun _ => ⟨hp0 ha', f, { he with
          run := fun h1 h2 => ⟨(he.run h1 h2).timer, (he.run h1 h2).law⟩ }⟩
        now := fr.now, set := fr.set, btn := fr.btn, disp := fr.disp, ports := fr.ports
        debugEn := fr.debugEn, menu := fr.menu }

/-- what every event other than an evaluated measurement leaves alone -/
structure Calm (s s' : Sys) : Prop where
  ocr : s'.ocr = s.ocr
  mtPrev : s'.mtPrev = s.mtPrev
  mcurr : s'.mcurr = s.mcurr
  emerg : s'.ct.emergency = s.ct.emergency
  feedback : s'.ct.feedback = s.ct.feedback
  cc : stripSp s'.cc = stripSp s.cc
  sp : (s'.cc.pid.setpoint = s.cc.pid.setpoint ∧ s'.ct.enabled = s.ct.enabled) ∨ s'.cc.pid.setpoint = 0
  active : s'.meas.active = s.meas.active
  chan : (stripAdj s'.meas).chan = (stripAdj s.meas).chan
  mem : ((s'.ct.pid.integr = s.ct.pid.integr ∧ s'.ct.pid.prevE = s.ct.pid.prevE) ∧
      s'.ct.enabled = s.ct.enabled ∧ s'.ct.boost = s.ct.boost) ∨
    (s'.ct.pid.integr = 0 ∧ s'.ct.pid.prevE = 0)

theorem Quiet.calm {s s' : Sys} (h : Quiet s s') : Calm s s' :=
  ⟨h.ocr, h.mtPrev, h.mcurr, h.emerg, h.feedback, h.cc, h.sp, (congrArg Meas.active h.meas :),
    (congrArg Meas.chan h.meas :), h.mem⟩

theorem Calm.refl (s : Sys) : Calm s s := (Quiet.refl s).calm

theorem Calm.cc_emerg {s s' : Sys} (h : Calm s s') : s'.cc.emerg = s.cc.emerg :=
  (congrArg ContrCurr.emerg h.cc :)

theorem Calm.cc_restricted {s s' : Sys} (h : Calm s s') : s'.cc.restricted = s.cc.restricted :=
  (congrArg ContrCurr.restricted h.cc :)

theorem Calm.chan0 {s s' : Sys} (h : Calm s s') :
    s'.meas.chan[0].timerRunning = s.meas.chan[0].timerRunning ∧
    s'.meas.chan[0].timer = s.meas.chan[0].timer ∧
    s'.meas.chan[0].plausTimeout = s.meas.chan[0].plausTimeout := by
  have e : (stripAdj s'.meas).chan[0] = (stripAdj s.meas).chan[0] := by rw [h.chan]
  unfold stripAdj at e
  simp only [Vector.getElem_map] at e
  exact ⟨(congrArg MeasChan.timerRunning e :), (congrArg MeasChan.timer e :),
    (congrArg MeasChan.plausTimeout e :)⟩

theorem Calm.chan1 {s s' : Sys} (h : Calm s s') :
    s'.meas.chan[1].timerRunning = s.meas.chan[1].timerRunning ∧
    s'.meas.chan[1].timer = s.meas.chan[1].timer ∧
    s'.meas.chan[1].plausTimeout = s.meas.chan[1].plausTimeout := by
  have e : (stripAdj s'.meas).chan[1] = (stripAdj s.meas).chan[1] := by rw [h.chan]
  unfold stripAdj at e
  simp only [Vector.getElem_map] at e
  exact ⟨(congrArg MeasChan.timerRunning e :), (congrArg MeasChan.timer e :),
    (congrArg MeasChan.plausTimeout e :)⟩

/-- one step: either nothing but menu, display, settings, time or samples, or the evaluation of a
    measurement -/
theorem step_eff {c : Conf} {s s' : Sys} {e : Ev} (h : Inv c s) (hs : step c s e = some s') :
    (¬ (e = .measureWork ∧ s.meas.resultAvail = true) ∧ Calm s s') ∨
    (e = .measureWork ∧ s.meas.resultAvail = true ∧ ∃ p pl, MeasEff c s s' p pl) := by
  cases e with
  | tick => cases hs; exact Or.inl ⟨by simp, ⟨rfl, rfl, rfl, rfl, rfl, rfl, Or.inl ⟨rfl, rfl⟩, rfl, rfl, Or.inl ⟨⟨rfl, rfl⟩, rfl, rfl⟩⟩⟩
  | adc raw =>
    cases hs
    refine Or.inl ⟨by simp, ⟨rfl, rfl, rfl, rfl, rfl, rfl, Or.inl ⟨rfl, rfl⟩, ?_, ?_, Or.inl ⟨⟨rfl, rfl⟩, rfl, rfl⟩⟩⟩
    · show (adcIsr s.now s.meas raw).active = _
      unfold adcIsr
      simp only []
      split <;> rfl
    · show (stripAdj (adcIsr s.now s.meas raw)).chan = _
      unfold adcIsr
      simp only []
      split <;> rfl
  | eeIsr =>
    obtain ⟨set, -, hs⟩ := Option.bind_eq_some_iff.mp hs
    cases hs
    exact Or.inl ⟨by simp, ⟨rfl, rfl, rfl, rfl, rfl, rfl, Or.inl ⟨rfl, rfl⟩, rfl, rfl, Or.inl ⟨⟨rfl, rfl⟩, rfl, rfl⟩⟩⟩
  | eeDone => cases hs; exact Or.inl ⟨by simp, ⟨rfl, rfl, rfl, rfl, rfl, rfl, Or.inl ⟨rfl, rfl⟩, rfl, rfl, Or.inl ⟨⟨rfl, rfl⟩, rfl, rfl⟩⟩⟩
  | measureWork =>
    rcases measureWork_eff h hs with ⟨h1, rfl⟩ | ⟨h1, h2⟩
    · exact Or.inl ⟨by rw [h1]; simp, Calm.refl _⟩
    · exact Or.inr ⟨rfl, h1, h2⟩
  | menuWork => exact Or.inl ⟨by simp, (Quiet.menuWork c s _ hs).calm⟩
  | displayWork =>
    obtain ⟨pd, -, hs⟩ := Option.bind_eq_some_iff.mp hs
    cases hs
    exact Or.inl ⟨by simp, ⟨rfl, rfl, rfl, rfl, rfl, rfl, Or.inl ⟨rfl, rfl⟩, rfl, rfl, Or.inl ⟨⟨rfl, rfl⟩, rfl, rfl⟩⟩⟩
  | buttonsWork pinb => exact Or.inl ⟨by simp, (Quiet.buttonsWork c s pinb _ hs).calm⟩
  | settingsWork => cases hs; exact Or.inl ⟨by simp, ⟨rfl, rfl, rfl, rfl, rfl, rfl, Or.inl ⟨rfl, rfl⟩, rfl, rfl, Or.inl ⟨⟨rfl, rfl⟩, rfl, rfl⟩⟩⟩

/-- the measurement is moved by samples and evaluations only -/
theorem step_meas {c : Conf} {s s' : Sys} {e : Ev} (h : Inv c s) (hs : step c s e = some s')
    (h1 : ∀ x, e ≠ .adc x) (h2 : ¬ (e = .measureWork ∧ s.meas.resultAvail = true)) :
    stripAdj s'.meas = stripAdj s.meas := by
  cases e with
  | tick => cases hs; rfl
  | adc x => exact absurd rfl (h1 x)
  | eeIsr => obtain ⟨_, -, hs⟩ := Option.bind_eq_some_iff.mp hs; cases hs; rfl
  | eeDone => cases hs; rfl
  | measureWork =>
    rcases measureWork_eff h hs with ⟨-, rfl⟩ | ⟨h3, -⟩
    · rfl
    · exact absurd ⟨rfl, h3⟩ h2
  | menuWork => exact (Quiet.menuWork c s _ hs).meas
  | displayWork => obtain ⟨_, -, hs⟩ := Option.bind_eq_some_iff.mp hs; cases hs; rfl
  | buttonsWork pinb => exact (Quiet.buttonsWork c s pinb _ hs).meas
  | settingsWork => cases hs; rfl

/-- only the tick interrupt moves the time -/
theorem step_now {c : Conf} {s s' : Sys} {e : Ev} (h : Inv c s) (hs : step c s e = some s') (hn : e ≠ .tick) :
    s'.now = s.now := by
  cases e with
  | tick => exact absurd rfl hn
  | adc x => cases hs; rfl
  | eeIsr => obtain ⟨_, -, hs⟩ := Option.bind_eq_some_iff.mp hs; cases hs; rfl
  | eeDone => cases hs; rfl
  | measureWork =>
    rcases measureWork_eff h hs with ⟨-, rfl⟩ | ⟨-, p, pl, hm⟩
    · rfl
    · exact hm.now
  | menuWork => exact (Quiet.menuWork c s _ hs).now
  | displayWork => obtain ⟨_, -, hs⟩ := Option.bind_eq_some_iff.mp hs; cases hs; rfl
  | buttonsWork pinb => exact (Quiet.buttonsWork c s pinb _ hs).now
  | settingsWork => cases hs; rfl

end Verif
