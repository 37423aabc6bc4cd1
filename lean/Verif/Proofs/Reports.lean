import Verif.Model.Reports
import Verif.Proofs.Effects
import Verif.Proofs.Measure
import Verif.Proofs.Pid
/-
The functions with their reports do what the functions without them do.
-/
namespace Verif
open Spec

theorem pidRunR_erase (p : Pid) (dt r : Int) : (pidRunR p dt r).map (fun x => (x.1, x.2.1)) = pidRun p dt r := by
  unfold pidRunR pidRun
  simp only [Option.bind_eq_bind, Option.map_bind, Function.comp_def, pure, Option.map_some]

theorem pidRunR_some {p p' : Pid} {dt r y : Int} {ts : List (Term × Int)} (h : pidRunR p dt r = some (p', y, ts)) :
    pidRun p dt r = some (p', y) := by
  rw [← pidRunR_erase, h]
  rfl

theorem contrcurrRunR_erase (s : Sys) (r : Int) : (contrcurrRunR s r).map Prod.fst = contrcurrRun s r := by
  unfold contrcurrRunR contrcurrRun
  split
  · rfl
  split
  · rfl
  simp only [← pidRunR_erase, Option.bind_eq_bind, Option.map_bind, Function.comp_def, pure, Option.map_some,
    Option.bind_map, Option.bind_fun_some]

theorem contrcurrSetFeedbackR_erase (s : Sys) (r : Int) :
    (contrcurrSetFeedbackR s r).map Prod.fst = contrcurrSetFeedback s r := by
  unfold contrcurrSetFeedbackR contrcurrSetFeedback
  rw [← contrcurrRunR_erase]
  simp only [Option.bind_eq_bind, Option.map_bind, Function.comp_def, pure, Option.map_some]
  rw [Option.map_eq_bind]
  rfl

theorem contrtempRunR_erase (s : Sys) (r : Int) : (contrtempRunR s r).map Prod.fst = contrtempRun s r := by
  unfold contrtempRunR contrtempRun
  split
  · rfl
  split
  · rfl
  simp only [← pidRunR_erase, Option.bind_eq_bind, Option.map_bind, Function.comp_def, pure, Option.map_some,
    Option.bind_map]

theorem contrtempSetFeedbackR_erase (s : Sys) (r : Int) :
    (contrtempSetFeedbackR s r).map Prod.fst = contrtempSetFeedback s r := by
  unfold contrtempSetFeedbackR contrtempSetFeedback
  by_cases h : r ≠ s.ct.feedback
  · simp only [if_pos h, ← contrtempRunR_erase, Option.bind_eq_bind, Option.map_bind, Function.comp_def, pure,
      Option.map_some]
    rw [Option.map_eq_bind]
    rfl
  · simp only [if_neg h, ← contrtempRunR_erase, Option.bind_eq_bind, Option.map_bind, Function.comp_def, pure,
      Option.map_some]
    rw [Option.map_eq_bind]
    rfl

theorem meastempResultR_erase (s : Sys) (p : Int) (pl : Plaus) :
    (meastempResultR s p pl).map Prod.fst = meastempResult s p pl := by
  unfold meastempResultR meastempResult
  cases pl
  · exact contrtempSetFeedbackR_erase _ _
  · exact contrtempSetFeedbackR_erase _ _
  · rfl

theorem meascurrResultR_erase (s : Sys) (p : Int) (pl : Plaus) :
    (meascurrResultR s p pl).map Prod.fst = meascurrResult s p pl := by
  unfold meascurrResultR meascurrResult
  cases pl <;> simp only [← contrcurrSetFeedbackR_erase, Option.bind_eq_bind, Option.map_bind, Function.comp_def, pure,
    Option.map_some, Option.bind_map, Option.bind_some]

theorem measHandleR_erase (c : Conf) (now : Int) (m : Meas) (mc : MeasCurr) :
    (measHandleR c now m mc).map (fun x => (x.1, x.2.1, x.2.2.1, x.2.2.2.1)) = measHandle c now m mc := by
  unfold measHandleR measHandle
  by_cases h : m.active = 0
  · have h2 : m.active < 2 := by omega
    simp only [if_pos h, dif_pos h2, Option.bind_eq_bind, Option.map_bind, Function.comp_def, pure, Option.map_some]
  · by_cases h2 : m.active < 2
    · simp only [if_neg h, dif_pos h2, Option.bind_eq_bind, Option.map_bind, Function.comp_def, pure, Option.map_some]
    · simp only [if_neg h, dif_neg h2, Option.bind_eq_bind, Option.map_bind, Function.comp_def, pure, Option.map_none]

theorem measureWorkR_erase (c : Conf) (s : Sys) : (measureWorkR c s).map Prod.fst = measureWork c s := by
  unfold measureWorkR measureWork
  cases s.meas.resultAvail
  · rfl
  · simp only [if_true, ← measHandleR_erase, Option.bind_eq_bind, Option.map_bind, Function.comp_def, pure,
      Option.map_some, Option.bind_map]
    congr 1
    funext ⟨m, mc, p, pl, calls⟩
    simp only []
    by_cases h : m.active = 1
    · simp only [if_pos h, ← meastempResultR_erase, Option.map_bind, Option.bind_map, Option.map_some, Function.comp_def]
    · simp only [if_neg h, ← meascurrResultR_erase, Option.map_bind, Option.bind_map, Option.map_some, Function.comp_def]

/-! ### what is reported -/

/-- the reports of a run of a PID controller -/
theorem pidRunR_terms {p p' : Pid} {dt r y : Int} {ts : List (Term × Int)} (h : pidRunR p dt r = some (p', y, ts)) :
    ∃ e pt de d res0 res, ts = [(.e, e), (.p, pt), (.i, p'.integr), (.d, d), (.pe, p'.prevE)] ∧
      fixptSub p.setpoint r = some e ∧ fixptMul p.k.kp e = some pt ∧ fixptAdd pt p'.integr = some res0 ∧
      fixptSub e p.prevE = some de ∧ fixptMulDiv de p.k.kd dt = some d ∧ fixptAdd res0 d = some res ∧
      fixptDiv e p.k.decay = some p'.prevE ∧ y = cClamp res p.yNeg p.yPos := by
  unfold pidRunR at h
  obtain ⟨e, h1, h⟩ := Option.bind_eq_some_iff.mp h
  obtain ⟨pt, h2, h⟩ := Option.bind_eq_some_iff.mp h
  obtain ⟨kie, h3, h⟩ := Option.bind_eq_some_iff.mp h
  obtain ⟨inc, h4, h⟩ := Option.bind_eq_some_iff.mp h
  obtain ⟨i0, h5, h⟩ := Option.bind_eq_some_iff.mp h
  obtain ⟨res0, h6, h⟩ := Option.bind_eq_some_iff.mp h
  obtain ⟨de, h7, h⟩ := Option.bind_eq_some_iff.mp h
  obtain ⟨d, h8, h⟩ := Option.bind_eq_some_iff.mp h
  obtain ⟨pe, h9, h⟩ := Option.bind_eq_some_iff.mp h
  obtain ⟨res, h10, h⟩ := Option.bind_eq_some_iff.mp h
  cases h
  exact ⟨e, pt, de, d, res0, res, rfl, h1, h2, h6, h7, h8, h10, h9, rfl⟩

/-- the reports of a run of the current controller -/
theorem contrcurrRunR_calls {s s' : Sys} {x : Int} {calls : List (Slot × Int)} (h : contrcurrRunR s x = some (s', calls))
    (hen : s.cc.enabled = true) :
    (s.cc.emerg ≠ 0 ∧ calls = []) ∨
    (s.cc.emerg = 0 ∧ ∃ dt r y ts, elapsedDt s.now s.cc.timer = some dt ∧
      contrcurrSelect s.cc x = some (r, s'.cc.rState, s'.cc.model) ∧
      pidRunR s.cc.pid dt r = some (s'.cc.pid, y, ts) ∧
      calls = (.rs, s'.cc.rState.code) :: (.cr2, r) :: ts.map (fun x => (.pidC x.1, x.2)) ++ [(.cy, s'.cc.prevY)]) := by
  unfold contrcurrRunR at h
  rw [if_neg (by rw [hen]; decide)] at h
  split at h
  · rename_i he
    cases h
    exact Or.inl ⟨he, rfl⟩
  · rename_i he
    rw [ne_eq, not_not] at he
    obtain ⟨dt, h1, h⟩ := Option.bind_eq_some_iff.mp h
    obtain ⟨⟨r, st, m⟩, h2, h⟩ := Option.bind_eq_some_iff.mp h
    obtain ⟨⟨pid, y, ts⟩, h3, h⟩ := Option.bind_eq_some_iff.mp h
    obtain ⟨s1, h4, h⟩ := Option.bind_eq_some_iff.mp h
    obtain ⟨d, -, h4⟩ := Option.bind_eq_some_iff.mp h4
    cases h4
    cases h
    exact Or.inr ⟨he, dt, r, y, ts, h1, h2, h3, rfl⟩

private theorem setEmerg_ct {t t' : Sys} {fl : BitVec 8} (h : contrcurrSetEmerg t fl = some t') : t'.ct = t.ct := by
  unfold contrcurrSetEmerg at h
  split at h
  · simp only at h
    split at h
    · unfold pwmcurrSet at h
      obtain ⟨d, -, h⟩ := Option.bind_eq_some_iff.mp h
      cases h
      rfl
    · cases h
      rfl
  · cases h
    rfl

/-- the reports of a run of the temperature controller -/
theorem contrtempRunR_calls {s s' : Sys} {x : Int} {calls : List (Slot × Int)}
    (h : contrtempRunR s x = some (s', calls)) :
    ((s.ct.enabled = false ∨ s.ct.emergency = true) ∧ calls = []) ∨
    (s.ct.enabled = true ∧ s.ct.emergency = false ∧ ∃ dt y ts, elapsedDt s.now s.ct.dtTimer = some dt ∧
      pidRunR s.ct.pid dt x = some (s'.ct.pid, y, ts) ∧
      calls = ts.map (fun x => (.pidT x.1, x.2)) ++ [(.ty1, y), (.ty2, s'.cc.pid.setpoint)]) := by
  unfold contrtempRunR at h
  split at h
  · rename_i hen
    cases h
    exact Or.inl ⟨Or.inl (by simpa using hen), rfl⟩
  split at h
  · rename_i hem
    cases h
    exact Or.inl ⟨Or.inr hem, rfl⟩
  · rename_i hen hem
    refine Or.inr ⟨by simpa using hen, by simpa using hem, ?_⟩
    obtain ⟨dt, h1, h⟩ := Option.bind_eq_some_iff.mp h
    obtain ⟨⟨pid, y, ts⟩, h2, h⟩ := Option.bind_eq_some_iff.mp h
    obtain ⟨a, h3, h⟩ := Option.bind_eq_some_iff.mp h
    obtain ⟨s1, h4, h⟩ := Option.bind_eq_some_iff.mp h
    have hct : s1.ct.pid = pid := (congrArg ContrTemp.pid (setEmerg_ct h4) :)
    cases h
    exact ⟨dt, y, ts, h1, by rw [← hct] at h2; exact h2, by simp only [List.append_assoc]; rfl⟩

/-- the reports of the current measurement -/
theorem meascurrResultR_calls {s s' : Sys} {p : Int} {pl : Plaus} {calls : List (Slot × Int)}
    (hi : CcInv s.cc s.ocr)
    (h : meascurrResultR s p pl = some (s', calls)) :
    ∃ run, calls = (if s'.cc.feedback ≠ s.cc.feedback then [(.cr1, s'.cc.feedback)] else []) ++ run ∧
      ((¬ (pl ≠ .timeout ∧ s'.cc.emerg = 0) ∧ run = []) ∨
       ((pl ≠ .timeout ∧ s'.cc.emerg = 0) ∧ ∃ dt r y ts, elapsedDt s.now s.cc.timer = some dt ∧
          contrcurrSelect s.cc s'.cc.feedback = some (r, s'.cc.rState, s'.cc.model) ∧
          pidRunR s.cc.pid dt r = some (s'.cc.pid, y, ts) ∧
          run = (.rs, s'.cc.rState.code) :: (.cr2, r) :: ts.map (fun x => (.pidC x.1, x.2)) ++
            [(.cy, s'.cc.prevY)])) := by
  have fb : ∀ (fl : BitVec 8) (o : Int) (mc : MeasCurr) (x : Int) (s2 : Sys) (cs : List (Slot × Int)),
      contrcurrSetFeedbackR { s with cc := { s.cc with emerg := fl }, ocr := o, mcurr := mc } x = some (s2, cs) →
      s2.cc.feedback = x ∧ s2.cc.emerg = fl ∧ ∃ run, cs = (if x ≠ s.cc.feedback then [(.cr1, x)] else []) ++ run ∧
      ((fl ≠ 0 ∧ run = []) ∨ (fl = 0 ∧ ∃ dt r y ts, elapsedDt s.now s.cc.timer = some dt ∧
          contrcurrSelect s.cc x = some (r, s2.cc.rState, s2.cc.model) ∧
          pidRunR s.cc.pid dt r = some (s2.cc.pid, y, ts) ∧
          run = (.rs, s2.cc.rState.code) :: (.cr2, r) :: ts.map (fun x => (.pidC x.1, x.2)) ++
            [(.cy, s2.cc.prevY)])) := by
    intro fl o mc x s2 cs hh
    unfold contrcurrSetFeedbackR at hh
    obtain ⟨⟨s3, more⟩, h1, hh⟩ := Option.bind_eq_some_iff.mp hh
    cases hh
    have h1' := congrArg (Option.map Prod.fst) h1
    rw [contrcurrRunR_erase] at h1'
    obtain ⟨-, -, -, j4, -, -, j7, -⟩ := currRun_eff h1'
    refine ⟨j7, j4, more, rfl, ?_⟩
    exact contrcurrRunR_calls h1 hi.en
  unfold meascurrResultR at h
  cases pl
  · obtain ⟨s1, e1, h⟩ := Option.bind_eq_some_iff.mp h
    obtain ⟨o1, e1', -⟩ := contrcurrSetEmerg_ok (s.cc.emerg &&& ~~~1#8) hi
    rw [e1'] at e1
    cases e1
    obtain ⟨⟨s2, cs⟩, e2, h⟩ := Option.bind_eq_some_iff.mp h
    cases h
    obtain ⟨k1, k2, run, k3, k4⟩ := fb _ _ _ _ _ _ e2
    refine ⟨run, by rw [← k1] at k3; exact k3, ?_⟩
    rcases k4 with ⟨k4, k5⟩ | ⟨k4, k5⟩
    · exact Or.inl ⟨fun hh => k4 (k2.symm.trans hh.2), k5⟩
    · rw [← k1] at k5
      exact Or.inr ⟨⟨by decide, k2.trans k4⟩, k5⟩
  · obtain ⟨s1, e1, h⟩ := Option.bind_eq_some_iff.mp h
    obtain ⟨o1, e1', -⟩ := contrcurrSetEmerg_ok s.cc.emerg hi
    rw [e1'] at e1
    cases e1
    obtain ⟨⟨s2, cs⟩, e2, h⟩ := Option.bind_eq_some_iff.mp h
    cases h
    obtain ⟨k1, k2, run, k3, k4⟩ := fb _ _ _ _ _ _ e2
    refine ⟨run, by rw [← k1] at k3; exact k3, ?_⟩
    rcases k4 with ⟨k4, k5⟩ | ⟨k4, k5⟩
    · exact Or.inl ⟨fun hh => k4 (k2.symm.trans hh.2), k5⟩
    · rw [← k1] at k5
      exact Or.inr ⟨⟨by decide, k2.trans k4⟩, k5⟩
  · obtain ⟨s1, e1, h⟩ := Option.bind_eq_some_iff.mp h
    obtain ⟨o1, e1', -⟩ := contrcurrSetEmerg_ok (s.cc.emerg ||| 1#8) hi
    rw [e1'] at e1
    cases e1
    cases h
    exact ⟨[], by simp, Or.inl ⟨by simp, rfl⟩⟩

/-- the reports of the temperature measurement -/
theorem meastempResultR_calls {s s' : Sys} {p : Int} {pl : Plaus} {calls : List (Slot × Int)}
    (h : meastempResultR s p pl = some (s', calls)) :
    ∃ run, calls = (if s'.ct.feedback ≠ s.ct.feedback then [(.tr, s'.ct.feedback)] else []) ++ run ∧
      ((¬ (pl ≠ .timeout ∧ s.ct.enabled = true ∧ s'.ct.emergency = false) ∧ run = []) ∨
       ((pl ≠ .timeout ∧ s.ct.enabled = true ∧ s'.ct.emergency = false) ∧ ∃ dt y ts,
          elapsedDt s.now s.ct.dtTimer = some dt ∧
          pidRunR s.ct.pid dt s'.ct.feedback = some (s'.ct.pid, y, ts) ∧
          run = ts.map (fun x => (.pidT x.1, x.2)) ++ [(.ty1, y), (.ty2, s'.cc.pid.setpoint)])) := by
  have fb : ∀ (t : Sys) (x : Int) (s2 : Sys) (cs : List (Slot × Int)), contrtempSetFeedbackR t x = some (s2, cs) →
      s2.ct.feedback = x ∧ s2.ct.emergency = t.ct.emergency ∧
      ∃ run, cs = (if x ≠ t.ct.feedback then [(.tr, x)] else []) ++ run ∧
      ((¬ (t.ct.enabled = true ∧ t.ct.emergency = false) ∧ run = []) ∨
       ((t.ct.enabled = true ∧ t.ct.emergency = false) ∧ ∃ dt y ts, elapsedDt t.now t.ct.dtTimer = some dt ∧
          pidRunR t.ct.pid dt x = some (s2.ct.pid, y, ts) ∧
          run = ts.map (fun x => (.pidT x.1, x.2)) ++ [(.ty1, y), (.ty2, s2.cc.pid.setpoint)])) := by
    intro t x s2 cs hh
    have he := congrArg (Option.map Prod.fst) hh
    rw [contrtempSetFeedbackR_erase] at he
    obtain ⟨-, -, j3, -, -, -, j7, -⟩ := tempFeedback_eff he
    refine ⟨j7, j3, ?_⟩
    unfold contrtempSetFeedbackR at hh
    by_cases hx : x ≠ t.ct.feedback
    · simp only [if_pos hx] at hh
      obtain ⟨⟨s3, more⟩, h1, hh⟩ := Option.bind_eq_some_iff.mp hh
      cases hh
      refine ⟨more, by rw [if_pos hx], ?_⟩
      rcases contrtempRunR_calls h1 with ⟨k1, k2⟩ | ⟨k1, k2, k3⟩
      · refine Or.inl ⟨?_, k2⟩
        rintro ⟨k3, k4⟩
        rcases k1 with k1 | k1
        · exact absurd (k3.symm.trans k1) (by decide)
        · exact absurd (k4.symm.trans k1) (by decide)
      · exact Or.inr ⟨⟨k1, k2⟩, k3⟩
    · simp only [if_neg hx] at hh
      obtain ⟨⟨s3, more⟩, h1, hh⟩ := Option.bind_eq_some_iff.mp hh
      cases hh
      refine ⟨more, by rw [if_neg hx], ?_⟩
      rcases contrtempRunR_calls h1 with ⟨k1, k2⟩ | ⟨k1, k2, k3⟩
      · refine Or.inl ⟨?_, k2⟩
        rintro ⟨k3, k4⟩
        rcases k1 with k1 | k1
        · exact absurd (k3.symm.trans k1) (by decide)
        · exact absurd (k4.symm.trans k1) (by decide)
      · exact Or.inr ⟨⟨k1, k2⟩, k3⟩
  unfold meastempResultR at h
  cases pl
  · simp only at h
    obtain ⟨w0, -, hw⟩ := tempEmerg_eff s false
    rw [hw] at h
    obtain ⟨k1, k2, run, k3, k4⟩ := fb _ _ _ _ h
    have k2 : s'.ct.emergency = false := k2
    refine ⟨run, by rw [← k1] at k3; exact k3, ?_⟩
    rw [k1]
    rcases k4 with ⟨k4, k5⟩ | ⟨k4, k5⟩
    · exact Or.inl ⟨fun hh => k4 ⟨hh.2.1, rfl⟩, k5⟩
    · exact Or.inr ⟨⟨by decide, k4.1, k2⟩, k5⟩
  · simp only at h
    obtain ⟨k1, k2, run, k3, k4⟩ := fb _ _ _ _ h
    refine ⟨run, by rw [← k1] at k3; exact k3, ?_⟩
    rw [k1]
    rcases k4 with ⟨k4, k5⟩ | ⟨k4, k5⟩
    · exact Or.inl ⟨fun hh => k4 ⟨hh.2.1, k2.symm.trans hh.2.2⟩, k5⟩
    · exact Or.inr ⟨⟨by decide, k4.1, k2.trans k4.2⟩, k5⟩
  · simp only at h
    obtain ⟨w0, -, hw⟩ := tempEmerg_eff s true
    rw [hw] at h
    cases h
    exact ⟨[], by simp, Or.inl ⟨by simp, rfl⟩⟩

/-- the reports of `measure_work` when a current is evaluated -/
theorem measureWorkR_curr {c : Conf} {s s' : Sys} {calls : List (Slot × Int)} (hi : Inv c s)
    (h : measureWorkR c s = some (s', calls)) (hav : s.meas.resultAvail = true) (hac : s.meas.active = 0) :
    ∃ run, calls = (.mc, s.meas.avgSum / s.meas.avgCount) ::
        (.fc, (meascurrFilter s.mcurr (s.meas.avgSum / s.meas.avgCount)).2) ::
        (if s'.cc.feedback ≠ s.cc.feedback then [(.cr1, s'.cc.feedback)] else []) ++ run ∧
      (s'.cc.emerg ≠ 0 → run = []) ∧
      (s'.cc.emerg = 0 → ∃ dt r y ts, elapsedDt s.now s.cc.timer = some dt ∧
          contrcurrSelect s.cc s'.cc.feedback = some (r, s'.cc.rState, s'.cc.model) ∧
          pidRunR s.cc.pid dt r = some (s'.cc.pid, y, ts) ∧
          run = (.rs, s'.cc.rState.code) :: (.cr2, r) :: ts.map (fun x => (.pidC x.1, x.2)) ++
            [(.cy, s'.cc.prevY)]) := by
  have hs : measureWork c s = some s' := by rw [← measureWorkR_erase, h]; rfl
  unfold measureWorkR at h
  rw [hav] at h
  simp only [if_true] at h
  obtain ⟨⟨m, mc, p, pl, calls0⟩, h1, h⟩ := Option.bind_eq_some_iff.mp h
  -- the measurement
  have hm : m.active = 0 ∧ calls0 = [(.mc, s.meas.avgSum / s.meas.avgCount),
      (.fc, (meascurrFilter s.mcurr (s.meas.avgSum / s.meas.avgCount)).2)] := by
    unfold measHandleR at h1
    obtain ⟨cfg, -, h1⟩ := Option.bind_eq_some_iff.mp h1
    obtain ⟨raw, hr, h1⟩ := Option.bind_eq_some_iff.mp h1
    obtain ⟨-, hraw, r0, r1⟩ := measRaw_value hr hi.meas.sum hi.meas.cnt.1
    have hraw : raw = s.meas.avgSum / s.meas.avgCount := hraw
    rw [← hraw]
    simp only [hac, if_true] at h1
    obtain ⟨ph, -, h1⟩ := Option.bind_eq_some_iff.mp h1
    rw [dif_pos (by decide)] at h1
    obtain ⟨⟨ch, p1, pl1⟩, -, h1⟩ := Option.bind_eq_some_iff.mp h1
    cases h1
    refine ⟨rfl, ?_⟩
    have e1 : toS16 raw = raw := by unfold toS16; omega
    have e2 : toS16 (meascurrFilter s.mcurr raw).2 = (meascurrFilter s.mcurr raw).2 := by
      obtain ⟨f, out, ef, ho⟩ := meascurrFilter_ok s.mcurr ⟨r0, r1⟩
      rw [ef]
      unfold toS16
      omega
    simp only [e1, e2, List.cons_append, List.nil_append]
  obtain ⟨hm1, rfl⟩ := hm
  simp only [hm1] at h
  rw [if_neg (by decide)] at h
  obtain ⟨⟨s1, more⟩, h2, h⟩ := Option.bind_eq_some_iff.mp h
  obtain ⟨m', -, h⟩ := Option.bind_eq_some_iff.mp h
  cases h
  obtain ⟨run, k1, k2⟩ := meascurrResultR_calls (s := { s with meas := m, mcurr := mc }) hi.cc h2
  have h2' : meascurrResult { s with meas := m, mcurr := mc } p pl = some s1 := by
    rw [← meascurrResultR_erase]
    exact congrArg (Option.map Prod.fst) h2
  have htime : pl = .timeout → s1.cc.emerg ≠ 0 := by
    rintro rfl
    obtain ⟨s2, e2, h2'⟩ := Option.bind_eq_some_iff.mp h2'
    obtain ⟨o1, e1', -⟩ := contrcurrSetEmerg_ok (s := { s with meas := m, mcurr := mc }) (s.cc.emerg ||| 1#8) hi.cc
    rw [e1'] at e2
    cases e2
    cases h2'
    show s.cc.emerg ||| 1#8 ≠ 0
    generalize s.cc.emerg = x
    revert x
    decide
  refine ⟨run, by rw [k1]; rfl, fun hh => ?_, fun hh => ?_⟩
  · rcases k2 with ⟨-, k2⟩ | ⟨k2, -⟩
    · exact k2
    · exact absurd k2.2 hh
  · rcases k2 with ⟨k2, -⟩ | ⟨-, k2⟩
    · exact absurd ⟨fun e => htime e hh, hh⟩ k2
    · exact k2

/-- the reports of `measure_work` when a temperature is evaluated -/
theorem measureWorkR_temp {c : Conf} {s s' : Sys} {calls : List (Slot × Int)} (hi : Inv c s)
    (h : measureWorkR c s = some (s', calls)) (hav : s.meas.resultAvail = true) (hac : s.meas.active = 1) :
    ∃ run, calls = (.mt, s.meas.avgSum / s.meas.avgCount) ::
        (if s'.ct.feedback ≠ s.ct.feedback then [(.tr, s'.ct.feedback)] else []) ++ run ∧
      (¬ (s.ct.enabled = true ∧ s'.ct.emergency = false) → run = []) ∧
      (s.ct.enabled = true ∧ s'.ct.emergency = false → ∃ dt y ts, elapsedDt s.now s.ct.dtTimer = some dt ∧
          pidRunR s.ct.pid dt s'.ct.feedback = some (s'.ct.pid, y, ts) ∧
          run = ts.map (fun x => (.pidT x.1, x.2)) ++ [(.ty1, y), (.ty2, s'.cc.pid.setpoint)]) := by
  unfold measureWorkR at h
  rw [hav] at h
  simp only [if_true] at h
  obtain ⟨⟨m, mc, p, pl, calls0⟩, h1, h⟩ := Option.bind_eq_some_iff.mp h
  -- the measurement
  have hm : m.active = 1 ∧ calls0 = [(.mt, s.meas.avgSum / s.meas.avgCount)] := by
    unfold measHandleR at h1
    obtain ⟨cfg, -, h1⟩ := Option.bind_eq_some_iff.mp h1
    obtain ⟨raw, hr, h1⟩ := Option.bind_eq_some_iff.mp h1
    obtain ⟨-, hraw, r0, r1⟩ := measRaw_value hr hi.meas.sum hi.meas.cnt.1
    have hraw : raw = s.meas.avgSum / s.meas.avgCount := hraw
    rw [← hraw]
    simp only [hac] at h1
    rw [if_neg (by decide)] at h1
    obtain ⟨ph, -, h1⟩ := Option.bind_eq_some_iff.mp h1
    rw [dif_pos (by decide)] at h1
    obtain ⟨⟨ch, p1, pl1⟩, -, h1⟩ := Option.bind_eq_some_iff.mp h1
    cases h1
    refine ⟨rfl, ?_⟩
    have e1 : toS16 raw = raw := by unfold toS16; omega
    rw [if_neg (by decide), e1]
  obtain ⟨hm1, rfl⟩ := hm
  simp only [hm1, if_true] at h
  obtain ⟨⟨s1, more⟩, h2, h⟩ := Option.bind_eq_some_iff.mp h
  obtain ⟨m', -, h⟩ := Option.bind_eq_some_iff.mp h
  cases h
  obtain ⟨run, k1, k2⟩ := meastempResultR_calls (s := { s with meas := m, mcurr := mc }) h2
  have h2' : meastempResult { s with meas := m, mcurr := mc } p pl = some s1 := by
    rw [← meastempResultR_erase]
    exact congrArg (Option.map Prod.fst) h2
  have htime : pl = .timeout → s1.ct.emergency = true := by
    rintro rfl
    exact (meastempResult_eff h2').emergency
  refine ⟨run, by rw [k1]; rfl, fun hh => ?_, fun hh => ?_⟩
  · rcases k2 with ⟨-, k2⟩ | ⟨k2, -⟩
    · exact k2
    · exact absurd k2.2 hh
  · rcases k2 with ⟨k2, -⟩ | ⟨-, k2⟩
    · refine absurd ⟨fun e => ?_, hh⟩ k2
      exact absurd ((htime e).symm.trans hh.2) (by decide)
    · exact k2

private theorem sat_S32 (x : Int) : S32 (sat x) := by
  have := sat_range x
  constructor <;> omega

/-- the terms of a PID controller are 24 bit numbers -/
theorem pidRunR_range {p p' : Pid} {dt r y : Int} {ts : List (Term × Int)} (hp : PidRange p')
    (h : pidRunR p dt r = some (p', y, ts)) : ∀ x ∈ ts, S32 x.2 := by
  obtain ⟨e, pt, de, d, res0, res, t1, t2, t3, -, -, t6, -⟩ := pidRunR_terms h
  have h1 : S32 e := by rw [fixptSub_inv t2]; exact sat_S32 _
  have h2 : S32 pt := by rw [(fixptMul_inv t3).2.2]; exact sat_S32 _
  have h3 : S32 d := by
    unfold fixptMulDiv at t6
    obtain ⟨x, -, t6⟩ := Option.bind_eq_some_iff.mp t6
    cases t6
    rw [fixptDeflate_eq]
    exact sat_S32 _
  have h4 : S32 p'.integr := by
    have a1 := hp.iLim.1.1
    have a2 := hp.iLim.2.1.2
    have a3 := hp.integr
    constructor <;> omega
  have h5 : S32 p'.prevE := by
    have := hp.prevE
    constructor <;> omega
  subst t1
  intro x hx
  simp only [List.mem_cons, List.not_mem_nil, or_false] at hx
  rcases hx with rfl | rfl | rfl | rfl | rfl
  · exact h1
  · exact h2
  · exact h4
  · exact h3
  · exact h5

/-- all the values reported are 32 bit numbers -/
theorem measureWorkR_range {c : Conf} {s s' : Sys} {calls : List (Slot × Int)} (hi : Inv c s)
    (h : measureWorkR c s = some (s', calls)) : ∀ x ∈ calls, S32 x.2 := by
  have hs : measureWork c s = some s' := by rw [← measureWorkR_erase, h]; rfl
  have hi' : Inv c s' := hi.measureWork.elim hs
  rcases measureWork_eff hi hs with ⟨hav, -⟩ | ⟨hav, p, pl, hm⟩
  · unfold measureWorkR at h
    rw [hav] at h
    simp only [Bool.false_eq_true, if_false] at h
    cases h
    intro x hx
    cases hx
  have hmean : S32 (s.meas.avgSum / s.meas.avgCount) := by
    obtain ⟨x, -, rfl, h0, h1⟩ := measRaw_ok hi.meas (hi.meas.avail hav)
    constructor <;> omega
  have hact : s.meas.active = 0 ∨ s.meas.active = 1 := by have := hi.meas.act; omega
  rcases hact with ha | ha
  · obtain ⟨hp, f, hf⟩ := hm.curr ha
    obtain ⟨run, k1, k2, k3⟩ := measureWorkR_curr hi h hav ha
    have hfc : S32 (meascurrFilter s.mcurr (s.meas.avgSum / s.meas.avgCount)).2 := by
      obtain ⟨x, -, rfl, h0, h1⟩ := measRaw_ok hi.meas (hi.meas.avail hav)
      obtain ⟨f, out, ef, ho⟩ := meascurrFilter_ok s.mcurr ⟨h0, h1⟩
      rw [ef]
      constructor <;> omega
    have hfb : s'.cc.feedback ≠ s.cc.feedback → 0 ≤ s'.cc.feedback ∧ s'.cc.feedback ≤ 3200 := by
      intro hne
      rw [hf.feedback] at hne ⊢
      have := hi.mcurr
      cases pl with
      | plausible => exact hp
      | notPlausible => exact hi.mcurr
      | timeout => exact absurd rfl hne
    subst k1
    intro x hx
    rcases List.mem_append.mp hx with hx | hx
    · rcases List.mem_cons.mp hx with rfl | hx
      · exact hmean
      rcases List.mem_cons.mp hx with rfl | hx
      · exact hfc
      split at hx
      · next hne =>
        have := hfb hne
        rw [List.mem_singleton.mp hx]
        constructor <;> omega
      · cases hx
    · by_cases hem : s'.cc.emerg = 0
      · obtain ⟨dt, r, y, ts, e1, e2, e3, rfl⟩ := k3 hem
        have hpl : pl ≠ .timeout := by
          rintro rfl
          have := hf.flags
          rw [hem] at this
          exact absurd this (by show (0 : BitVec 8) ≠ s.cc.emerg ||| 1#8; generalize s.cc.emerg = x; revert x; decide)
        have hx' : 0 ≤ s'.cc.feedback ∧ s'.cc.feedback ≤ 3200 := by
          rw [hf.feedback]
          cases pl with
          | plausible => exact hp
          | notPlausible => exact hi.mcurr
          | timeout => exact absurd rfl hpl
        obtain ⟨r', st, m, e2', hr, -⟩ := contrcurrSelect_ok hi.cc hx'
        rw [e2] at e2'
        cases e2'
        rcases List.mem_append.mp hx with hx | hx
        · rcases List.mem_cons.mp hx with rfl | hx
          · show S32 s'.cc.rState.code
            cases s'.cc.rState <;> decide
          rcases List.mem_cons.mp hx with rfl | hx
          · constructor <;> dsimp only <;> omega
          obtain ⟨t, ht, rfl⟩ := List.mem_map.mp hx
          exact pidRunR_range hi'.cc.range e3 t ht
        · rw [List.mem_singleton.mp hx]
          have := hi'.cc.prevY
          constructor <;> dsimp only <;> omega
      · rw [k2 hem] at hx
        cases hx
  · have hf := hm.temp ha
    obtain ⟨run, k1, k2, k3⟩ := measureWorkR_temp hi h hav ha
    subst k1
    intro x hx
    rcases List.mem_append.mp hx with hx | hx
    · rcases List.mem_cons.mp hx with rfl | hx
      · exact hmean
      split at hx
      · rw [List.mem_singleton.mp hx]
        have := hi'.ct.fb
        constructor <;> dsimp only <;> omega
      · cases hx
    · by_cases hrun : s.ct.enabled = true ∧ s'.ct.emergency = false
      · obtain ⟨dt, y, ts, e1, e3, rfl⟩ := k3 hrun
        obtain ⟨q1, q2, q3, q4⟩ := hi.ct.lim
        obtain ⟨l1, l2, -⟩ := pidRun_limits (pidRunR_some e3) (by rw [q1, q2]; decide) (by rw [q3, q4]; decide)
        rcases List.mem_append.mp hx with hx | hx
        · obtain ⟨t, ht, rfl⟩ := List.mem_map.mp hx
          exact pidRunR_range hi'.ct.range e3 t ht
        · rcases List.mem_cons.mp hx with rfl | hx
          · constructor <;> dsimp only <;> omega
          · rw [List.mem_singleton.mp hx]
            have := hi'.cc.sp
            constructor <;> dsimp only <;> omega
      · rw [k2 hrun] at hx
        cases hx

end Verif
