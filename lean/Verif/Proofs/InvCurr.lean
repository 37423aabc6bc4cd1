import Verif.Proofs.Inv
import Verif.Proofs.Filter
/-
The current controller keeps its invariant.
-/
namespace Verif
open Spec

theorem intToFixpt_small {i : Int} (h : -131071 ≤ i ∧ i ≤ 131071) : intToFixpt i = some (i * 64) := by
  simp only [intToFixpt, intToFixptBig, ck32_eq (x := i * 64) (by unfold S32; omega),
    Option.bind_eq_bind, Option.bind_some, fixptDeflate_eq, pure]
  rw [sat_eq (by omega) (by omega)]

/-- what the low-pass filter of the current model does in the range used here -/
theorem lpFixptRun_ok {b x k : Int} (hk : 0 < k) (hk2 : k ≤ 24) (hb0 : 0 ≤ b)
    (hb : 2 * b < 2 * (3200 * k) + k) (hx : 0 ≤ x ∧ x ≤ 3200) :
    ∃ b' y, lpFixptRun b x (k * 64) = some (b', y) ∧ 0 ≤ b' ∧ 2 * b' < 2 * (3200 * k) + k ∧
      0 ≤ y ∧ y ≤ 3200 := by
  obtain ⟨u1, u2⟩ := lfStep_upper hk hb0 hb hx.2
  have l1 := lfStep_nonneg hk hb0 hx.1
  obtain ⟨v1, v2⟩ := lfStep_upper (x := 0) (M := 3200) hk l1 u1 (by omega)
  exact ⟨_, _, lpFixptRun_eq hk (by omega) hb0 hb hx.1 hx.2 (by omega), l1, u1,
    rdiv_nonneg hk l1, v2⟩

theorem syncing_ok {b x : Int} (hb0 : 0 ≤ b) (hb : 2 * b < 2 * (3200 * 24) + 24)
    (hx : 0 ≤ x ∧ x ≤ 3200) :
    ∃ r st b', ((do
      let d24 ← intToFixpt 24
      let (m, r) ← lpFixptRun b x d24
      let diff ← fixptSub r x
      let a ← fixptAbs diff
      return (r, if a < 64 then RState.enabled else .syncing, m)) : Option (Int × RState × Int)) =
        some (r, st, b') ∧ (0 ≤ r ∧ r ≤ 3200) ∧ 0 ≤ b' ∧ 2 * b' < 2 * (3200 * 24) + 24 ∧
        st = (if (r - x).natAbs < 64 then .enabled else .syncing) := by
  obtain ⟨b', y, e, h1, h2, h3, h4⟩ := lpFixptRun_ok (by decide) (by decide) hb0 hb hx
  have e1 : fixptSub y x = some (y - x) := by
    rw [fixptSub_eq (by unfold S24; omega) (by unfold S24; omega), sat_eq (by omega) (by omega)]
  have e2 : fixptAbs (y - x) = some ((y - x).natAbs : Int) := by
    unfold fixptAbs fixptNeg
    rw [FIXPT_MIN_eq]
    split
    · rw [if_neg (by omega), ck24_eq (by unfold S24; omega)]; congr 1; omega
    · congr 1; omega
  refine ⟨y, _, b', ?_, ⟨h3, h4⟩, h1, h2, rfl⟩
  have e0 : intToFixpt 24 = some (24 * 64) := intToFixpt_small (by omega)
  simp only [e0, e, e1, e2, Option.bind_eq_bind, Option.bind_some, pure]
  congr 4
  exact propext (by omega)

theorem contrcurrSelect_ok {cc : ContrCurr} {ocr x : Int} (h : CcInv cc ocr)
    (hx : 0 ≤ x ∧ x ≤ 3200) :
    ∃ r st m, contrcurrSelect cc x = some (r, st, m) ∧ (0 ≤ r ∧ r ≤ 3200) ∧ 0 ≤ m ∧
      (st = .disabled → 2 * m < 2 * (3200 * 16) + 16) ∧ 2 * m < 2 * (3200 * 24) + 24 := by
  unfold contrcurrSelect
  cases hst : cc.rState with
  | disabled =>
    simp only []
    split
    · obtain ⟨r, st, b', e, h1, h2, h3, h4⟩ := syncing_ok h.model0 h.model' hx
      refine ⟨r, st, b', e, h1, h2, ?_, h3⟩
      intro hh; rw [hh] at h4; split at h4 <;> cases h4
    · obtain ⟨b', y, e, h1, h2, h3, h4⟩ := lpFixptRun_ok (k := 16) (by decide) (by decide) h.model0
        (h.model hst) h.prevY
      have e0 : intToFixpt 16 = some (16 * 64) := intToFixpt_small (by omega)
      refine ⟨y, .disabled, b', ?_, ⟨h3, h4⟩, h1, fun _ => h2, by omega⟩
      simp only [e0, e, Option.bind_eq_bind, Option.bind_some, pure]
  | syncing =>
    obtain ⟨r, st, b', e, h1, h2, h3, h4⟩ := syncing_ok h.model0 h.model' hx
    refine ⟨r, st, b', e, h1, h2, ?_, h3⟩
    intro hh; rw [hh] at h4; split at h4 <;> cases h4
  | enabled =>
    simp only []
    split
    · exact ⟨x, .disabled, x, rfl, hx, hx.1, fun _ => by omega, by omega⟩
    · exact ⟨x, .enabled, cc.model, rfl, hx, h.model0, (fun hh => by cases hh), h.model'⟩

/-- with a set point of 0 A only the integral can produce a current -/
theorem pidRun_zero_sp {p p' : Pid} {dt r y : Int} (h : pidRun p dt r = some (p', y))
    (hsp : p.setpoint = 0) (hr : 0 ≤ r ∧ r ≤ 3200) (hk : p.k = contrcurrFactors)
    (hi : p.iNeg = -320 ∧ p.iPos = 320) (hy : p.yNeg = 0 ∧ p.yPos = 3200) : y ≤ 320 := by
  obtain ⟨e, pt, kie, inc, i0, res0, de, d, pe, res, h1, h2, h3, h4, h5, h6, h7, h8, h9, h10,
    rfl, rfl⟩ := pidRun_inv h
  have he := fixptSub_inv h1
  rw [hsp, sat_eq (by omega) (by omega)] at he
  obtain ⟨_, _, hpt⟩ := fixptMul_inv h2
  have hkp : p.k.kp = 115 := by rw [hk]; rfl
  have hkd : p.k.kd = 0 := by rw [hk]; rfl
  rw [hkp] at hpt
  obtain ⟨c1, c2⟩ := cClamp_range (v := i0) (lo := p.iNeg) (hi := p.iPos) (by omega)
  have hres0 := fixptAdd_inv h6
  have hres := fixptAdd_inv h10
  have hd : d ≤ 0 := by
    rw [hkd] at h8
    by_cases hdt : dt = 0
    · subst hdt
      have := (fixptMulDiv_zero h8).2 (by omega)
      omega
    · obtain ⟨_, m, n, hm, hn, hdd⟩ := fixptMulDiv_prodQuot hdt h8
      have hm0 : m = 0 := NearestUp.unique (by decide) hm (by unfold NearestUp; omega)
      have hn0 : n = 0 := by
        subst hm0
        exact NearestAway.unique hdt hn (by unfold NearestAway; simp; omega)
      subst hn0
      rw [hdd]; unfold sat; omega
  have hpt0 : pt ≤ 0 := by rw [hpt]; unfold sat; omega
  have h0 : res0 ≤ 320 := by rw [hres0]; unfold sat; omega
  have h1' : res ≤ 320 := by rw [hres]; unfold sat; omega
  rw [hy.1, hy.2]
  unfold cClamp cMin cMax
  split_ifs <;> omega

/-- everything the rest of the firmware needs to know about one run of the current controller -/
theorem contrcurrRun_ok {s : Sys} {x : Int} (h : CcInv s.cc s.ocr) (hx : 0 ≤ x ∧ x ≤ 3200) :
    ∃ cc' ocr', contrcurrRun s x = some { s with cc := cc', ocr := ocr' } ∧ CcInv cc' ocr' ∧
      cc'.pid.setpoint = s.cc.pid.setpoint ∧ cc'.restricted = s.cc.restricted ∧
      cc'.emerg = s.cc.emerg ∧
      ∃ y, pwmDuty y = some ocr' ∧ 0 ≤ y ∧ y ≤ 3200 ∧ (s.cc.restricted = true → y ≤ 1280) ∧
        (s.cc.pid.setpoint = 0 → y ≤ 320) := by
  unfold contrcurrRun
  rw [h.en]
  simp only [Bool.not_true, Bool.false_eq_true, if_false]
  split
  · rename_i hem
    refine ⟨s.cc, s.ocr, rfl, h, rfl, rfl, rfl, 0, ?_, by omega, by omega, by omega, by omega⟩
    rw [h.off hem]; exact Props.C13_endpoints.1
  rename_i hem
  obtain ⟨dt, e1, hdt⟩ := elapsedDt_ok s.now s.cc.timer
  obtain ⟨r, st, m, e2, hr, hm0, hm1, hm2⟩ := contrcurrSelect_ok h hx
  obtain ⟨i, pe, y, e3, hp, hy1, hy2⟩ := pidRun_ok h.range (dt := dt) (r := r) (by omega) hdt
  have hz := fun hsp => pidRun_zero_sp e3 hsp hr h.k ⟨h.lim.1, h.lim.2.1⟩ h.lim.2.2
  rw [h.lim.2.2.1] at hy1
  rw [h.lim.2.2.2] at hy2
  generalize hy' : (if s.cc.restricted then (if y > 1280 then 1280 else y) else y) = y'
  have b1 : 0 ≤ y' ∧ y' ≤ 3200 := by rw [← hy']; split_ifs <;> omega
  have b2 : s.cc.restricted = true → y' ≤ 1280 := by
    intro hh; rw [← hy', if_pos hh]; split_ifs <;> omega
  have b3 : s.cc.pid.setpoint = 0 → y' ≤ 320 := by
    intro hh; have := hz hh; rw [← hy']; split_ifs <;> omega
  obtain ⟨d, hd, e4⟩ := pwmcurrSet_ok { s with
    cc := { s.cc with
      timer := timerSetNow s.now, rState := st, model := m,
      pid := { s.cc.pid with integr := i, prevE := pe }, prevY := y' } } b1
  refine ⟨{ s.cc with
      timer := timerSetNow s.now, rState := st, model := m,
      pid := { s.cc.pid with integr := i, prevE := pe }, prevY := y' }, d, ?_, ⟨h.en, h.k, h.lim, h.sp, hp, b1, hm0, hm1, hm2, ⟨y', b1, hd⟩, ?_⟩, rfl, rfl, rfl,
    y', hd, b1.1, b1.2, b2, b3⟩
  · simp only [e1, e2, e3, Option.bind_eq_bind, Option.bind_some, hy']
    exact e4
  · intro hh; exact absurd hh hem

theorem contrcurrSetFeedback_ok {s : Sys} {x : Int} (h : CcInv s.cc s.ocr) (hx : 0 ≤ x ∧ x ≤ 3200) :
    ∃ cc' ocr', contrcurrSetFeedback s x = some { s with cc := cc', ocr := ocr' } ∧ CcInv cc' ocr' ∧
      cc'.pid.setpoint = s.cc.pid.setpoint ∧ cc'.restricted = s.cc.restricted ∧
      cc'.emerg = s.cc.emerg ∧
      ∃ y, pwmDuty y = some ocr' ∧ 0 ≤ y ∧ y ≤ 3200 ∧ (s.cc.restricted = true → y ≤ 1280) ∧
        (s.cc.pid.setpoint = 0 → y ≤ 320) := by
  have h' : CcInv { s.cc with feedback := x } s.ocr := { h with }
  exact contrcurrRun_ok (s := { s with cc := { s.cc with feedback := x } }) h' hx

theorem contrcurrSetEmerg_ok {s : Sys} (flags : BitVec 8) (h : CcInv s.cc s.ocr) :
    ∃ ocr', contrcurrSetEmerg s flags =
        some { s with cc := { s.cc with emerg := flags }, ocr := ocr' } ∧
      CcInv { s.cc with emerg := flags } ocr' := by
  unfold contrcurrSetEmerg
  split
  · simp only []
    split
    · refine ⟨0x1FFF, pwmcurrSet_zero _, { h with
        duty := ⟨0, by decide, Props.C13_endpoints.1⟩, off := fun _ => rfl }⟩
    · rename_i _ h0
      exact ⟨s.ocr, rfl, { h with off := fun hh => absurd hh h0 }⟩
  · rename_i hh
    rw [ne_eq, not_not] at hh
    subst hh
    exact ⟨s.ocr, rfl, { h with }⟩

theorem contrcurrSetSetpoint_ok {s : Sys} {w : Int} (h : CcInv s.cc s.ocr) (hw : 0 ≤ w ∧ w ≤ 3200) :
    CcInv (contrcurrSetSetpoint s w).cc (contrcurrSetSetpoint s w).ocr :=
  { h with
    sp := hw
    range := { h.range with sp := ⟨hw.1, by show w ≤ 30720; omega⟩ } }

theorem contrcurrSetRestricted_ok {s : Sys} (b : Bool) (h : CcInv s.cc s.ocr) :
    CcInv (contrcurrSetRestricted s b).cc (contrcurrSetRestricted s b).ocr :=
  { h with }

end Verif
