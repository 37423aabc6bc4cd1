import Verif.Proofs.InvCurr
/-
The temperature controller keeps the invariant.
-/
namespace Verif
open Spec

theorem tempToAmps_eq {y : Int} (h : -600000 ≤ y ∧ y ≤ 600000) :
    tempToAmps y = some (fixptClamp (rdiv y 5) 0 3200) := by
  have e := rescale_eq (p0 := y) (p0Lo := 0) (p0Hi := 16000) (p1Lo := 0) (p1Hi := 3200) (by decide)
    (by unfold S24; omega) (by decide) (by decide) (by omega) (by omega) (by omega)
  have e2 : rdiv (((0 * (16000 - y) + 32) / 64 + (3200 * (y - 0) + 32) / 64) * 64) (16000 - 0) =
      rdiv y 5 := by
    have : ((0 * (16000 - y) + 32) / 64 + (3200 * (y - 0) + 32) / 64) * 64 = y * 3200 := by omega
    rw [this, show (16000 : Int) - 0 = 5 * 3200 by decide, rdiv_scale _ _ _ (by decide) (by decide)]
  rw [e2] at e
  unfold tempToAmps CURR_NEGLIM CURR_POSLIM
  rw [e]
  have : sat (rdiv y 5) = rdiv y 5 := by
    apply sat_eq <;> (rw [rdiv_pos _ _ (by decide)]; split <;> omega)
  rw [this]
  rfl

theorem fixptClamp_range {a lo hi : Int} (h : lo ≤ hi) :
    lo ≤ fixptClamp a lo hi ∧ fixptClamp a lo hi ≤ hi := by
  unfold fixptClamp; simp only []; split_ifs <;> omega

theorem tempToAmps_ok {y : Int} (h : -600000 ≤ y ∧ y ≤ 600000) :
    ∃ a, tempToAmps y = some a ∧ 0 ≤ a ∧ a ≤ 3200 :=
  ⟨_, tempToAmps_eq h, fixptClamp_range (by decide)⟩

/-- everything the rest of the firmware needs to know about a run of the temperature controller -/
theorem contrtempRun_ok {c : Conf} {s : Sys} {r : Int} (hcc : CcInv s.cc s.ocr)
    (hct : CtInv c s.set.cache s.ct) (hr : -1280 ≤ r ∧ r ≤ 32000) :
    ∃ pid' t' cc' ocr', contrtempRun s r =
        some { s with ct := { s.ct with pid := pid', dtTimer := t' }, cc := cc', ocr := ocr' } ∧
      CtInv c s.set.cache { s.ct with pid := pid', dtTimer := t' } ∧ CcInv cc' ocr' ∧
      cc'.restricted = s.cc.restricted ∧
      (s.ct.enabled = false ∨ s.ct.emergency = true → cc' = s.cc ∧ ocr' = s.ocr) ∧
      (s.ct.enabled = true → s.ct.emergency = false →
        cc'.emerg = (if r > 30720 then s.cc.emerg ||| 2#8 else s.cc.emerg &&& ~~~2#8) ∧
        (r > 30720 → cc'.pid.setpoint = 0)) := by
  unfold contrtempRun
  cases hen : s.ct.enabled with
  | false =>
    exact ⟨s.ct.pid, s.ct.dtTimer, s.cc, s.ocr, rfl, hct, hcc, rfl, fun _ => ⟨rfl, rfl⟩,
      fun h => by cases h⟩
  | true =>
    cases hem : s.ct.emergency with
    | true =>
      exact ⟨s.ct.pid, s.ct.dtTimer, s.cc, s.ocr, rfl, hct, hcc, rfl, fun _ => ⟨rfl, rfl⟩,
        fun _ h => by cases h⟩
    | false =>
      simp only [Bool.not_true, Bool.false_eq_true, if_false]
      obtain ⟨dt, e1, hdt⟩ := elapsedDt_ok s.now s.ct.dtTimer
      obtain ⟨i, pe, y, e2, hp, hy1, hy2⟩ := pidRun_ok hct.range (dt := dt) hr hdt
      rw [hct.lim.2.2.1] at hy1
      rw [hct.lim.2.2.2] at hy2
      obtain ⟨a, e3, ha⟩ := tempToAmps_ok (y := y) (by omega)
      simp only [e1, e2, e3, Option.bind_eq_bind, Option.bind_some]
      by_cases hov : r > 30720
      · simp only [if_pos hov]
        obtain ⟨ocr', e4, h4⟩ := contrcurrSetEmerg_ok (s := { s with ct := { s.ct with
          pid := { s.ct.pid with integr := i, prevE := pe }, dtTimer := timerSetNow s.now } })
          (s.cc.emerg ||| 2#8) hcc
        have h5 := contrcurrSetSetpoint_ok (s := { s with
          ct := { s.ct with pid := { s.ct.pid with integr := i, prevE := pe }, dtTimer := timerSetNow s.now }
          cc := { s.cc with emerg := s.cc.emerg ||| 2#8 }, ocr := ocr' }) (w := 0) h4 (by decide)
        refine ⟨{ s.ct.pid with integr := i, prevE := pe }, timerSetNow s.now, _, _, ?_,
          { hct with range := hp }, h5, rfl, fun h => by simp at h, fun _ _ => ⟨rfl, fun _ => rfl⟩⟩
        simp only [e4, Option.bind_some]
        rfl
      · simp only [if_neg hov]
        obtain ⟨ocr', e4, h4⟩ := contrcurrSetEmerg_ok (s := { s with ct := { s.ct with
          pid := { s.ct.pid with integr := i, prevE := pe }, dtTimer := timerSetNow s.now } })
          (s.cc.emerg &&& ~~~2#8) hcc
        have h5 := contrcurrSetSetpoint_ok (s := { s with
          ct := { s.ct with pid := { s.ct.pid with integr := i, prevE := pe }, dtTimer := timerSetNow s.now }
          cc := { s.cc with emerg := s.cc.emerg &&& ~~~2#8 }, ocr := ocr' }) (w := a) h4 ha
        refine ⟨{ s.ct.pid with integr := i, prevE := pe }, timerSetNow s.now, _, _, ?_,
          { hct with range := hp }, h5, rfl, fun h => by simp at h,
          fun _ _ => ⟨rfl, fun h => absurd h (by omega)⟩⟩
        simp only [e4, Option.bind_some]
        rfl

theorem wanted_ok {c : Conf} {x : Settings} (h : WithinLimits c x) (idle : Bool) :
    ∃ p, x.presetsGet = some p ∧ (0 ≤ p ∧ p ≤ 30720) ∧
      WantedTemp x idle (if idle ∧ x.idleSp < p then x.idleSp else p) ∧
      0 ≤ (if idle ∧ x.idleSp < p then x.idleSp else p) ∧
      (if idle ∧ x.idleSp < p then x.idleSp else p) ≤ 30720 := by
  have ha := h.active
  have h1 : x.sp[x.active]? = some x.sp[x.active] := Vector.getElem?_eq_getElem ha
  have h2 := h.sp x.active ha
  have h3 := h.idleSp
  refine ⟨x.sp[x.active], h1, by omega, ⟨_, h1, ?_⟩, by split <;> omega, by split <;> omega⟩
  cases idle
  · simp
  · simp only [true_and, if_true]; split <;> omega

theorem contrtempUpdateSetpoint_ok {c : Conf} {s : Sys} (h : WithinLimits c s.set.cache) :
    ∃ w, contrtempUpdateSetpoint s =
        some { s with ct := { s.ct with pid := { s.ct.pid with setpoint := w } } } ∧
      WantedTemp s.set.cache s.ct.idle w ∧ 0 ≤ w ∧ w ≤ 30720 := by
  obtain ⟨p, e, _, hw, b1, b2⟩ := wanted_ok h s.ct.idle
  refine ⟨_, ?_, hw, b1, b2⟩
  unfold contrtempUpdateSetpoint
  rw [e]
  rfl

/-- factors of an existing boost mode, freshly put in force -/
theorem pidRange_factors {p : Pid} {k : PidK} (hp : PidRange p) (h0 : p.iNeg ≤ 0 ∧ 0 ≤ p.iPos)
    (hk : (0 ≤ k.kp ∧ k.kp ≤ 99 * 64) ∧ (0 ≤ k.ki ∧ k.ki ≤ 9 * 64) ∧
      (0 ≤ k.kd ∧ k.kd ≤ 99 * 64) ∧ (64 ≤ k.decay ∧ k.decay ≤ 2 ^ 23 - 1)) :
    PidRange (pidSetFactors p k) := by
  obtain ⟨⟨a1, a2⟩, ⟨b1, b2⟩, ⟨c1, c2⟩, ⟨d1, d2⟩⟩ := hk
  exact {
    kp := (by show k.kp.natAbs ≤ 6336; omega)
    ki := (by show k.ki.natAbs ≤ 576; omega)
    kd := (by show k.kd.natAbs ≤ 6336; omega)
    decay := (by show 64 ≤ k.decay ∧ k.decay ≤ 8388607; omega)
    sp := hp.sp
    prevE := (by show Int.natAbs 0 ≤ 32000; decide)
    iLim := hp.iLim
    integr := h0
    yLim := hp.yLim }

theorem nrBoost_le (c : Conf) : c.nrBoost ≤ 3 := by
  unfold Conf.nrBoost; split <;> omega

theorem contrtempSetBoost_eq {c : Conf} {s : Sys} {mode : Nat} (hb : s.ct.boost < c.nrBoost)
    (hm : mode < c.nrBoost) :
    ∃ (h3 : mode < 3), contrtempSetBoost c s mode = some (menuRequestUpdate { s with ct :=
      { s.ct with pid := pidSetFactors s.ct.pid s.set.cache.k[mode], boost := mode } }) := by
  have h3 : mode < 3 := by have := nrBoost_le c; omega
  refine ⟨h3, ?_⟩
  unfold contrtempSetBoost
  rw [Vector.getElem?_eq_getElem h3]
  simp only [Option.bind_eq_bind, Option.bind_some]
  cases hc : c.boost with
  | true => rfl
  | false =>
    have h1 : c.nrBoost = 1 := by unfold Conf.nrBoost; rw [hc]; rfl
    have e1 : mode = s.ct.boost := by omega
    subst e1
    rfl

/-- CtInv after a boost mode has been put in force; the factors in force before do not matter -/
theorem ctInv_boost {c : Conf} {x : Settings} {ct : ContrTemp} {mode : Nat} (hx : WithinLimits c x)
    (hlim : ct.pid.iNeg = -1920 ∧ ct.pid.iPos = 5120 ∧ ct.pid.yNeg = 0 ∧ ct.pid.yPos = 30720)
    (hr : PidRange ct.pid) (hm : mode < c.nrBoost) (h3 : mode < 3)
    (hsp : WantedTemp x ct.idle ct.pid.setpoint) (hfb : -1280 ≤ ct.feedback ∧ ct.feedback ≤ 32000)
    (hi : c.idle = false → ct.idle = false) :
    CtInv c x { ct with pid := pidSetFactors ct.pid x.k[mode], boost := mode } :=
  { lim := hlim
    range := pidRange_factors hr (by omega) (hx.k mode h3 hm)
    boost := hm
    k := Vector.getElem?_eq_getElem h3
    sp := hsp
    fb := hfb
    idle := hi }

theorem Inv.menuRequestUpdate {c : Conf} {s : Sys} (h : Inv c s) : Inv c (menuRequestUpdate s) :=
  { h with menu := { h.menu with } }

theorem Inv.setBoost {c : Conf} {s : Sys} (h : Inv c s) {mode : Nat} (hm : mode < c.nrBoost) :
    Safe (contrtempSetBoost c s mode) (Inv c) := by
  obtain ⟨h3, e⟩ := contrtempSetBoost_eq h.ct.boost hm
  refine Safe.of_eq e (Inv.menuRequestUpdate ?_)
  exact { h with ct := ctInv_boost h.set.lim h.ct.lim h.ct.range hm h3 h.ct.sp h.ct.fb h.ct.idle }

theorem Inv.tempFeedback {c : Conf} {s : Sys} {r : Int} (h : Inv c s)
    (hr : -1280 ≤ r ∧ r ≤ 32000) :
    Safe (contrtempSetFeedback s r) fun s' => Inv c s' ∧ Frame s s' ∧ s'.mtPrev = s.mtPrev ∧
      s'.mcurr = s.mcurr := by
  unfold contrtempSetFeedback
  have h1 : Inv c (if r ≠ s.ct.feedback then
      Verif.menuRequestUpdate { s with ct := { s.ct with feedback := r } } else s) := by
    split
    · exact Inv.menuRequestUpdate (s := { s with ct := { s.ct with feedback := r } })
        { h with ct := { h.ct with fb := hr } }
    · exact h
  have f1 : Frame s (if r ≠ s.ct.feedback then
      Verif.menuRequestUpdate { s with ct := { s.ct with feedback := r } } else s) ∧
      (if r ≠ s.ct.feedback then
      Verif.menuRequestUpdate { s with ct := { s.ct with feedback := r } } else s).mtPrev = s.mtPrev ∧
      (if r ≠ s.ct.feedback then
      Verif.menuRequestUpdate { s with ct := { s.ct with feedback := r } } else s).mcurr = s.mcurr := by
    split
    · exact ⟨⟨rfl, rfl, rfl, rfl, rfl, rfl, rfl, true, rfl⟩, rfl, rfl⟩
    · exact ⟨Frame.refl s, rfl, rfl⟩
  simp only []
  generalize (if r ≠ s.ct.feedback then
      Verif.menuRequestUpdate { s with ct := { s.ct with feedback := r } } else s) = s1 at h1 f1
  obtain ⟨pid', t', cc', ocr', e, i1, i2, i3, i4, i5⟩ := contrtempRun_ok h1.cc h1.ct hr
  refine Safe.of_eq e ⟨{ h1 with cc := i2, ct := i1, emerg := ?_, restr := ?_ },
    f1.1.trans ⟨rfl, rfl, rfl, rfl, rfl, rfl, rfl, _, rfl⟩, f1.2.1, f1.2.2⟩
  · intro hem
    rw [(i4 (Or.inr hem)).1]
    exact h1.emerg hem
  · show cc'.restricted = _
    rw [i3]; exact h1.restr

theorem Inv.tempEmerg {c : Conf} {s : Sys} (h : Inv c s) (b : Bool) :
    Inv c (contrtempSetEmerg s b) ∧ Frame s (contrtempSetEmerg s b) ∧
      (contrtempSetEmerg s b).mtPrev = s.mtPrev ∧ (contrtempSetEmerg s b).mcurr = s.mcurr ∧
      (contrtempSetEmerg s b).ct.emergency = b := by
  unfold contrtempSetEmerg
  split
  · unfold contrtempDoSetEmerg
    cases b
    · exact ⟨{ h with ct := { h.ct with }, emerg := fun hh => by cases hh },
        ⟨rfl, rfl, rfl, rfl, rfl, rfl, rfl, _, rfl⟩, rfl, rfl, rfl⟩
    · exact ⟨{ h with ct := { h.ct with }, cc := contrcurrSetSetpoint_ok h.cc (by decide), emerg := fun _ => rfl },
        ⟨rfl, rfl, rfl, rfl, rfl, rfl, rfl, _, rfl⟩, rfl, rfl, rfl⟩
  · rename_i hh
    exact ⟨h, Frame.refl s, rfl, rfl, by simpa [eq_comm] using hh⟩

/-- the controllers after an operation of the menu -/
structure CtrlOk (c : Conf) (s : Sys) (ct' : ContrTemp) (cc' : ContrCurr) : Prop where
  ct : CtInv c s.set.cache ct'
  cc : CcInv cc' s.ocr
  emerg : ct'.emergency = true → cc'.pid.setpoint = 0
  restr : cc'.restricted = s.cc.restricted
  idle : ct'.idle = s.ct.idle
  em : ct'.emergency = s.ct.emergency
  flags : cc'.emerg = s.cc.emerg

theorem Inv.ctrlOk {c : Conf} {s : Sys} (h : Inv c s) : CtrlOk c s s.ct s.cc :=
  ⟨h.ct, h.cc, h.emerg, rfl, rfl, rfl, rfl⟩

/-- switching the controller on or off -/
theorem contrtempSetEnabled_ok {c : Conf} {s : Sys} (en : Bool) (hx : WithinLimits c s.set.cache)
    (h : CtrlOk c s s.ct s.cc) :
    ∃ ct' cc' u, contrtempSetEnabled c s en =
        some { s with ct := ct', cc := cc', menu := { s.menu with updReq := u } } ∧
      CtrlOk c s ct' cc' ∧ ct'.enabled = en := by
  unfold contrtempSetEnabled
  split
  · unfold contrtempDoSetEnabled
    have h0 : 0 < c.nrBoost := by unfold Conf.nrBoost; split <;> decide
    obtain ⟨h3, e⟩ := contrtempSetBoost_eq (c := c) (s := { s with
      ct := { s.ct with enabled := en, pid := pidReset s.ct.pid, dtTimer := timerSetNow s.now } })
      h.ct.boost h0
    simp only [e, Option.bind_eq_bind, Option.bind_some]
    have hr : PidRange (pidReset s.ct.pid) :=
      { h.ct.range with
        prevE := (by show Int.natAbs 0 ≤ 32000; decide)
        integr := (by show s.ct.pid.iNeg ≤ 0 ∧ 0 ≤ s.ct.pid.iPos; have := h.ct.lim; omega) }
    have hb := ctInv_boost (ct := { s.ct with
      enabled := en, pid := pidReset s.ct.pid, dtTimer := timerSetNow s.now }) hx
      h.ct.lim hr h0 h3 h.ct.sp h.ct.fb h.ct.idle
    exact ⟨_, _, true, rfl, ⟨hb, contrcurrSetSetpoint_ok h.cc (by decide), fun _ => rfl, rfl, rfl, rfl, rfl⟩, rfl⟩
  · rename_i hh
    rw [ne_eq, not_not] at hh
    exact ⟨s.ct, s.cc, s.menu.updReq, rfl, h, hh⟩

end Verif
