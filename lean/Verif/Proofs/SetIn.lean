import Verif.Proofs.UiInLoop
import Verif.Proofs.SetEff
/-
What a work function with ticks inside does to the settings: they stay, or they are changed and a store is requested at
some time during the call.
-/
namespace Verif
open Spec Props

variable {c : Conf} {s a : Sys} {A T : Nat}

/-- since the time `A` the settings have stayed, or they have been changed and a store has been requested -/
structure SetIn (a : Sys) (A T : Nat) (s : Sys) : Prop where
  now : s.now = nowAt T
  since : A ≤ T
  set : s.set = a.set ∨ ∃ x t, A ≤ t ∧ t ≤ T ∧ Keeps a.set.cache x ∧ s.set = requested (nowAt t) { a.set with cache := x }

/-- the settings have been changed; a store may have been requested or not -/
structure SetInTmp (a : Sys) (A T : Nat) (s : Sys) : Prop where
  now : s.now = nowAt T
  since : A ≤ T
  set : ∃ x, Keeps a.set.cache x ∧ (s.set = { a.set with cache := x } ∨
    ∃ t, A ≤ t ∧ t ≤ T ∧ s.set = requested (nowAt t) { a.set with cache := x })

theorem SetIn.refl (h : s.now = nowAt T) : SetIn s T T s := ⟨h, Nat.le_refl _, Or.inl rfl⟩

theorem Keeps.trans {x y z : Settings} (h : Keeps x y) (k : Keeps y z) : Keeps x z :=
  ⟨k.serial.trans h.serial, k.res0.trans h.res0, k.res1.trans h.res1, fun q => k.k (h.k q)⟩

theorem SetIn.keeps (h : SetIn a A T s) : Keeps a.set.cache s.set.cache := by
  rcases h.set with e | ⟨x, t, -, -, k, e⟩
  · rw [e]; exact Keeps.refl _
  · rw [e]; exact k

theorem SetIn.eff {s' : Sys} (h : SetIn a A T s) (k : SetEff s s') : SetIn a A T s' := by
  refine ⟨k.now.trans h.now, h.since, ?_⟩
  rcases k.set with e | ⟨x, kx, e⟩
  · rw [e]; exact h.set
  · refine Or.inr ⟨x, T, h.since, Nat.le_refl _, h.keeps.trans kx, ?_⟩
    rw [e, h.now]
    rcases h.set with e' | ⟨y, t, -, -, -, e'⟩
    · rw [e']
    · rw [e']; rfl

theorem SetIn.keep {s' : Sys} (h : SetIn a A T s) (h1 : s'.now = s.now) (h2 : s'.set = s.set) : SetIn a A T s' :=
  h.eff ⟨h1, Or.inl h2⟩

theorem SetIn.post {o : Option Sys} (h : SetIn a A T s) (k : Post o (SetEff s)) : SimT (liftM o) T (SetIn a A) :=
  SimT.lift fun s' e => h.eff (k s' e)

theorem SetIn.tick (h : SetIn a A T s) : SimT (tickIn s) T (SetIn a A) :=
  (SimT.tick h.now).mono fun T' s' hT e => by
    subst e
    refine ⟨rfl, Nat.le_trans h.since hT, ?_⟩
    rcases h.set with e | ⟨x, t, h1, h2, k, e⟩
    · exact Or.inl e
    · exact Or.inr ⟨x, t, h1, by omega, k, e⟩

theorem SetInTmp.tick (h : SetInTmp a A T s) : SimT (tickIn s) T (SetInTmp a A) :=
  (SimT.tick h.now).mono fun T' s' hT e => by
    subst e
    refine ⟨rfl, Nat.le_trans h.since hT, ?_⟩
    obtain ⟨x, k, e | ⟨t, h1, h2, e⟩⟩ := h.set
    · exact ⟨x, k, Or.inl e⟩
    · exact ⟨x, k, Or.inr ⟨t, h1, by omega, e⟩⟩

theorem SetIn.setCache (h : SetIn a A T s) (x : Settings) (hx : Keeps s.set.cache x) : SetInTmp a A T (setCache s x) := by
  refine ⟨h.now, h.since, x, h.keeps.trans hx, ?_⟩
  rcases h.set with e | ⟨y, t, h1, h2, -, e⟩
  · left
    show ({ s.set with cache := x } : SettingsSt) = _
    rw [e]
  · right
    refine ⟨t, h1, h2, ?_⟩
    show ({ s.set with cache := x } : SettingsSt) = _
    rw [e]
    rfl

theorem SetInTmp.store (h : SetInTmp a A T s) : SimT (sysStoreT s) T (SetIn a A) :=
  SimT.bind h.tick fun T1 s1 _ h1 => SimT.lift fun s' e => by
    rw [sysStore_eq] at e
    cases e
    obtain ⟨x, k, e⟩ := h1.set
    refine ⟨h1.now, h1.since, Or.inr ⟨x, T1, h1.since, Nat.le_refl _, k, ?_⟩⟩
    show requested s1.now s1.set = _
    rw [h1.now]
    rcases e with e | ⟨t, -, -, e⟩
    · rw [e]
    · rw [e]; rfl

theorem SetInTmp.setpoint (h : SetInTmp a A T s) : SimT (liftM (contrtempUpdateSetpoint s)) T (SetInTmp a A) :=
  SimT.lift fun s' e => by
    unfold contrtempUpdateSetpoint at e
    obtain ⟨sp, -, e⟩ := Option.bind_eq_some_iff.mp e
    cases e
    exact { h with }

theorem SetIn.setpoint (h : SetIn a A T s) : SimT (liftM (contrtempUpdateSetpoint s)) T (SetIn a A) :=
  h.post (SetEff.refl s).updateSetpoint

theorem SetIn.update (h : SetIn a A T s) : SetIn a A T (menuRequestUpdate s) := { h with }

theorem SetIn.idleSetpoint (h : SetIn a A T s) (c : Conf) (w : Int) : SimT (contrtempSetIdleSetpointT c s w) T (SetIn a A) :=
  SimT.ite (fun _ => SimT.bind (h.setCache { s.set.cache with idleSp := w } ⟨rfl, rfl, rfl, id⟩).setpoint
    fun _ _ _ h => h.store) fun _ => SimT.pure h

theorem SetIn.enabled (h : SetIn a A T s) (c : Conf) (b : Bool) : SimT (contrtempSetEnabledT c s b) T (SetIn a A) := by
  refine SimT.ite (fun hb => ?_) fun _ => SimT.pure h
  refine SimT.bind h.tick fun T1 s1 _ h1 => SimT.lift fun s' e => ?_
  unfold contrtempDoSetEnabled at e
  obtain ⟨s2, e2, e⟩ := Option.bind_eq_some_iff.mp e
  cases e
  refine SetIn.keep (s := s2) (SetIn.eff ?_ ((SetEff.refl _).setBoost c 0 s2 e2)) rfl rfl
  exact { h1 with }

theorem SetInTmp.presetsStore (h : SetInTmp a A T s) : SimT (presetsStoreT s) T (SetIn a A) :=
  SimT.bind h.store fun _ _ _ h => SimT.bind h.setpoint fun _ _ _ h => SimT.pure h.update

theorem SetIn.presetsSet (h : SetIn a A T s) (w : Int) : SimT (presetsSetActiveT s w) T (SetIn a A) :=
  SimT.bindV fun x e => by
    refine (h.setCache x ?_).presetsStore
    unfold Settings.presetsSet at e
    split at e
    · cases e; exact ⟨rfl, rfl, rfl, id⟩
    · cases e

theorem SetIn.adjust (h : SetIn a A T s) (c : Conf) (w : Int) : SimT (meastempAdjustSetT c s w) T (SetIn a A) := by
  refine SimT.ite (fun hc => ?_) fun _ => SimT.pure h
  have h1 : SetIn a A T (measureAdjustSet c s w) := by
    unfold measureAdjustSet
    rw [if_pos hc]
    exact { h with }
  exact SimT.bind (h1.setCache { (measureAdjustSet c s w).set.cache with adj := w } ⟨rfl, rfl, rfl, id⟩).store
    fun _ _ _ h => SimT.pure h.update

theorem SetIn.rampK (h : SetIn a A T s) (c : Conf) (get : PidK → Int) (put : PidK → Int → PidK)
    (inc hi : Int) (up : Bool) (hhi : S24 hi) (hput : ∀ k v, k.InRange → S24 v → (put k v).InRange) :
    SimT (doRampKT c s get put inc hi up) T (SetIn a A) := by
  unfold doRampKT
  simp only []
  split
  · rename_i hb
    have key : ∀ v, S24 v → Keeps s.set.cache { s.set.cache with
        k := s.set.cache.k.set s.ct.boost (put s.set.cache.k[s.ct.boost] v) } := by
      intro v hv
      refine ⟨rfl, rfl, rfl, fun hk i hi => ?_⟩
      show S24 (s.set.cache.k.set s.ct.boost _)[i].kp ∧ S24 (s.set.cache.k.set s.ct.boost _)[i].ki ∧
        S24 (s.set.cache.k.set s.ct.boost _)[i].kd ∧ S24 (s.set.cache.k.set s.ct.boost _)[i].decay
      rw [Vector.getElem_set]
      split
      · exact hput _ v (hk s.ct.boost hb) hv
      · exact hk i hi
    split
    all_goals
      refine SimT.bindV fun x _ => SimT.bindV fun v ev => ?_
      have hv := addLimited_range (by decide) hhi v ev
      exact SimT.bind (h.setCache _ (key v hv)).store fun s2 _ _ h2 => h2.post ((SetEff.refl _).setBoost c _)
  · exact SimT.fail

theorem SetIn.iron (h : SetIn a A T s) (c : Conf) (b : Button) (e : BState) : SimT (contrtempButtonT c s b e) T (SetIn a A) :=
  SimT.ite (fun _ => SimT.bind h.tick fun _ _ _ h => h.post ((SetEff.refl _).ironButton c b e)) fun _ =>
    h.post ((SetEff.refl _).ironButton c b e)

theorem SetIn.arm (h : SetIn a A T s) (ms : Int) : SimT (menuArmT s ms) T (SetIn a A) :=
  SimT.bind h.tick fun _ _ _ h => h.post ((SetEff.refl _).menuArm ms)

theorem SetIn.debugEnable (h : SetIn a A T s) (c : Conf) (en : Bool) : SimT (debugEnableT c s en) T (SetIn a A) :=
  SimT.bind h.tick fun _ _ _ h => h.post ((SetEff.refl _).debugEnable c en)

theorem SetIn.menuEnter (h : SetIn a A T s) (c : Conf) (t : MenuState) : SimT (menuEnterT c s t) T (SetIn a A) := by
  cases t <;> simp only [menuEnterT]
  case curtemp => exact h.enabled c _
  case selpreset => exact h.arm _
  case chgpreset => exact h.arm _
  case idletemp => exact h.arm _
  case debug => exact SimT.pure h
  all_goals split
  all_goals first
    | exact SimT.pure h
    | exact h.enabled c _
    | exact SimT.bind (h.arm _) fun _ _ _ h2 => h2.enabled c _

theorem SetIn.menuSetState (h : SetIn a A T s) (c : Conf) (t : MenuState) : SimT (menuSetStateT c s t) T (SetIn a A) := by
  refine SimT.ite (fun _ => SimT.pure h) fun _ => ?_
  have h1 : SetIn a A T { s with menu := { s.menu with state := t } } := { h with }
  exact SimT.bind (h1.menuEnter c t) fun _ _ _ h2 => SimT.pure h2.update

theorem SetIn.rampHandler (h : SetIn a A T s) (c : Conf) (r : RampHandler) (up : Bool) :
    SimT (rampHandlerT c s r up) T (SetIn a A) := by
  cases r <;> simp only [rampHandlerT]
  · exact SimT.bindV fun sp _ => SimT.bindV fun v _ => SimT.bind (h.presetsSet v) fun _ _ _ h2 => h2.menuSetState c _
  · exact SimT.bindV fun sp _ => h.idleSetpoint c _
  · exact SimT.bindV fun v _ => h.adjust c v
  · exact h.rampK c _ _ _ _ _ (by decide) fun k v hk hv => ⟨hv, hk.2⟩
  · exact h.rampK c _ _ _ _ _ (by decide) fun k v hk hv => ⟨hk.1, hv, hk.2.2⟩
  · exact h.rampK c _ _ _ _ _ (by decide) fun k v hk hv => ⟨hk.1, hk.2.1, hv, hk.2.2.2⟩

theorem SetIn.startRamping (h : SetIn a A T s) (up pre : Bool) (r : Option RampHandler) :
    SimT (startRampingT s up pre r) T (SetIn a A) := by
  unfold startRampingT
  refine SimT.ite (fun _ => ?_) fun _ => ?_
  · refine SimT.bind h.tick fun T1 s1 _ h1 => SimT.bindV fun t _ => ?_
    refine SimT.bind (P := SetIn a A) (SimT.pure { h1 with }) fun T2 s2 _ h2 => ?_
    exact SimT.bind h2.tick fun _ _ _ h => SimT.pure { h with }
  · refine SimT.bind (P := SetIn a A) (SimT.pure { h with }) fun T2 s2 _ h2 => ?_
    exact SimT.bind h2.tick fun _ _ _ h => SimT.pure { h with }

theorem SetIn.startRampingButton (h : SetIn a A T s) (b : Button) (e : BState) (pre : Bool) (r : RampHandler) :
    SimT (startRampingButtonT s b e pre r) T (SetIn a A) :=
  SimT.ite (fun _ => SimT.ite (fun _ => h.startRamping _ _ _) fun _ => SimT.ite (fun _ => h.startRamping _ _ _) fun _ =>
    SimT.pure h) fun _ => SimT.pure h

theorem SetIn.stop (h : SetIn a A T s) : SetIn a A T (stopRamping s) := { h with }

theorem SetIn.menuButtonScreen (h : SetIn a A T s) (c : Conf) (b : Button) (e : BState) :
    SimT (menuButtonScreenT c s b e) T (SetIn a A) := by
  unfold menuButtonScreenT
  split
  · exact SimT.bind (h.startRampingButton b e _ _) fun _ _ _ h2 =>
      SimT.ite (fun _ => h2.menuSetState c _) fun _ => SimT.pure h2
  · refine SimT.bind (h.arm _) fun T2 s2 _ h2 => ?_
    have nx : Keeps s2.set.cache s2.set.cache.presetsNext := ⟨rfl, rfl, rfl, id⟩
    have pv : Keeps s2.set.cache s2.set.cache.presetsPrev := ⟨rfl, rfl, rfl, id⟩
    cases e
    · simp only [reduceCtorEq, if_false, pure_bind]; exact h2.startRampingButton b _ _ _
    · simp only [if_true]
      cases b <;> simp only [reduceCtorEq, if_false, if_true, pure_bind]
      · exact h2.startRampingButton _ _ _ _
      · exact SimT.bind (h2.setCache _ pv).presetsStore fun _ _ _ h3 => h3.startRampingButton _ _ _ _
      · exact SimT.bind (h2.setCache _ nx).presetsStore fun _ _ _ h3 => h3.startRampingButton _ _ _ _
      · exact h2.startRampingButton _ _ _ _
    · simp only [reduceCtorEq, if_false, pure_bind]; exact h2.startRampingButton b _ _ _
  · exact SimT.bind (h.arm _) fun _ _ _ h2 => h2.startRampingButton b e _ _
  · exact SimT.ite (fun _ => SimT.pure h) fun _ => SimT.bind (h.arm _) fun _ _ _ h2 => h2.startRampingButton b e _ _
  · refine SimT.ite (fun _ => SimT.pure h) fun _ => SimT.ite (fun _ => ?_) fun _ => SimT.pure h
    cases b <;> simp only [reduceCtorEq, if_false, if_true, pure_bind]
    · exact SimT.pure h
    · exact SimT.bind (h.debugEnable c _) fun _ _ _ h3 => SimT.pure h3.update
    · exact SimT.bind (h.debugEnable c _) fun _ _ _ h3 => SimT.pure h3
    · exact SimT.pure h
  all_goals first
    | exact SimT.pure h
    | exact SimT.ite (fun _ => SimT.pure h) fun _ => h.startRampingButton b e _ _

theorem SetIn.menuButton (h : SetIn a A T s) (c : Conf) (b : Button) (e : BState) :
    SimT (menuButtonT c s b e) T (SetIn a A) := by
  refine SimT.ite (fun _ => SimT.pure h) fun _ => SimT.bind (h.menuButtonScreen c b e) fun _ s2 _ h2 => ?_
  refine SimT.ite (fun _ => ?_) fun _ => SimT.pure h2
  simp only []
  exact SimT.ite (fun _ => SimT.ite (fun _ => h2.stop.menuSetState c _) fun _ => SimT.pure h2.stop) fun _ => SimT.pure h2.stop

theorem SetIn.menuTimeouts (h : SetIn a A T s) (c : Conf) : SimT (menuTimeoutsT c s) T (SetIn a A) := by
  unfold menuTimeoutsT
  split
  all_goals first
    | exact SimT.pure h
    | exact SimT.bind h.tick fun _ _ _ h => SimT.ite (fun _ => SimT.ite (fun _ => SimT.bind (h.menuSetState c _)
        fun _ _ _ h2 => SimT.pure h2.stop) fun _ => SimT.bind (h.menuSetState c _) fun _ _ _ h2 => SimT.pure h2.stop)
        fun _ => SimT.pure h

theorem SetIn.menuRamp (h : SetIn a A T s) (c : Conf) : SimT (menuRampT c s) T (SetIn a A) := by
  unfold menuRampT
  split
  · exact SimT.pure h
  all_goals
    refine SimT.bind h.tick fun _ _ _ h => SimT.ite (fun _ => ?_) fun _ => SimT.pure h
    first
      | exact h.startRamping _ _ _
      | exact SimT.bindV fun r _ => SimT.bind (h.rampHandler c r _) fun _ _ _ h2 =>
          SimT.bindV fun t _ => SimT.pure { h2 with }

theorem SetIn.menuWork (h : s.now = nowAt T) (c : Conf) : SimT (menuWorkT c s) T (SetIn s T) := by
  refine SimT.bind ((SetIn.refl h).menuTimeouts c) fun T1 s1 _ h1 => ?_
  simp only []
  refine SimT.bind ((h1.eff (SetEff.refl s1).menuIndicate).menuRamp c) fun T2 s2 _ h2 => h2.post ?_
  unfold menuRefresh
  split
  · have h3 : SetEff s2 { s2 with menu := { s2.menu with updReq := false } } := { SetEff.refl s2 with }
    exact h3.menuUpdateDisplay c
  · exact Post.pure (SetEff.refl s2)

theorem SetIn.buttonsWork (h : s.now = nowAt T) (c : Conf) (pinb : BitVec 8) : SimT (buttonsWorkT c s pinb) T (SetIn s T) := by
  have key : ∀ (l : List (Button × BState)) {T1 : Nat} {s1 : Sys}, SetIn s T T1 s1 →
      SimT (l.foldlM (callButtonHandlersT c) s1) T1 (SetIn s T) := by
    intro l
    induction l with
    | nil => intro T1 s1 h; exact SimT.pure h
    | cons x l ih =>
      intro T1 s1 h
      rw [List.foldlM_cons]
      refine SimT.bind ?_ fun _ s2 _ h2 => ih h2
      exact SimT.bind (h.iron c x.1 x.2) fun _ s1 _ h1 => h1.menuButton c x.1 x.2
  refine SimT.bind (SetIn.refl h).tick fun T1 s1 _ h1 => SimT.bindV fun x _ => ?_
  exact key _ { h1 with }

/-- What a work function other than `settings_work` does to the settings. -/
theorem workT_set {e : Ev} {g : List Nat} {s' : Sys} (h : s.now = nowAt T) (hw : workT c s e g = some (s', []))
    (he : e ≠ .settingsWork) : s'.set = s.set ∨ ∃ x t, T ≤ t ∧ t ≤ T + g.sum ∧ Keeps s.set.cache x ∧
      s'.set = requested (nowAt t) { s.set with cache := x } := by
  by_cases hm : e = .measureWork
  · subst hm
    exact Or.inl (measureWorkT_alone s _ _ _ hw).2.2.1
  have fin : SimT (workT c s e) T (SetIn s T) := by
    cases e with
    | menuWork => exact SetIn.menuWork h c
    | buttonsWork pinb => exact SetIn.buttonsWork h c pinb
    | settingsWork => exact absurd rfl he
    | displayWork =>
      refine SimT.bind (SetIn.refl h).tick fun T1 s1 _ h1 => SimT.lift fun s2 e2 => ?_
      obtain ⟨⟨p, d⟩, ex, hs⟩ := Option.bind_eq_some_iff.mp e2
      cases hs
      exact { h1 with }
    | measureWork => exact absurd rfl hm
    | _ => exact SimT.fail
  obtain ⟨T', -, k2, k3⟩ := fin _ _ _ hw
  have k2 : T' = T + g.sum := by simpa using k2
  subst k2
  exact k3.set

end Verif
