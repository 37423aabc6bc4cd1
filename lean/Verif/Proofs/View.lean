import Verif.Proofs.Shown
import Verif.Proofs.Iron
import Verif.Proofs.Sample
/-
The display is never out of date: whatever changes a shown value requests an update of the display.
-/
namespace Verif
open Spec

variable {c : Conf} {a s : Sys}

/-- display, ports and debugging are left alone, and an update request is not lost -/
structure Io (a s : Sys) : Prop where
  disp : s.disp = a.disp
  ports : s.ports = a.ports
  debugEn : s.debugEn = a.debugEn
  upd : a.menu.updReq = true → s.menu.updReq = true
  heat : s.menu.dispHeating = a.menu.dispHeating

theorem Io.refl (s : Sys) : Io s s := ⟨rfl, rfl, rfl, id, rfl⟩

theorem Io.trans {s' : Sys} (h : Io a s) (h' : Io s s') : Io a s' :=
  ⟨h'.disp.trans h.disp, h'.ports.trans h.ports, h'.debugEn.trans h.debugEn, fun hh => h'.upd (h.upd hh),
    h'.heat.trans h.heat⟩

theorem Io.menuRequestUpdate (h : Io a s) : Io a (menuRequestUpdate s) := { h with upd := fun _ => rfl }

theorem Io.setCache (h : Io a s) (x : Settings) : Io a (setCache s x) := { h with }

theorem Io.sysStore (h : Io a s) : Post (sysStore s) (Io a) := by
  unfold Verif.sysStore
  exact Post.bindAny fun set => Post.pure { h with }

theorem Io.updateSetpoint (h : Io a s) : Post (contrtempUpdateSetpoint s) (Io a) := by
  unfold contrtempUpdateSetpoint
  exact Post.bindAny fun sp => Post.pure { h with }

theorem Io.setIdleSetpoint (h : Io a s) (w : Int) : Post (contrtempSetIdleSetpoint c s w) (Io a) := by
  unfold contrtempSetIdleSetpoint
  split
  · exact Post.bind (h.setCache _).updateSetpoint fun _ h => h.sysStore
  · exact Post.pure h

theorem Io.setBoost (h : Io a s) (m : Nat) :
    Post (contrtempSetBoost c s m) fun s' => Io a s' ∧ s'.menu.updReq = true := by
  unfold contrtempSetBoost
  refine Post.bindAny fun k => ?_
  simp only []
  split
  · exact Post.pure ⟨{ h with upd := fun _ => rfl }, rfl⟩
  · exact Post.pure ⟨{ h with upd := fun _ => rfl }, rfl⟩

theorem Io.setEnabled (h : Io a s) (en : Bool) : Post (contrtempSetEnabled c s en) (Io a) := by
  unfold contrtempSetEnabled
  split
  · unfold contrtempDoSetEnabled
    have h1 : Io a { s with ct := { s.ct with enabled := en, pid := pidReset s.ct.pid, dtTimer := timerSetNow s.now } } :=
      { h with }
    exact Post.bind (h1.setBoost 0) fun s2 h2 => Post.pure { h2.1 with }
  · exact Post.pure h

theorem Io.presetsStore (h : Io a s) : Post (presetsStore s) fun s' => Io a s' ∧ s'.menu.updReq = true := by
  unfold Verif.presetsStore
  exact Post.bind h.sysStore fun s2 h2 => Post.bind h2.updateSetpoint fun s3 h3 =>
    Post.pure ⟨h3.menuRequestUpdate, rfl⟩

theorem Io.presetsSetActive (h : Io a s) (v : Int) :
    Post (presetsSetActive s v) fun s' => Io a s' ∧ s'.menu.updReq = true := by
  unfold Verif.presetsSetActive
  exact Post.bindAny fun x => (h.setCache x).presetsStore

theorem Io.adjustSet (h : Io a s) (v : Int) : Post (meastempAdjustSet c s v) (Io a) := by
  unfold meastempAdjustSet
  split
  · rename_i hc
    have h1 : Io a (measureAdjustSet c s v) := by
      unfold measureAdjustSet
      rw [if_pos hc]
      exact { h with }
    exact Post.bind (h1.setCache _).sysStore fun s2 h2 => Post.pure h2.menuRequestUpdate
  · exact Post.pure h

theorem Io.menuArm (h : Io a s) (ms : Int) : Post (menuArm s ms) (Io a) := by
  unfold Verif.menuArm
  exact Post.bindAny fun t => Post.pure { h with }

theorem Io.menuEnter (h : Io a s) (t : MenuState) : Post (menuEnter c s t) (Io a) := by
  cases t <;> simp only [Verif.menuEnter]
  case curtemp => exact h.setEnabled _
  case selpreset => exact h.menuArm _
  case chgpreset => exact h.menuArm _
  case idletemp => exact h.menuArm _
  case debug => exact Post.pure h
  all_goals split
  all_goals first
    | exact Post.pure h
    | exact h.setEnabled _
    | exact Post.bind (h.menuArm _) fun s2 h2 => h2.setEnabled _

theorem Io.menuSetState (h : Io a s) (t : MenuState) :
    Post (menuSetState c s t) fun s' => Io a s' ∧ (s' = s ∨ s'.menu.updReq = true) := by
  unfold Verif.menuSetState
  split
  · exact Post.pure ⟨h, Or.inl rfl⟩
  · have h1 : Io a { s with menu := { s.menu with state := t } } := { h with }
    exact Post.bind (h1.menuEnter t) fun s2 h2 => Post.pure ⟨h2.menuRequestUpdate, Or.inr rfl⟩

theorem Io.rampK (h : Io a s) (get : PidK → Int) (put : PidK → Int → PidK) (inc hi : Int) (up : Bool) :
    Post (doRampK c s get put inc hi up) (Io a) := by
  unfold doRampK
  simp only []
  split
  · split
    all_goals
      refine Post.bindAny fun x => Post.bindAny fun v => ?_
      exact Post.bind (h.setCache _).sysStore fun s2 h2 => (h2.setBoost _).mono fun _ h => h.1
  · exact Post.none

theorem Io.rampHandler (h : Io a s) (r : RampHandler) (up : Bool) : Post (rampHandler c s r up) (Io a) := by
  cases r <;> simp only [Verif.rampHandler]
  · exact Post.bindAny fun sp => Post.bindAny fun v => Post.bind (h.presetsSetActive v) fun s2 h2 =>
      (h2.1.menuSetState _).mono fun _ h => h.1
  · exact Post.bindAny fun sp => h.setIdleSetpoint _
  · exact Post.bindAny fun v => h.adjustSet v
  · exact h.rampK _ _ _ _ _
  · exact h.rampK _ _ _ _ _
  · exact h.rampK _ _ _ _ _

/-! ### what is shown -/

/-- everything that is shown, and the digits of the display -/
def viewOf (s : Sys) := (s.menu.state, s.menu.dispErr, s.menu.dispHeating, s.ct.feedback, s.ct.idle, s.ct.boost,
  s.set.cache.sp, s.set.cache.active, s.set.cache.idleSp, s.set.cache.adj, s.set.cache.k, s.disp.digit)

/-- either an update is requested, or nothing shown has changed -/
structure ViewKept (a s : Sys) : Prop where
  dp : NoForce a.disp → NoForce s.disp
  view : s.menu.updReq = true ∨ (s.menu.updReq = a.menu.updReq ∧ viewOf s = viewOf a)

theorem ViewKept.refl (s : Sys) : ViewKept s s := ⟨id, Or.inr ⟨rfl, rfl⟩⟩

theorem ViewKept.same (h : ViewKept a s) {s' : Sys} (hu : s'.menu.updReq = s.menu.updReq)
    (hv : viewOf s' = viewOf s) : ViewKept a s' := by
  refine ⟨fun hh j hj hne => ?_, ?_⟩
  · have hd : s'.disp.digit = s.disp.digit := by
      simp only [viewOf, Prod.mk.injEq] at hv
      exact hv.2.2.2.2.2.2.2.2.2.2.2
    rw [hd]
    exact h.dp hh j hj hne
  · rw [hu, hv]
    exact h.view

theorem ViewKept.req (h : ViewKept a s) {s' : Sys} (hd : s'.disp = s.disp) (hu : s'.menu.updReq = true) : ViewKept a s' :=
  ⟨fun hh => by rw [hd]; exact h.dp hh, Or.inl hu⟩

theorem ViewKept.trans {s' : Sys} (h : ViewKept a s) (h' : ViewKept s s') : ViewKept a s' := by
  refine ⟨fun hh => h'.dp (h.dp hh), ?_⟩
  rcases h'.view with hv | ⟨hu, hv⟩
  · exact Or.inl hv
  · rw [hu, hv]
    exact h.view

theorem ViewKept.menuArm (h : ViewKept a s) (ms : Int) : Post (menuArm s ms) (ViewKept a) := by
  unfold Verif.menuArm
  exact Post.bindAny fun t => Post.pure (h.same rfl rfl)

theorem ViewKept.menuSetState (h : ViewKept a s) (t : MenuState) : Post (menuSetState c s t) (ViewKept a) := by
  intro s' e
  obtain ⟨h1, h2⟩ := (Io.refl s).menuSetState t s' e
  rcases h2 with rfl | h2
  · exact h
  · exact h.req h1.disp h2

theorem ViewKept.startRamping (h : ViewKept a s) (up pre : Bool) (r : Option RampHandler) :
    Post (startRamping s up pre r) (ViewKept a) := by
  unfold Verif.startRamping
  split
  · exact Post.bindAny fun t => Post.pure (h.same rfl rfl)
  · exact Post.pure (h.same rfl rfl)

theorem ViewKept.startRampingButton (h : ViewKept a s) (b : Button) (e : BState) (pre : Bool) (r : RampHandler) :
    Post (startRampingButton s b e pre r) (ViewKept a) := by
  unfold Verif.startRampingButton
  split
  · split
    · exact h.startRamping _ _ _
    · split
      · exact h.startRamping _ _ _
      · exact Post.pure h
  · exact Post.pure h

theorem ViewKept.presetsStore (h : ViewKept a s) (x : Settings) : Post (presetsStore (Verif.setCache s x)) (ViewKept a) := by
  intro s' e
  obtain ⟨h1, h2⟩ := ((Io.refl s).setCache x).presetsStore s' e
  exact h.req h1.disp h2

/-- switching debugging on leaves the digits of the display alone -/
theorem ViewKept.debugOn (h : ViewKept a s) : Post (debugEnable c s true) (ViewKept a) := by
  unfold Verif.debugEnable
  split
  · refine Post.bind (P := fun pd => pd.2.digit = s.disp.digit) ?_ fun pd hd => Post.pure (h.same rfl ?_)
    · intro pd e
      unfold displayEnable at e
      simp only [Bool.not_true] at e
      split at e
      · cases e
        rfl
      · simp only [Bool.false_eq_true, if_false] at e
        obtain ⟨q, -, e⟩ := Option.bind_eq_some_iff.mp e
        cases e
        rfl
    · simp only [viewOf, hd]
  · exact Post.pure h

/-- switching debugging off clears the digits, and an update is requested -/
theorem ViewKept.debugOff (h : ViewKept a s) :
    Post (debugEnable c s false) fun s' => ViewKept a (menuRequestUpdate s') := by
  unfold Verif.debugEnable
  split
  · refine Post.bind (P := fun pd => NoForce s.disp → NoForce pd.2) ?_ fun pd hd =>
      Post.pure ⟨fun hh => hd (h.dp hh), Or.inl rfl⟩
    rintro ⟨p, d⟩ e hh j hj hne
    rw [displayEnable_dp e j hj]
    exact hh j hj hne
  · exact Post.pure (h.req rfl rfl)

theorem ViewKept.menuButtonScreen (h : ViewKept a s) (b : Button) (e : BState) :
    Post (menuButtonScreen c s b e) (ViewKept a) := by
  have opt : ∀ {m : Option Sys} {p : Prop} [Decidable p] {s : Sys}, Post m (ViewKept a) → ViewKept a s →
      Post (if p then m else Pure.pure s) (ViewKept a) := by
    intro m p _ s h1 h2
    split
    · exact h1
    · exact Post.pure h2
  unfold Verif.menuButtonScreen
  split
  · exact Post.bind (h.startRampingButton b e _ _) fun s2 h2 => opt (h2.menuSetState _) h2
  · refine Post.bind (h.menuArm _) fun s2 h2 => ?_
    cases e
    · simp only [reduceCtorEq, if_false, pure_bind]; exact h2.startRampingButton b _ _ _
    · simp only [if_true]
      cases b <;> simp only [reduceCtorEq, if_false, if_true, pure_bind]
      · exact h2.startRampingButton _ _ _ _
      · exact Post.bind (h2.presetsStore _) fun s3 h3 => h3.startRampingButton _ _ _ _
      · exact Post.bind (h2.presetsStore _) fun s3 h3 => h3.startRampingButton _ _ _ _
      · exact h2.startRampingButton _ _ _ _
    · simp only [reduceCtorEq, if_false, pure_bind]; exact h2.startRampingButton b _ _ _
  · exact Post.bind (h.menuArm _) fun s2 h2 => h2.startRampingButton b e _ _
  · split
    · exact Post.pure h
    · exact Post.bind (h.menuArm _) fun s2 h2 => h2.startRampingButton b e _ _
  · split
    · exact Post.pure h
    · split
      · cases b <;> simp only [reduceCtorEq, if_false, if_true, pure_bind]
        · exact Post.pure h
        · exact Post.bind h.debugOff fun s3 h3 => Post.pure h3
        · exact Post.bind h.debugOn fun s3 h3 => Post.pure h3
        · exact Post.pure h
      · exact Post.pure h
  all_goals first
    | exact Post.pure h
    | (split
       · exact Post.pure h
       · exact h.startRampingButton b e _ _)

theorem ViewKept.menuButton (h : ViewKept a s) (b : Button) (e : BState) :
    Post (menuButton c s b e) (ViewKept a) := by
  unfold Verif.menuButton
  split
  · exact Post.pure h
  · refine Post.bind (h.menuButtonScreen b e) fun s2 h2 => ?_
    split
    · have h3 : ViewKept a (stopRamping s2) := h2.same rfl rfl
      simp only []
      split
      · split
        · exact h3.menuSetState _
        · exact Post.pure h3
      · exact Post.pure h3
    · exact Post.pure h2

theorem ViewKept.nextBoost (h : ViewKept a s) : Post (contrtempNextBoost c s) (ViewKept a) := by
  intro s' e
  obtain ⟨h1, h2⟩ := (Io.refl s).setBoost (ringNext s.ct.boost (c.nrBoost - 1)) s' e
  exact h.req h1.disp h2

theorem ViewKept.doIdle (h : ViewKept a s) (x : Bool) : Post (contrtempDoIdle s x) (ViewKept a) := by
  unfold contrtempDoIdle
  simp only []
  refine Post.bind (P := fun s2 => s2.disp = s.disp) ?_ fun s2 h2 => Post.pure (h.req h2 rfl)
  unfold contrtempUpdateSetpoint
  exact Post.bindAny fun sp => Post.pure rfl

theorem ViewKept.contrtempButton (h : ViewKept a s) (b : Button) (e : BState) :
    Post (contrtempButton c s b e) (ViewKept a) := by
  unfold Verif.contrtempButton
  split
  · split
    · exact Post.pure h
    · have tail : ∀ s2 : Sys, ViewKept a s2 → Post (if s2.ct.biLet = true then
          if s.ct.idle = true ∨ e = .pressed ∧ timerExpired s2.now s2.ct.biTimer = true then do
            let s ← contrtempDoIdle s2 !s.ct.idle
            pure { s with ct := { s.ct with biLet := false } }
          else if e = .negedge then do
            let s ← contrtempNextBoost c s2
            pure { s with ct := { s.ct with biLet := false } }
          else pure s2
        else pure s2) (ViewKept a) := by
        intro s2 h2
        split
        · split
          · exact Post.bind (h2.doIdle _) fun s3 h3 => Post.pure (h3.same rfl rfl)
          · split
            · exact Post.bind h2.nextBoost fun s3 h3 => Post.pure (h3.same rfl rfl)
            · exact Post.pure h2
        · exact Post.pure h2
      cases e
      · simp only [if_true]
        exact Post.bindAny fun t => tail { s with ct := { s.ct with biTimer := t, biLet := true } } (h.same rfl rfl)
      · exact tail s h
      · exact tail s h
  · split
    · exact Post.pure h
    · split
      · exact h.nextBoost
      · exact Post.pure h
  · split
    · exact Post.pure h
    · simp only []
      generalize (if c.idleToggle = true then _ else _ : Bool) = x
      split
      · exact h.doIdle _
      · exact Post.pure h
  · exact Post.pure h

theorem ViewKept.calls (l : List (Button × BState)) : ∀ {s : Sys}, ViewKept a s →
    Post (l.foldlM (callButtonHandlers c) s) (ViewKept a) := by
  induction l with
  | nil => intro s h; exact Post.pure h
  | cons x l ih =>
    intro s h
    rw [List.foldlM_cons]
    refine Post.bind ?_ fun s2 h2 => ih h2
    unfold callButtonHandlers
    exact Post.bind (h.contrtempButton _ _) fun s2 h2 => h2.menuButton _ _

theorem ViewKept.buttonsWork (pinb : BitVec 8) : Post (buttonsWork c s pinb) (ViewKept s) := by
  unfold Verif.buttonsWork
  exact Post.bindAny fun x => ViewKept.calls _ ((ViewKept.refl s).same rfl rfl)

/-! ### the menu's work function -/

theorem ViewKept.menuTimeouts (h : ViewKept a s) : Post (menuTimeouts c s) (ViewKept a) := by
  unfold Verif.menuTimeouts
  split
  all_goals first
    | exact Post.pure h
    | skip
  all_goals
    split
    · try split
      all_goals exact Post.bind (h.menuSetState _) fun s2 h2 => Post.pure (h2.same rfl rfl)
    · exact Post.pure h

theorem ViewKept.menuIndicate (h : ViewKept a s) : ViewKept a (menuIndicate s) := by
  unfold Verif.menuIndicate
  simp only []
  split
  · split
    · exact h.req rfl rfl
    · exact h.req rfl rfl
  · split
    · exact h.req rfl rfl
    · exact h

theorem ViewKept.menuRamp (h : ViewKept a s) : Post (menuRamp c s) (ViewKept a) := by
  unfold Verif.menuRamp
  split
  · exact Post.pure h
  all_goals
    split
    · first
        | exact h.startRamping _ _ _
        | exact Post.bindAny fun r => Post.bind ((Io.refl s).rampHandler r _) fun s2 h2 =>
            Post.bindAny fun t => Post.pure (h.req h2.disp rfl)
    · exact Post.pure h

/-- the display shows what belongs there -/
def UpToDate (s : Sys) : Prop :=
  ∃ txt, ScreenText s txt ∧ DisplayShows s.disp txt (ShowsHeating s && s.menu.dispHeating)

/-- the invariant of the display contents -/
structure Shown (s : Sys) : Prop where
  dp : NoForce s.disp
  shown : s.menu.updReq = true ∨ UpToDate s

theorem UpToDate.view {s s' : Sys} (h : UpToDate s) (hv : viewOf s' = viewOf s) : UpToDate s' := by
  simp only [viewOf, Prod.mk.injEq] at hv
  obtain ⟨e1, e2, e3, e4, e5, e6, e7, e8, e9, e10, e11, e12⟩ := hv
  obtain ⟨txt, h1, h2⟩ := h
  refine ⟨txt, ?_, ?_⟩
  · unfold ScreenText at h1 ⊢
    rw [e1, e2, e4, e5, e6, e7, e8, e9, e10, e11]
    exact h1
  · unfold DisplayShows ShowsHeating at h2 ⊢
    rw [e1, e2, e3, e12]
    exact h2

theorem Shown.kept {s s' : Sys} (h : Shown s) (hk : ViewKept s s') : Shown s' := by
  refine ⟨hk.dp h.dp, ?_⟩
  rcases hk.view with hu | ⟨hu, hv⟩
  · exact Or.inl hu
  · rcases h.shown with hs | hs
    · exact Or.inl (hu.trans hs)
    · exact Or.inr (hs.view hv)

/-- after the menu's work function the display is up to date -/
theorem Shown.menuWork (hi : Inv c s) (h : Shown s) : Post (menuWork c s) fun s' =>
    NoForce s'.disp ∧ UpToDate s' ∧ s'.menu.updReq = false := by
  unfold Verif.menuWork
  refine Post.bind (P := fun s1 => Inv c s1 ∧ Shown s1)
    (fun s1 e => ⟨hi.menuTimeouts.elim e, h.kept ((ViewKept.refl s).menuTimeouts s1 e)⟩) fun s1 ⟨i1, h1⟩ => ?_
  have i2 := i1.menuIndicate
  have h2 := h1.kept (ViewKept.refl s1).menuIndicate
  simp only []
  refine Post.bind (P := fun s3 => Inv c s3 ∧ Shown s3)
    (fun s3 e => ⟨i2.menuRamp.elim e, h2.kept ((ViewKept.refl _).menuRamp s3 e)⟩) fun s3 ⟨i3, h3⟩ => ?_
  unfold menuRefresh
  split
  · intro s4 e
    have i4 : Inv c { s3 with menu := { s3.menu with updReq := false } } := { i3 with menu := { i3.menu with } }
    obtain ⟨txt, dg, k1, rfl, k2, k3⟩ := menuUpdateDisplay_shows i4 h3.dp e
    exact ⟨k2, ⟨txt, k1, k3⟩, rfl⟩
  · rename_i hu
    exact Post.pure ⟨h3.dp, h3.shown.resolve_left hu, by simpa using hu⟩

/-! ### measurements and the running firmware -/

theorem ViewKept.pwmcurrSet (h : ViewKept a s) (y : Int) : Post (pwmcurrSet s y) (ViewKept a) := by
  unfold Verif.pwmcurrSet
  exact Post.bindAny fun o => Post.pure (h.same rfl rfl)

theorem ViewKept.contrcurrSetEmerg (h : ViewKept a s) (f : BitVec 8) : Post (contrcurrSetEmerg s f) (ViewKept a) := by
  unfold Verif.contrcurrSetEmerg
  split
  · simp only []
    split
    · exact (h.same rfl rfl : ViewKept a { s with cc := { s.cc with emerg := f } }).pwmcurrSet _
    · exact Post.pure (h.same rfl rfl)
  · exact Post.pure h

theorem ViewKept.contrcurrSetFeedback (h : ViewKept a s) (r : Int) : Post (contrcurrSetFeedback s r) (ViewKept a) := by
  unfold Verif.contrcurrSetFeedback contrcurrRun
  split
  · exact Post.pure (h.same rfl rfl)
  split
  · exact Post.pure (h.same rfl rfl)
  · refine Post.bindAny fun dt => Post.bindAny fun x => Post.bindAny fun y => ?_
    exact ViewKept.pwmcurrSet (by exact h.same rfl rfl) _

theorem ViewKept.meascurrResult (h : ViewKept a s) (p : Int) (pl : Plaus) :
    Post (meascurrResult s p pl) (ViewKept a) := by
  unfold Verif.meascurrResult
  simp only []
  refine Post.bind (h.contrcurrSetEmerg _) fun s2 h2 => ?_
  cases pl
  · exact Post.bind (ViewKept.contrcurrSetFeedback (by exact h2.same rfl rfl) _) fun s3 h3 => Post.pure (h3.same rfl rfl)
  · exact Post.bind (h2.contrcurrSetFeedback _) fun s3 h3 => Post.pure (h3.same rfl rfl)
  · exact Post.pure (h2.same rfl rfl)

theorem ViewKept.contrtempSetFeedback (h : ViewKept a s) (r : Int) : Post (contrtempSetFeedback s r) (ViewKept a) := by
  unfold Verif.contrtempSetFeedback
  simp only []
  have h1 : ViewKept a (if r ≠ s.ct.feedback then menuRequestUpdate { s with ct := { s.ct with feedback := r } } else s) := by
    split
    · exact h.req rfl rfl
    · exact h
  revert h1
  generalize (if r ≠ s.ct.feedback then menuRequestUpdate { s with ct := { s.ct with feedback := r } } else s) = s1
  intro h1
  unfold contrtempRun
  split
  · exact Post.pure h1
  split
  · exact Post.pure h1
  · refine Post.bindAny fun dt => Post.bindAny fun x => ?_
    simp only []
    refine Post.bindAny fun y => ?_
    split
    all_goals
      exact Post.bind (ViewKept.contrcurrSetEmerg (by exact h1.same rfl rfl) _) fun s3 h3 => Post.pure (h3.same rfl rfl)

theorem ViewKept.contrtempSetEmerg (h : ViewKept a s) (x : Bool) : ViewKept a (contrtempSetEmerg s x) := by
  unfold Verif.contrtempSetEmerg contrtempDoSetEmerg
  split
  · simp only []
    split
    · exact h.same rfl rfl
    · exact h.same rfl rfl
  · exact h

theorem ViewKept.meastempResult (h : ViewKept a s) (p : Int) (pl : Plaus) :
    Post (meastempResult s p pl) (ViewKept a) := by
  unfold Verif.meastempResult
  simp only []
  cases pl
  · exact ViewKept.contrtempSetFeedback (by exact (h.contrtempSetEmerg false).same rfl rfl) _
  · exact h.contrtempSetFeedback _
  · exact Post.pure (h.contrtempSetEmerg true)

theorem ViewKept.measureWork : Post (measureWork c s) (ViewKept s) := by
  unfold Verif.measureWork
  simp only []
  split
  · refine Post.bindAny fun x => ?_
    obtain ⟨m, mc, p, pl⟩ := x
    have h : ViewKept s { s with meas := m, mcurr := mc } := (ViewKept.refl s).same rfl rfl
    split
    · exact Post.bind (h.meastempResult p pl) fun s2 h2 => Post.bindAny fun m => Post.pure (h2.same rfl rfl)
    · exact Post.bind (h.meascurrResult p pl) fun s2 h2 => Post.bindAny fun m => Post.pure (h2.same rfl rfl)
  · exact Post.pure ((ViewKept.refl s).same rfl rfl)

theorem eeIsr_cache {x y : SettingsSt} (e : eeIsr c x = some y) : y.cache = x.cache := by
  unfold eeIsr at e
  obtain ⟨d, -, e⟩ := Option.bind_eq_some_iff.mp e
  simp only [] at e
  generalize (if c.eering = true then x.eeIndex else 0) = i at e
  by_cases hi : i < c.nrEe
  · rw [if_pos hi] at e
    cases e
    show (if _ then x else _ : SettingsSt).cache = x.cache
    split <;> rfl
  · rw [if_neg hi] at e
    cases e

/-- everything but the menu's work function requests an update when it changes something shown -/
theorem ViewKept.step {s s' : Sys} {e : Ev} (hi : Inv c s) (hne : e ≠ .menuWork) (hs : Verif.step c s e = some s') :
    ViewKept s s' := by
  have hr := ViewKept.refl s
  cases e with
  | tick => cases hs; exact hr.same rfl rfl
  | adc x => cases hs; exact hr.same rfl rfl
  | eeIsr =>
    obtain ⟨set, e1, hs⟩ := Option.bind_eq_some_iff.mp hs
    cases hs
    have := eeIsr_cache e1
    exact hr.same rfl (by simp only [viewOf, this])
  | eeDone =>
    cases hs
    have : (eeProgDone s.set).cache = s.set.cache := by
      unfold eeProgDone
      split <;> rfl
    exact hr.same rfl (by simp only [viewOf, this])
  | measureWork => exact ViewKept.measureWork _ hs
  | menuWork => exact absurd rfl hne
  | displayWork =>
    obtain ⟨⟨p, d⟩, e1, hs⟩ := Option.bind_eq_some_iff.mp hs
    cases hs
    have : d.digit = s.disp.digit := by
      rcases displayWork_eq s.now s.ports hi.disp with e2 | ⟨t, j, -, -, -, -, hj, e2⟩
      · rw [e2] at e1; cases e1; rfl
      · rw [e2] at e1; cases e1; rfl
    exact hr.same rfl (by simp only [viewOf, this])
  | buttonsWork pinb => exact ViewKept.buttonsWork pinb _ hs
  | settingsWork =>
    cases hs
    obtain ⟨-, n, hn⟩ := hi.set.work s.now
    exact hr.same rfl (by simp only [viewOf, hn])

theorem Shown.step {s s' : Sys} {e : Ev} (hi : Inv c s) (h : Shown s) (hs : step c s e = some s') : Shown s' := by
  by_cases he : e = .menuWork
  · subst he
    obtain ⟨h1, h2, -⟩ := h.menuWork hi _ hs
    exact ⟨h1, Or.inr h2⟩
  · exact h.kept (ViewKept.step hi he hs)

theorem Running.shown (h : Running c s) : Shown s := by
  induction h with
  | boot hv e =>
    obtain ⟨-, st, -, b, t, hb, -, rfl⟩ := (boot_ok hv).elim e
    exact ⟨fun j hj _ => hb.dp j hj, Or.inl hb.upd⟩
  | step hr hp e ih => exact ih.step (Running.inv hr) e

end Verif
