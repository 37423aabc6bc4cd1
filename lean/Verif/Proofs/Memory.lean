import Verif.Proofs.InvWork
import Verif.Proofs.Iron
/-
What keeps the memory of the temperature controller: while the controller stays switched on and its boost
mode stays the same, nothing but its own run changes the integral and the last difference.
-/
namespace Verif
open Spec

variable {c : Conf} {a s : Sys}

/-- switched on outside the tuning screens, with the memory and the boost mode of `a` -/
structure KeepsMem (a s : Sys) : Prop where
  integr : s.ct.pid.integr = a.ct.pid.integr
  prevE : s.ct.pid.prevE = a.ct.pid.prevE
  boost : s.ct.boost = a.ct.boost
  en : s.ct.enabled = true
  scr : Tuning s.menu.state = false

theorem KeepsMem.menuRequestUpdate (h : KeepsMem a s) : KeepsMem a (menuRequestUpdate s) := { h with }

theorem KeepsMem.setCache (h : KeepsMem a s) (x : Settings) : KeepsMem a (setCache s x) := { h with }

theorem KeepsMem.stopRamping (h : KeepsMem a s) : KeepsMem a (stopRamping s) := { h with }

theorem KeepsMem.sysStore (h : KeepsMem a s) : Post (sysStore s) (KeepsMem a) := by
  unfold Verif.sysStore
  exact Post.bindAny fun set => Post.pure { h with }

theorem KeepsMem.updateSetpoint (h : KeepsMem a s) : Post (contrtempUpdateSetpoint s) (KeepsMem a) := by
  unfold contrtempUpdateSetpoint
  exact Post.bindAny fun sp => Post.pure { h with }

theorem KeepsMem.setIdleSetpoint (h : KeepsMem a s) (w : Int) : Post (contrtempSetIdleSetpoint c s w) (KeepsMem a) := by
  unfold contrtempSetIdleSetpoint
  split
  · exact Post.bind (h.setCache _).updateSetpoint fun _ h => h.sysStore
  · exact Post.pure h

theorem KeepsMem.setEnabled (h : KeepsMem a s) : Post (contrtempSetEnabled c s true) (KeepsMem a) := by
  unfold contrtempSetEnabled
  rw [if_neg (by rw [h.en]; decide)]
  exact Post.pure h

theorem KeepsMem.doIdle (h : KeepsMem a s) (b : Bool) : Post (contrtempDoIdle s b) (KeepsMem a) := by
  unfold contrtempDoIdle
  have h1 : KeepsMem a { s with ct := { s.ct with idle := b } } := { h with }
  exact Post.bind h1.updateSetpoint fun s2 h2 => Post.pure h2.menuRequestUpdate

theorem KeepsMem.presetsStore (h : KeepsMem a s) : Post (presetsStore s) (KeepsMem a) := by
  unfold Verif.presetsStore
  exact Post.bind h.sysStore fun s2 h2 => Post.bind h2.updateSetpoint fun s3 h3 =>
    Post.pure h3.menuRequestUpdate

theorem KeepsMem.presetsSetActive (h : KeepsMem a s) (v : Int) : Post (presetsSetActive s v) (KeepsMem a) := by
  unfold Verif.presetsSetActive
  exact Post.bindAny fun x => (h.setCache x).presetsStore

theorem KeepsMem.menuArm (h : KeepsMem a s) (ms : Int) : Post (menuArm s ms) (KeepsMem a) := by
  unfold Verif.menuArm
  exact Post.bindAny fun t => Post.pure { h with }

/-- entering a screen that is no tuning screen -/
theorem KeepsMem.menuSetState (h : KeepsMem a s) {t : MenuState} (ht : Tuning t = false) :
    Post (menuSetState c s t) (KeepsMem a) := by
  unfold Verif.menuSetState
  split
  · exact Post.pure h
  · have h1 : KeepsMem a { s with menu := { s.menu with state := t } } := { h with scr := ht }
    refine Post.bind (P := KeepsMem a) ?_ fun s2 h2 => Post.pure h2.menuRequestUpdate
    cases t <;> first | cases ht | simp only [Verif.menuEnter]
    · exact h1.setEnabled
    · exact h1.menuArm _
    · exact h1.menuArm _
    · exact h1.menuArm _
    · exact Post.pure h1

/-- a screen entered is the screen shown -/
theorem menuSetState_state (t : MenuState) :
    Post (menuSetState c s t) fun s' => s'.menu.state = t := by
  have en : ∀ {s : Sys} (b : Bool), Post (contrtempSetEnabled c s b) fun s' => s'.menu.state = s.menu.state := by
    intro s b
    unfold contrtempSetEnabled
    split
    · unfold contrtempDoSetEnabled contrtempSetBoost
      refine Post.bind (P := fun s' => s'.menu.state = s.menu.state) (Post.bindAny fun k => ?_) ?_
      · simp only []
        split <;> exact Post.pure rfl
      · intro s2 h2; exact Post.pure h2
    · exact Post.pure rfl
  have arm : ∀ {s : Sys} (ms : Int), Post (menuArm s ms) fun s' => s'.menu.state = s.menu.state := by
    intro s ms
    unfold Verif.menuArm
    exact Post.bindAny fun t => Post.pure rfl
  unfold Verif.menuSetState
  split
  · rename_i h; exact Post.pure h
  · refine Post.bind (P := fun s' => s'.menu.state = t) ?_ fun s2 h2 => Post.pure h2
    cases t <;> simp only [Verif.menuEnter]
    case curtemp => exact en _
    case selpreset => exact arm _
    case chgpreset => exact arm _
    case idletemp => exact arm _
    case debug => exact Post.pure rfl
    all_goals split
    all_goals first
      | exact Post.pure rfl
      | exact en _
      | exact Post.bind (arm _) fun s2 h2 => (en _).mono fun s3 h3 => h3.trans h2

/-- whatever screen is entered, it is a tuning screen or everything is kept -/
theorem KeepsMem.menuSetState_any (h : KeepsMem a s) (t : MenuState) :
    Post (Verif.menuSetState c s t) fun s' => KeepsMem a s' ∨ Tuning s'.menu.state = true := by
  cases ht : Tuning t
  · exact (h.menuSetState ht).mono fun _ => Or.inl
  · exact (menuSetState_state t).mono fun s' h' => Or.inr (by rw [h']; exact ht)

theorem KeepsMem.rampHandler (h : KeepsMem a s) {r : RampHandler} (hr : handlerFor s.menu.state = some r) (up : Bool) :
    Post (rampHandler c s r up) (KeepsMem a) := by
  have hsc := h.scr
  cases hst : s.menu.state <;> rw [hst] at hr hsc <;> cases hr <;>
    first | cases hsc | simp only [Verif.rampHandler]
  all_goals first
    | exact Post.bindAny fun sp => Post.bindAny fun v => Post.bind (h.presetsSetActive v) fun s2 h2 =>
        h2.menuSetState rfl
    | exact Post.bindAny fun sp => h.setIdleSetpoint _

theorem KeepsMem.startRamping (h : KeepsMem a s) (up pre : Bool) (r : Option RampHandler) :
    Post (startRamping s up pre r) (KeepsMem a) := by
  unfold Verif.startRamping
  split
  · refine Post.bindAny fun m => Post.pure { h with }
  · exact Post.pure { h with }

theorem KeepsMem.startRampingButton (h : KeepsMem a s) (b : Button) (e : BState) (pre : Bool)
    (r : RampHandler) : Post (startRampingButton s b e pre r) (KeepsMem a) := by
  unfold Verif.startRampingButton
  split
  · split
    · exact h.startRamping _ _ _
    · split
      · exact h.startRamping _ _ _
      · exact Post.pure h
  · exact Post.pure h

theorem KeepsMem.debugEnable (h : KeepsMem a s) (en : Bool) : Post (debugEnable c s en) (KeepsMem a) := by
  unfold Verif.debugEnable
  split
  · exact Post.bindAny fun pd => Post.pure { h with }
  · exact Post.pure h

theorem KeepsMem.menuButtonScreen (h : KeepsMem a s) (b : Button) (e : BState) :
    Post (menuButtonScreen c s b e) (KeepsMem a) := by
  have opt : ∀ {m : Option Sys} {p : Prop} [Decidable p] {s : Sys}, Post m (KeepsMem a) → KeepsMem a s →
      Post (if p then m else Pure.pure s) (KeepsMem a) := by
    intro m p _ s h1 h2
    split
    · exact h1
    · exact Post.pure h2
  unfold Verif.menuButtonScreen
  split
  · exact Post.bind (h.startRampingButton b e _ _) fun s2 h2 => opt (h2.menuSetState rfl) h2
  · refine Post.bind (h.menuArm _) fun s2 h2 => ?_
    cases e
    · simp only [reduceCtorEq, if_false, pure_bind]; exact h2.startRampingButton b _ _ _
    · simp only [if_true]
      cases b <;> simp only [reduceCtorEq, if_false, if_true, pure_bind]
      · exact h2.startRampingButton _ _ _ _
      · exact Post.bind (h2.setCache _).presetsStore fun s3 h3 => h3.startRampingButton _ _ _ _
      · exact Post.bind (h2.setCache _).presetsStore fun s3 h3 => h3.startRampingButton _ _ _ _
      · exact h2.startRampingButton _ _ _ _
    · simp only [reduceCtorEq, if_false, pure_bind]; exact h2.startRampingButton b _ _ _
  · exact Post.bind (h.menuArm _) fun s2 h2 => h2.startRampingButton b e _ _
  · split
    · exact Post.pure h
    · exact Post.bind (h.menuArm _) fun s2 h2 => h2.startRampingButton b e _ _
  · split
    · exact Post.pure h
    · split
      · cases b <;> simp only [reduceCtorEq, if_false, if_true, pure_bind]
        · exact Post.pure h
        · exact Post.bind (h.debugEnable _) fun s3 h3 => Post.pure h3.menuRequestUpdate
        · exact Post.bind (h.debugEnable _) fun s3 h3 => Post.pure h3
        · exact Post.pure h
      · exact Post.pure h
  all_goals first
    | exact Post.pure h
    | (split
       · exact Post.pure h
       · exact h.startRampingButton b e _ _)

/-- the screen shown is kept by the buttons in a tuning screen, unless SET is released -/
theorem menuButton_tuning (h : Tuning s.menu.state = true) {b : Button} {e : BState}
    (hb : ¬ (b = .set ∧ e = .negedge)) :
    Post (menuButton c s b e) fun s' => Tuning s'.menu.state = true := by
  have ramp : ∀ (pre : Bool) (r : RampHandler),
      Post (Verif.startRampingButton s b e pre r) fun s' => Tuning s'.menu.state = true := by
    have st : ∀ (up pre : Bool) (r : Option RampHandler),
        Post (Verif.startRamping s up pre r) fun s' => Tuning s'.menu.state = true := by
      intro up pre r
      unfold Verif.startRamping
      split
      · exact Post.bindAny fun m => Post.pure h
      · exact Post.pure h
    intro pre r
    unfold Verif.startRampingButton
    split
    · split
      · exact st _ _ _
      · split
        · exact st _ _ _
        · exact Post.pure h
    · exact Post.pure h
  unfold Verif.menuButton
  split
  · exact Post.pure h
  · refine Post.bind (P := fun s' => Tuning s'.menu.state = true) ?_ fun s2 h2 => ?_
    · unfold Verif.menuButtonScreen
      split <;> rename_i hst <;> first
        | (rw [hst] at h; cases h; done)
        | exact Post.pure h
        | (split
           · exact Post.pure h
           · exact ramp _ _)
    · split
      · rename_i he
        simp only []
        rw [if_neg fun hh => hb ⟨hh, he⟩]
        exact Post.pure h2
      · exact Post.pure h2

theorem KeepsMem.menuButton (h : KeepsMem a s) (b : Button) (e : BState) :
    Post (menuButton c s b e) fun s' => KeepsMem a s' ∨ Tuning s'.menu.state = true := by
  unfold Verif.menuButton
  split
  · exact Post.pure (Or.inl h)
  · refine Post.bind (h.menuButtonScreen b e) fun s2 h2 => ?_
    split
    · simp only []
      split
      · split
        · exact h2.stopRamping.menuSetState_any _
        · exact Post.pure (Or.inl h2.stopRamping)
      · exact Post.pure (Or.inl h2.stopRamping)
    · exact Post.pure (Or.inl h2)

/-- a time-out of a screen that is no tuning screen, and the ramp afterwards -/
theorem KeepsMem.menuTimeouts (h : KeepsMem a s) :
    Post (menuTimeouts c s) fun s' => KeepsMem a s' ∧ (s'.menu.ramp = .none ∨ s'.menu = s.menu) := by
  have hsc := h.scr
  unfold Verif.menuTimeouts
  cases hst : s.menu.state <;> rw [hst] at hsc <;> first | cases hsc | skip
  all_goals simp only []
  all_goals first
    | exact Post.pure ⟨h, Or.inr rfl⟩
    | skip
  all_goals split
  all_goals first
    | exact Post.pure ⟨h, Or.inr rfl⟩
    | skip
  all_goals simp only [reduceCtorEq, if_false, if_true, menuSetNextState, hst, nextMenuState]
  all_goals exact Post.bind (h.menuSetState rfl) fun s2 h2 => Post.pure ⟨h2.stopRamping, Or.inl rfl⟩

theorem KeepsMem.menuIndicate (h : KeepsMem a s) : KeepsMem a (menuIndicate s) := by
  unfold Verif.menuIndicate
  simp only []
  split
  · split
    · exact { h with }
    · exact { h with }
  · split
    · exact { h with }
    · exact h

theorem menuIndicate_ramp (s : Sys) : (menuIndicate s).menu.ramp = .none ∨
    ((menuIndicate s).menu.ramp = s.menu.ramp ∧
      (menuIndicate s).menu.handler = s.menu.handler ∧ (menuIndicate s).menu.state = s.menu.state) := by
  unfold Verif.menuIndicate
  simp only []
  split
  · split <;> exact Or.inl rfl
  · split <;> exact Or.inr ⟨rfl, rfl, rfl⟩

theorem KeepsMem.menuRamp (h : KeepsMem a s) (hr : s.menu.ramp ≠ .none → s.menu.handler = handlerFor s.menu.state) :
    Post (menuRamp c s) (KeepsMem a) := by
  unfold Verif.menuRamp
  split <;> rename_i hrm
  · exact Post.pure h
  all_goals
    split
    · first
        | exact h.startRamping _ _ _
        | (have hr := hr (by rw [hrm]; decide)
           cases hh : s.menu.handler with
           | none => exact Post.none
           | some r =>
             rw [hh] at hr
             refine Post.bind (P := fun r' => r' = r) (Post.pure rfl) fun r' hr' => ?_
             subst hr'
             exact Post.bind (h.rampHandler hr.symm _) fun s2 h2 => Post.bindAny fun t => Post.pure { h2 with })
    · exact Post.pure h

theorem KeepsMem.menuWork (hi : Inv c s) (h : KeepsMem a s) : Post (menuWork c s) (KeepsMem a) := by
  unfold Verif.menuWork
  refine Post.bind h.menuTimeouts fun s1 h1 => ?_
  obtain ⟨h1, hm⟩ := h1
  refine Post.bind (h1.menuIndicate.menuRamp ?_) fun s2 h2 => ?_
  · rcases menuIndicate_ramp s1 with e1 | ⟨e1, e2, e3⟩
    · intro hh; exact absurd e1 hh
    rw [e1, e2, e3]
    rcases hm with hm | hm
    · intro hh; exact absurd hm hh
    · rw [hm]; exact fun hh => (hi.menu.ramp hh).1
  · unfold menuRefresh
    split
    · unfold Verif.menuUpdateDisplay
      exact Post.bindAny fun x => Post.bindAny fun d => Post.bindAny fun d => Post.pure { h2 with }
    · exact Post.pure h2

/-! ### the buttons -/

/-- the handle switch keeps the memory, or it changes the boost mode -/
theorem KeepsMem.ironButton (h : KeepsMem a s) (hb : s.ct.boost < c.nrBoost) (e : BState) :
    Post (contrtempButton c s .iron e) fun s' => KeepsMem a s' ∨ s'.ct.boost ≠ a.ct.boost := by
  have nb : ∀ {s : Sys}, KeepsMem a s → s.ct.boost < c.nrBoost → c.boost = true →
      Post (contrtempNextBoost c s) fun s' => s'.ct.boost ≠ a.ct.boost := by
    intro s h hb hc
    unfold contrtempNextBoost contrtempSetBoost
    refine Post.bindAny fun k => ?_
    simp only [hc, if_true]
    refine Post.pure ?_
    show ringNext s.ct.boost (c.nrBoost - 1) ≠ a.ct.boost
    rw [← h.boost]
    simp only [Conf.nrBoost, hc, if_true] at hb ⊢
    unfold ringNext
    simp only []
    split <;> omega
  have tail : ∀ {s : Sys}, KeepsMem a s → s.ct.boost < c.nrBoost → c.boost = true → ∀ idle : Bool,
      Post (if s.ct.biLet then
        if idle ∨ (e = .pressed ∧ timerExpired s.now s.ct.biTimer) then do
          let s ← contrtempDoIdle s !idle
          return { s with ct := { s.ct with biLet := false } }
        else if e = .negedge then do
          let s ← contrtempNextBoost c s
          return { s with ct := { s.ct with biLet := false } }
        else return s
      else return s) fun s' => KeepsMem a s' ∨ s'.ct.boost ≠ a.ct.boost := by
    intro s h hb hc idle
    split
    · split
      · exact Post.bind (h.doIdle _) fun s2 h2 => Post.pure (Or.inl { h2 with })
      · split
        · exact Post.bind (nb h hb hc) fun s2 h2 => Post.pure (Or.inr h2)
        · exact Post.pure (Or.inl h)
    · exact Post.pure (Or.inl h)
  unfold contrtempButton
  split
  · rename_i hc _
    simp only [ne_eq, not_true_eq_false, if_false]
    split
    · refine Post.bindAny fun t => ?_
      exact Post.bind (P := fun s' => KeepsMem a s' ∧ s'.ct.boost < c.nrBoost) (Post.pure ⟨{ h with }, hb⟩)
        fun s2 h2 => tail h2.1 h2.2 hc s.ct.idle
    · exact Post.bind (P := fun s' => KeepsMem a s' ∧ s'.ct.boost < c.nrBoost) (Post.pure ⟨h, hb⟩)
        fun s2 h2 => tail h2.1 h2.2 hc s.ct.idle
  · rename_i hc _
    simp only [ne_eq, not_true_eq_false, if_false]
    split
    · exact (nb h hb hc).mono fun _ => Or.inr
    · exact Post.pure (Or.inl h)
  · simp only [ne_eq, not_true_eq_false, if_false]
    have : ∀ x : Bool, Post (if ¬ x = s.ct.idle then contrtempDoIdle s x else some s)
        fun s' => KeepsMem a s' ∨ s'.ct.boost ≠ a.ct.boost := by
      intro x
      split
      · exact (h.doIdle _).mono fun _ => Or.inl
      · exact Post.pure (Or.inl h)
    exact this _
  · exact Post.pure (Or.inl h)

/-- the handle switch held down changes neither the memory nor the boost mode -/
theorem ironPressed_boost : Post (contrtempButton c s .iron .pressed) fun s' => s'.ct.boost = s.ct.boost := by
  have idle : ∀ {s : Sys} (b : Bool), Post (contrtempDoIdle s b) fun s' => s'.ct.boost = s.ct.boost := by
    intro s b
    unfold contrtempDoIdle contrtempUpdateSetpoint
    refine Post.bind (P := fun s' => s'.ct.boost = s.ct.boost) (Post.bindAny fun sp => Post.pure rfl) ?_
    intro s2 h2; exact Post.pure h2
  unfold contrtempButton
  split
  · simp only [ne_eq, not_true_eq_false, if_false, reduceCtorEq, pure_bind]
    split
    · split
      · exact Post.bind (idle _) fun s2 h2 => Post.pure h2
      · exact Post.pure rfl
    · exact Post.pure rfl
  · exact Post.pure rfl
  · simp only [ne_eq, not_true_eq_false, if_false, reduceCtorEq, ite_self]
    exact Post.pure rfl
  · exact Post.pure rfl

/-- the handle switch does not change the screen -/
theorem ironButton_menu (e : BState) :
    Post (contrtempButton c s .iron e) fun s' => s'.menu.state = s.menu.state := by
  have idle : ∀ {s : Sys} (b : Bool), Post (contrtempDoIdle s b) fun s' => s'.menu.state = s.menu.state := by
    intro s b
    unfold contrtempDoIdle contrtempUpdateSetpoint
    refine Post.bind (P := fun s' => s'.menu.state = s.menu.state) (Post.bindAny fun sp => Post.pure rfl) ?_
    intro s2 h2; exact Post.pure h2
  have boost : ∀ {s : Sys}, Post (contrtempNextBoost c s) fun s' => s'.menu.state = s.menu.state := by
    intro s
    unfold contrtempNextBoost contrtempSetBoost
    refine Post.bindAny fun k => ?_
    simp only []
    split <;> exact Post.pure rfl
  have tail : ∀ {s1 : Sys}, s1.menu.state = s.menu.state → ∀ idle : Bool,
      Post (if s1.ct.biLet then
        if idle ∨ (e = .pressed ∧ timerExpired s1.now s1.ct.biTimer) then do
          let s ← contrtempDoIdle s1 !idle
          return { s with ct := { s.ct with biLet := false } }
        else if e = .negedge then do
          let s ← contrtempNextBoost c s1
          return { s with ct := { s.ct with biLet := false } }
        else return s1
      else return s1) fun s' => s'.menu.state = s.menu.state := by
    intro s1 h x
    split
    · split
      · exact Post.bind (idle _) fun s2 h2 => Post.pure (h2.trans h)
      · split
        · exact Post.bind boost fun s2 h2 => Post.pure (h2.trans h)
        · exact Post.pure h
    · exact Post.pure h
  unfold contrtempButton
  split
  · simp only [ne_eq, not_true_eq_false, if_false]
    split
    · refine Post.bindAny fun t => ?_
      exact Post.bind (P := fun s' => s'.menu.state = s.menu.state) (Post.pure rfl)
        fun s2 h2 => tail h2 s.ct.idle
    · exact Post.bind (P := fun s' => s'.menu.state = s.menu.state) (Post.pure rfl)
        fun s2 h2 => tail h2 s.ct.idle
  · simp only [ne_eq, not_true_eq_false, if_false]
    split
    · exact boost
    · exact Post.pure rfl
  · simp only [ne_eq, not_true_eq_false, if_false]
    have : ∀ x : Bool, Post (if ¬ x = s.ct.idle then contrtempDoIdle s x else some s)
        fun s' => s'.menu.state = s.menu.state := by
      intro x
      split
      · exact idle _
      · exact Post.pure rfl
    exact this _
  · exact Post.pure rfl

/-- a call for a button of the panel -/
theorem KeepsMem.call (h : KeepsMem a s) {x : Button × BState} (hx : x.1 ≠ .iron) :
    Post (callButtonHandlers c s x) fun s' => KeepsMem a s' ∨ Tuning s'.menu.state = true := by
  unfold callButtonHandlers
  rw [contrtempButton_other hx]
  exact h.menuButton x.1 x.2

/-- the calls for the buttons of the panel other than SET being released -/
theorem KeepsMem.calls (l : List (Button × BState)) (hl : ∀ x ∈ l, x.1 ≠ .iron)
    (hp : (Button.set, BState.negedge) ∉ l) : ∀ {s : Sys}, (KeepsMem a s ∨ Tuning s.menu.state = true) →
    Post (l.foldlM (callButtonHandlers c) s) fun s' => KeepsMem a s' ∨ Tuning s'.menu.state = true := by
  induction l with
  | nil => intro s h; exact Post.pure h
  | cons x l ih =>
    intro s h
    rw [List.foldlM_cons]
    have hx := hl x (List.mem_cons_self ..)
    refine Post.bind (P := fun s' => KeepsMem a s' ∨ Tuning s'.menu.state = true) ?_ fun s2 h2 =>
      ih (fun y hy => hl y (List.mem_cons_of_mem _ hy)) (fun hh => hp (List.mem_cons_of_mem _ hh)) h2
    rcases h with h | h
    · exact h.call hx
    · unfold callButtonHandlers
      rw [contrtempButton_other hx]
      refine (menuButton_tuning h fun hh => hp ?_).mono fun _ => Or.inr
      rw [← hh.1, ← hh.2]
      exact List.mem_cons_self ..

/-- one sample of the buttons -/
theorem KeepsMem.buttonsWork (hi : Inv c s) (h : KeepsMem s s) (pinb : BitVec 8) :
    Post (buttonsWork c s pinb) fun s' =>
      KeepsMem s s' ∨ s'.ct.boost ≠ s.ct.boost ∨ Tuning s'.menu.state = true := by
  intro s' e
  cases hx : timerExpired s.now s.btn.debounce
  · rw [buttonsWork_early hx e]
    exact Or.inl h
  unfold Verif.buttonsWork at e
  obtain ⟨⟨b, calls⟩, eb, e⟩ := Option.bind_eq_some_iff.mp e
  unfold buttonsSample at eb
  rw [hx] at eb
  simp only [Bool.not_true, Bool.false_eq_true, if_false] at eb
  obtain ⟨t, -, eb⟩ := Option.bind_eq_some_iff.mp eb
  cases eb
  simp only [buttonCalls_split, List.foldlM_append] at e
  obtain ⟨s1, e1, e⟩ := Option.bind_eq_some_iff.mp e
  have h0 : ∀ b, KeepsMem s { s with btn := b } := fun b => { h with }
  -- the panel
  have hpan : KeepsMem s s1 ∨ Tuning s1.menu.state = true := by
    have hsp : panelCalls s.btn.prev pinb =
        (pressCalls (s.btn.prev.getLsbD 2) (!pinb.getLsbD 2)).map (fun e => (Button.set, e)) ++
        [Button.minus, .plus].flatMap fun b =>
          (pressCalls (s.btn.prev.getLsbD (buttonPin b)) (!pinb.getLsbD (buttonPin b))).map fun e => (b, e) := by
      simp [panelCalls, buttonPin]
    rw [hsp, List.foldlM_append] at e1
    obtain ⟨s2, e2, e1⟩ := Option.bind_eq_some_iff.mp e1
    have rest : ∀ b e, (b, e) ∈ ([Button.minus, .plus].flatMap fun b =>
          (pressCalls (s.btn.prev.getLsbD (buttonPin b)) (!pinb.getLsbD (buttonPin b))).map fun e => (b, e)) →
        b = .minus ∨ b = .plus := by
      intro b e hx
      obtain ⟨b', hb, hx⟩ := List.mem_flatMap.mp hx
      obtain ⟨e', -, hx⟩ := List.mem_map.mp hx
      cases hx
      simpa using hb
    have h2 : KeepsMem s s2 ∨ Tuning s2.menu.state = true := by
      cases hw : s.btn.prev.getLsbD 2 <;> cases hd : pinb.getLsbD 2 <;> rw [hw, hd] at e2
      case true.true =>
        change (([(Button.set, BState.negedge)] : List _).foldlM (callButtonHandlers c) _) = some s2 at e2
        rw [List.foldlM_cons] at e2
        obtain ⟨s3, e3, e2⟩ := Option.bind_eq_some_iff.mp e2
        cases e2
        exact (h0 _).call (by decide) _ e3
      all_goals exact KeepsMem.calls _ (by decide) (by decide) (Or.inl (h0 _)) _ e2
    refine KeepsMem.calls _ (fun x hx => ?_) (fun hx => ?_) h2 _ e1
    · rcases rest x.1 x.2 hx with h | h <;> rw [h] <;> decide
    · rcases rest _ _ hx with h | h <;> cases h
  -- the handle switch
  have hcall : ∀ (s : Sys) (e : BState), callButtonHandlers c s (Button.iron, e) = contrtempButton c s .iron e := by
    intro s e
    unfold callButtonHandlers Verif.menuButton
    simp
  rw [List.foldlM_map] at e
  simp only [hcall] at e
  rcases hpan with hk | ht
  · have hb1 : s1.ct.boost < c.nrBoost := by rw [hk.boost]; exact hi.ct.boost
    cases hw : s.btn.prev.getLsbD 0 <;> cases hd : pinb.getLsbD 0 <;> rw [hw, hd] at e
    · change List.foldlM _ s1 [BState.posedge, BState.pressed] = some s' at e
      simp only [List.foldlM_cons, List.foldlM_nil] at e
      obtain ⟨s2, e2, e⟩ := Option.bind_eq_some_iff.mp e
      obtain ⟨s3, e3, e⟩ := Option.bind_eq_some_iff.mp e
      cases e
      rcases hk.ironButton hb1 _ _ e2 with h2 | h2
      · rcases h2.ironButton (by rw [h2.boost]; exact hi.ct.boost) _ _ e3 with h3 | h3
        · exact Or.inl h3
        · exact Or.inr (Or.inl h3)
      · exact Or.inr (Or.inl (by rw [ironPressed_boost _ e3]; exact h2))
    · change List.foldlM _ s1 [] = some s' at e
      cases e
      exact Or.inl hk
    · change List.foldlM _ s1 [BState.pressed] = some s' at e
      simp only [List.foldlM_cons, List.foldlM_nil] at e
      obtain ⟨s2, e2, e⟩ := Option.bind_eq_some_iff.mp e
      cases e
      rcases hk.ironButton hb1 _ _ e2 with h2 | h2
      · exact Or.inl h2
      · exact Or.inr (Or.inl h2)
    · change List.foldlM _ s1 [BState.negedge] = some s' at e
      simp only [List.foldlM_cons, List.foldlM_nil] at e
      obtain ⟨s2, e2, e⟩ := Option.bind_eq_some_iff.mp e
      cases e
      rcases hk.ironButton hb1 _ _ e2 with h2 | h2
      · exact Or.inl h2
      · exact Or.inr (Or.inl h2)
  · have hm : ∀ (l : List BState) (s : Sys), l.foldlM (fun s e => contrtempButton c s .iron e) s = some s' →
        s'.menu.state = s.menu.state := by
      intro l
      induction l with
      | nil => intro s e; cases e; rfl
      | cons x l ih =>
        intro s e
        rw [List.foldlM_cons] at e
        obtain ⟨s2, e2, e⟩ := Option.bind_eq_some_iff.mp e
        exact (ih s2 e).trans (ironButton_menu x _ e2)
    exact Or.inr (Or.inr (by rw [hm _ _ e]; exact ht))

end Verif
