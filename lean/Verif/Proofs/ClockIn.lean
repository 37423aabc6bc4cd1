import Verif.Spec.ClockIn
import Verif.Proofs.SetIn
import Verif.Props.Control
/-
What a work function with ticks inside does to the time steps of the controllers: the times of the last run stay, or
the controller is run or switched, and the time is one of the call.
-/
namespace Verif
open Spec Props

variable {c : Conf} {s a : Sys} {A T : Nat} {P : Prop}

/-! ### the temperature controller and the work functions other than `measure_work` -/

/-- since the time `A` the controller has been left alone, or it has been switched, which needs `P` -/
structure HandT (P : Prop) (a : Sys) (A T : Nat) (s : Sys) : Prop where
  now : s.now = nowAt T
  since : A ≤ T
  reg : (s.ct.dtTimer = a.ct.dtTimer ∧ s.ct.enabled = a.ct.enabled) ∨
    (P ∧ s.ct.enabled ≠ a.ct.enabled ∧ ∃ t, A ≤ t ∧ t ≤ T ∧ s.ct.dtTimer = nowAt t)

theorem HandT.refl (P : Prop) (h : s.now = nowAt T) : HandT P s T T s := ⟨h, Nat.le_refl _, Or.inl ⟨rfl, rfl⟩⟩

theorem SimT.and {m : TM Sys} {Q R : Nat → Sys → Prop} (h : SimT m T Q) (k : SimT m T R) :
    SimT m T fun T' s' => Q T' s' ∧ R T' s' := by
  intro g s' g' e
  obtain ⟨T1, h1, h2, h3⟩ := h g s' g' e
  obtain ⟨T2, k1, k2, k3⟩ := k g s' g' e
  have : T2 = T1 := by omega
  subst this
  exact ⟨_, h1, h2, h3, k3⟩

theorem HandT.keep {s' : Sys} (h : HandT P a A T s) (h1 : s'.now = s.now) (h2 : s'.ct.dtTimer = s.ct.dtTimer)
    (h3 : s'.ct.enabled = s.ct.enabled) : HandT P a A T s' :=
  ⟨h1.trans h.now, h.since, by rw [h2, h3]; exact h.reg⟩

theorem HandT.hand {s' : Sys} (h : HandT P a A T s) (k : Hand c False s s') : HandT P a A T s' := by
  rcases k.reg with r | r
  · exact h.keep k.now r.2.1 r.2.2
  · exact r.1.elim

theorem HandT.post {o : Option Sys} (h : HandT P a A T s) (k : Post o (Hand c False s)) : SimT (liftM o) T (HandT P a A) :=
  SimT.lift fun s' e => h.hand (k s' e)

theorem HandT.tick (h : HandT P a A T s) :
    SimT (tickIn s) T fun T' s' => HandT P a A T' s' ∧ s' = { s with now := nowAt T' } :=
  (SimT.tick h.now).mono fun T' s' hT e => by
    refine ⟨?_, e⟩
    subst e
    refine ⟨rfl, Nat.le_trans h.since hT, ?_⟩
    rcases h.reg with e | ⟨p, e, t, h1, h2, e'⟩
    · exact Or.inl e
    · exact Or.inr ⟨p, e, t, h1, by omega, e'⟩

theorem HandT.update (h : HandT P a A T s) : HandT P a A T (menuRequestUpdate s) := { h with }
theorem HandT.setCache (h : HandT P a A T s) (x : Settings) : HandT P a A T (setCache s x) := { h with }
theorem HandT.stop (h : HandT P a A T s) : HandT P a A T (stopRamping s) := { h with }

theorem HandT.store (h : HandT P a A T s) : SimT (sysStoreT s) T (HandT P a A) :=
  SimT.bind h.tick fun _ s1 _ h => h.1.post (Hand.refl .m88p False s1).sysStore

theorem HandT.setpoint (h : HandT P a A T s) : SimT (liftM (contrtempUpdateSetpoint s)) T (HandT P a A) :=
  h.post (Hand.refl .m88p False s).updateSetpoint

theorem HandT.idleSetpoint (h : HandT P a A T s) (c : Conf) (w : Int) :
    SimT (contrtempSetIdleSetpointT c s w) T (HandT P a A) :=
  SimT.ite (fun _ => SimT.bind (h.setCache _).setpoint fun _ _ _ h => h.store) fun _ => SimT.pure h

theorem HandT.enabled (h : HandT P a A T s) (c : Conf) (en : Bool)
    (hp : (P ∧ s.ct.enabled = a.ct.enabled) ∨ s.ct.enabled = en) : SimT (contrtempSetEnabledT c s en) T (HandT P a A) := by
  refine SimT.ite (fun hne => ?_) fun _ => SimT.pure h
  have hp := hp.resolve_right hne
  refine SimT.bind h.tick fun T1 s1 hT h1 => SimT.lift fun s' e => ?_
  obtain ⟨h1, rfl⟩ := h1
  have k := Hand.setEnabled (Hand.refl c True { s with now := nowAt T1 }) en (Or.inl ⟨trivial, rfl⟩) s' (by
    unfold contrtempSetEnabled
    rw [if_pos hne]
    exact e)
  have hs : s'.ct.enabled = en := by
    unfold contrtempDoSetEnabled contrtempSetBoost at e
    obtain ⟨s2, e2, e⟩ := Option.bind_eq_some_iff.mp e
    cases e
    obtain ⟨x, -, e2⟩ := Option.bind_eq_some_iff.mp e2
    simp only [] at e2
    split at e2 <;> (cases e2; rfl)
  refine ⟨k.now.trans h1.now, h1.since, Or.inr ⟨hp.1, ?_, T1, h1.since, Nat.le_refl _, ?_⟩⟩
  · rw [hs]
    exact fun hh => hne (hp.2.trans hh.symm)
  · rcases k.reg with r | r
    · exact absurd (r.2.2.symm.trans hs) hne
    · exact r.2.2.1

theorem HandT.presetsStore (h : HandT P a A T s) : SimT (presetsStoreT s) T (HandT P a A) :=
  SimT.bind h.store fun _ _ _ h => SimT.bind h.setpoint fun _ _ _ h => SimT.pure h.update

theorem HandT.presetsSet (h : HandT P a A T s) (w : Int) : SimT (presetsSetActiveT s w) T (HandT P a A) :=
  SimT.bindV fun _ _ => (h.setCache _).presetsStore

theorem HandT.adjust (h : HandT P a A T s) (c : Conf) (w : Int) : SimT (meastempAdjustSetT c s w) T (HandT P a A) := by
  refine SimT.ite (fun hc => ?_) fun _ => SimT.pure h
  have h1 : HandT P a A T (measureAdjustSet c s w) := by
    unfold measureAdjustSet
    rw [if_pos hc]
    exact { h with }
  exact SimT.bind (h1.setCache _).store fun _ _ _ h => SimT.pure h.update

theorem HandT.arm (h : HandT P a A T s) (ms : Int) :
    SimT (menuArmT s ms) T fun T' s' => HandT P a A T' s' ∧ s'.ct = s.ct :=
  SimT.bind h.tick fun T1 s1 _ h1 => SimT.lift fun s' e => by
    obtain ⟨h1, rfl⟩ := h1
    have k := (Hand.refl .m88p False { s with now := nowAt T1 }).menuArm ms s' e
    exact ⟨h1.hand k.1, k.2⟩

theorem HandT.arm' (h : HandT P a A T s) (ms : Int) : SimT (menuArmT s ms) T (HandT P a A) :=
  (h.arm ms).mono fun _ _ _ h => h.1

theorem HandT.debugEnable (h : HandT P a A T s) (c : Conf) (en : Bool) : SimT (debugEnableT c s en) T (HandT P a A) :=
  SimT.bind h.tick fun _ s1 _ h => h.1.post ((Hand.refl c False s1).debugEnable en)

theorem HandT.menuEnter (h : HandT P a A T s) (c : Conf) (t : MenuState)
    (hp : (P ∧ s.ct.enabled = a.ct.enabled) ∨ t = .selpreset ∨ t = .chgpreset ∨ s.ct.enabled = !Tuning t) :
    SimT (menuEnterT c s t) T (HandT P a A) := by
  have hq : (t ≠ .selpreset ∧ t ≠ .chgpreset) → (P ∧ s.ct.enabled = a.ct.enabled) ∨ s.ct.enabled = !Tuning t := by
    rintro ⟨h1, h2⟩
    rcases hp with hp | hp | hp | hp
    · exact Or.inl hp
    · exact absurd hp h1
    · exact absurd hp h2
    · exact Or.inr hp
  cases t <;> simp only [menuEnterT]
  case curtemp => exact h.enabled c _ (hq (by decide))
  case selpreset => exact h.arm' _
  case chgpreset => exact h.arm' _
  case idletemp => exact h.arm' _
  case debug => exact SimT.pure h
  all_goals split
  all_goals first
    | exact SimT.pure h
    | exact h.enabled c _ (hq (by decide))
    | exact SimT.bind (h.arm _) fun _ s2 _ h2 => h2.1.enabled c _ (by rw [h2.2]; exact hq (by decide))

theorem HandT.menuSetState (h : HandT P a A T s) (c : Conf) (t : MenuState)
    (hp : (P ∧ s.ct.enabled = a.ct.enabled) ∨ t = .selpreset ∨ t = .chgpreset ∨ s.ct.enabled = !Tuning t) :
    SimT (menuSetStateT c s t) T (HandT P a A) := by
  refine SimT.ite (fun _ => SimT.pure h) fun _ => ?_
  have h1 : HandT P a A T { s with menu := { s.menu with state := t } } := { h with }
  exact SimT.bind (h1.menuEnter c t hp) fun _ _ _ h2 => SimT.pure h2.update

theorem HandT.rampK (h : HandT P a A T s) (c : Conf) (get : PidK → Int) (put : PidK → Int → PidK)
    (inc hi : Int) (up : Bool) : SimT (doRampKT c s get put inc hi up) T (HandT P a A) := by
  unfold doRampKT
  simp only []
  split
  · split
    all_goals
      refine SimT.bindV fun _ _ => SimT.bindV fun v _ => SimT.bind (h.setCache _).store fun T2 s2 _ h2 =>
        SimT.lift fun s' e => ?_
      obtain ⟨k, -, e⟩ := Option.bind_eq_some_iff.mp e
      simp only [] at e
      split at e <;> (cases e; exact { h2 with })
  · exact SimT.fail

theorem HandT.rampHandler (h : HandT P a A T s) (c : Conf) (r : RampHandler) (up : Bool) :
    SimT (rampHandlerT c s r up) T (HandT P a A) := by
  cases r <;> simp only [rampHandlerT]
  · exact SimT.bindV fun _ _ => SimT.bindV fun v _ => SimT.bind (h.presetsSet v) fun _ _ _ h2 =>
      h2.menuSetState c _ (Or.inr (Or.inr (Or.inl rfl)))
  · exact SimT.bindV fun _ _ => h.idleSetpoint c _
  · exact SimT.bindV fun v _ => h.adjust c v
  all_goals exact h.rampK c _ _ _ _ _

theorem HandT.startRamping (h : HandT P a A T s) (up pre : Bool) (r : Option RampHandler) :
    SimT (startRampingT s up pre r) T (HandT P a A) := by
  unfold startRampingT
  refine SimT.ite (fun _ => ?_) fun _ => ?_
  · refine SimT.bind h.tick fun T1 s1 _ h1 => SimT.bindV fun t _ => ?_
    refine SimT.bind (P := HandT P a A) (SimT.pure { h1.1 with }) fun T2 s2 _ h2 => ?_
    exact SimT.bind h2.tick fun _ _ _ h => SimT.pure { h.1 with }
  · refine SimT.bind (P := HandT P a A) (SimT.pure { h with }) fun T2 s2 _ h2 => ?_
    exact SimT.bind h2.tick fun _ _ _ h => SimT.pure { h.1 with }

theorem HandT.startRampingButton (h : HandT P a A T s) (b : Button) (e : BState) (pre : Bool) (r : RampHandler) :
    SimT (startRampingButtonT s b e pre r) T (HandT P a A) :=
  SimT.ite (fun _ => SimT.ite (fun _ => h.startRamping _ _ _) fun _ => SimT.ite (fun _ => h.startRamping _ _ _) fun _ =>
    SimT.pure h) fun _ => SimT.pure h

theorem HandT.menuButtonScreen (h : HandT P a A T s) (c : Conf) (b : Button) (e : BState) :
    SimT (menuButtonScreenT c s b e) T (HandT P a A) := by
  unfold menuButtonScreenT
  split
  · exact SimT.bind (h.startRampingButton b e _ _) fun _ _ _ h2 =>
      SimT.ite (fun _ => h2.menuSetState c _ (Or.inr (Or.inl rfl)))
        fun _ => SimT.pure h2
  · refine SimT.bind (h.arm' _) fun T2 s2 _ h2 => ?_
    cases e
    · simp only [reduceCtorEq, if_false, pure_bind]; exact h2.startRampingButton b _ _ _
    · simp only [if_true]
      cases b <;> simp only [reduceCtorEq, if_false, if_true, pure_bind]
      · exact h2.startRampingButton _ _ _ _
      · exact SimT.bind (h2.setCache _).presetsStore fun _ _ _ h3 => h3.startRampingButton _ _ _ _
      · exact SimT.bind (h2.setCache _).presetsStore fun _ _ _ h3 => h3.startRampingButton _ _ _ _
      · exact h2.startRampingButton _ _ _ _
    · simp only [reduceCtorEq, if_false, pure_bind]; exact h2.startRampingButton b _ _ _
  · exact SimT.bind (h.arm' _) fun _ _ _ h2 => h2.startRampingButton b e _ _
  · exact SimT.ite (fun _ => SimT.pure h) fun _ => SimT.bind (h.arm' _) fun _ _ _ h2 => h2.startRampingButton b e _ _
  · refine SimT.ite (fun _ => SimT.pure h) fun _ => SimT.ite (fun _ => ?_) fun _ => SimT.pure h
    cases b <;> simp only [reduceCtorEq, if_false, if_true, pure_bind]
    · exact SimT.pure h
    · exact SimT.bind (h.debugEnable c _) fun _ _ _ h3 => SimT.pure h3.update
    · exact SimT.bind (h.debugEnable c _) fun _ _ _ h3 => SimT.pure h3
    · exact SimT.pure h
  all_goals first
    | exact SimT.pure h
    | exact SimT.ite (fun _ => SimT.pure h) fun _ => h.startRampingButton b e _ _

/-- only the release of SET switches the controller -/
theorem HandT.menuButton (h : HandT P a A T s) (c : Conf) (b : Button) (e : BState)
    (hp : b = .set → e = .negedge → P ∧ s.ct.enabled = a.ct.enabled) :
    SimT (menuButtonT c s b e) T (HandT P a A) := by
  refine SimT.ite (fun _ => SimT.pure h) fun _ =>
    SimT.bind ((h.menuButtonScreen c b e).and ((HandT.refl False h.now).menuButtonScreen c b e)) fun _ s2 _ h2 => ?_
  obtain ⟨h2, k2⟩ := h2
  have hen : s2.ct.enabled = s.ct.enabled := by
    rcases k2.reg with r | r
    · exact r.2
    · exact r.1.elim
  refine SimT.ite (fun he => ?_) fun _ => SimT.pure h2
  simp only []
  refine SimT.ite (fun hb => SimT.ite (fun _ => h2.stop.menuSetState c _ (Or.inl ⟨(hp hb he).1, hen.trans (hp hb he).2⟩))
    fun _ => SimT.pure h2.stop) fun _ => SimT.pure h2.stop

/-- the time-outs do not switch the controller -/
theorem HandT.menuTimeouts (hi : Inv c s) (h : HandT P a A T s) : SimT (menuTimeoutsT c s) T (HandT P a A) := by
  have hen := hi.en
  have hsc := hi.menu.screen
  unfold menuTimeoutsT
  split
  all_goals first
    | exact SimT.pure h
    | skip
  all_goals
    rename_i hst
    rw [hst] at hen hsc
    refine SimT.bind h.tick fun T1 s1 _ h1 => SimT.ite (fun _ => ?_) fun _ => SimT.pure h1.1
    obtain ⟨h1, rfl⟩ := h1
    refine SimT.ite (fun hx => ?_) fun hx => ?_
    · first
        | exact SimT.bind (h1.menuSetState c _ (Or.inr (Or.inr (Or.inr hen)))) fun _ s2 _ h2 => SimT.pure h2.stop
        | exfalso; simp only [hst, reduceCtorEq] at hx
    · first
        | exact absurd hst hx
        | refine SimT.bind (h1.menuSetState c _ (Or.inr (Or.inr (Or.inr ?_)))) fun _ s2 _ h2 => SimT.pure h2.stop
          show s.ct.enabled = !Tuning (nextMenuState c s.menu.state)
          rw [hst, hen]
          simp only [ScreenExists] at hsc
          simp only [nextMenuState, hsc, if_true]
          rfl

theorem HandT.menuRamp (h : HandT P a A T s) (c : Conf) : SimT (menuRampT c s) T (HandT P a A) := by
  unfold menuRampT
  split
  · exact SimT.pure h
  all_goals
    refine SimT.bind h.tick fun _ _ _ h => SimT.ite (fun _ => ?_) fun _ => SimT.pure h.1
    first
      | exact h.1.startRamping _ _ _
      | exact SimT.bindV fun r _ => SimT.bind (h.1.rampHandler c r _) fun _ _ _ h2 =>
          SimT.bindV fun t _ => SimT.pure { h2 with }

theorem HandT.menuWork (hi : Inv c s) (h : s.now = nowAt T) : SimT (menuWorkT c s) T (HandT False s T) := by
  refine SimT.bind (HandT.menuTimeouts hi (HandT.refl False h)) fun T1 s1 _ h1 => ?_
  simp only []
  refine SimT.bind ((h1.hand (Hand.refl c False s1).menuIndicate).menuRamp c) fun T2 s2 _ h2 => h2.post (c := c) ?_
  unfold menuRefresh
  split
  · have h3 : Hand c False s2 { s2 with menu := { s2.menu with updReq := false } } := { Hand.refl c False s2 with }
    exact h3.menuUpdateDisplay
  · exact Post.pure (Hand.refl c False s2)

theorem HandT.iron (h : HandT P a A T s) (c : Conf) (b : Button) (e : BState) :
    SimT (contrtempButtonT c s b e) T fun T' s' => HandT P a A T' s' ∧ s'.ct.enabled = s.ct.enabled := by
  have key : ∀ {s s' : Sys}, contrtempButton c s b e = some s' → Kept s s' := by
    intro s s' hs
    by_cases hb : b = .iron
    · subst hb
      exact iron_kept hs
    · rw [contrtempButton_other hb] at hs
      cases hs
      exact ⟨rfl, rfl, rfl, rfl⟩
  refine SimT.ite (fun _ => SimT.bind h.tick fun _ _ _ h1 => SimT.lift fun s' e => ?_) fun _ => SimT.lift fun s' e => ?_
  · obtain ⟨h1, rfl⟩ := h1
    have k := key e
    exact ⟨h1.keep k.now k.dtTimer k.enabled, k.enabled⟩
  · have k := key e
    exact ⟨h.keep k.now k.dtTimer k.enabled, k.enabled⟩

theorem HandT.call (h : HandT P a A T s) (c : Conf) (x : Button × BState)
    (hp : x.1 = .set → x.2 = .negedge → P ∧ s.ct.enabled = a.ct.enabled) :
    SimT (callButtonHandlersT c s x) T (HandT P a A) :=
  SimT.bind (h.iron c x.1 x.2) fun _ s1 _ h1 => h1.1.menuButton c x.1 x.2 fun h2 h3 =>
    ⟨(hp h2 h3).1, h1.2.trans (hp h2 h3).2⟩

theorem HandT.calls (l : List (Button × BState)) (c : Conf) (hp : (Button.set, BState.negedge) ∉ l) :
    ∀ {T : Nat} {s : Sys}, HandT P a A T s → SimT (l.foldlM (callButtonHandlersT c) s) T (HandT P a A) := by
  induction l with
  | nil => intro T s h; exact SimT.pure h
  | cons x l ih =>
    intro T s h
    rw [List.foldlM_cons]
    refine SimT.bind (h.call c x fun h1 h2 => absurd ?_ hp) fun _ s2 _ h2 =>
      ih (fun hh => hp (List.mem_cons_of_mem _ hh)) h2
    rw [← h1, ← h2]
    exact List.mem_cons_self ..

/-- SET is released once in a sample, before everything else -/
theorem calls_set {now : Int} {b b' : Buttons} {pinb : BitVec 8} {l : List (Button × BState)}
    (h : buttonsSample now b pinb = some (b', l)) :
    ∃ l', (Button.set, BState.negedge) ∉ l' ∧ (l = l' ∨ l = (Button.set, BState.negedge) :: l') := by
  unfold buttonsSample at h
  split at h
  · cases h
    exact ⟨[], by simp, Or.inl rfl⟩
  obtain ⟨t, -, h⟩ := Option.bind_eq_some_iff.mp h
  cases h
  simp only [buttonCalls_split]
  have split : panelCalls b.prev pinb =
      (pressCalls (b.prev.getLsbD 2) (!pinb.getLsbD 2)).map (fun e => (Button.set, e)) ++
      [Button.minus, .plus].flatMap fun k =>
        (pressCalls (b.prev.getLsbD (buttonPin k)) (!pinb.getLsbD (buttonPin k))).map fun e => (k, e) := by
    simp [panelCalls, buttonPin]
  rw [split, List.append_assoc]
  generalize hr : ([Button.minus, .plus].flatMap fun k =>
      (pressCalls (b.prev.getLsbD (buttonPin k)) (!pinb.getLsbD (buttonPin k))).map fun e => (k, e)) ++
      (pressCalls (b.prev.getLsbD 0) (!pinb.getLsbD 0)).map (fun e => (Button.iron, e)) = r
  have rest : ∀ x ∈ r, x.1 ≠ .set := by
    rintro x hx
    rw [← hr] at hx
    rcases List.mem_append.mp hx with hx | hx
    · obtain ⟨b', hb, hx⟩ := List.mem_flatMap.mp hx
      obtain ⟨e', -, hx⟩ := List.mem_map.mp hx
      cases hx
      rintro rfl
      simp at hb
    · obtain ⟨e', -, hx⟩ := List.mem_map.mp hx
      cases hx
      simp
  have nr : (Button.set, BState.negedge) ∉ r := fun hx => rest _ hx rfl
  cases hw : b.prev.getLsbD 2 <;> cases hd : pinb.getLsbD 2
  case true.true => exact ⟨r, nr, Or.inr rfl⟩
  all_goals
    refine ⟨_, fun hx => ?_, Or.inl rfl⟩
    rcases List.mem_append.mp hx with hx | hx
    · revert hx
      decide
    · exact nr hx

theorem HandT.buttonsWork (h : s.now = nowAt T) (c : Conf) (pinb : BitVec 8) :
    SimT (buttonsWorkT c s pinb) T (HandT True s T) := by
  refine SimT.bind (HandT.refl True h).tick fun T1 s1 _ h1 => SimT.bindV fun x ex => ?_
  obtain ⟨h1, e1⟩ := h1
  obtain ⟨b, l0⟩ := x
  obtain ⟨l, hl, rfl | rfl⟩ := calls_set ex
  · exact HandT.calls l0 c hl (s := { s1 with btn := b }) { h1 with }
  · simp only []
    rw [List.foldlM_cons]
    refine SimT.bind (HandT.call (P := True) (a := s) (A := T) (s := { s1 with btn := b }) { h1 with } c _
      fun _ _ => ⟨trivial, ?_⟩) fun _ s2 _ h2 => HandT.calls l c hl h2
    rw [e1]

/-- what a work function other than `measure_work` does to the temperature controller's time -/
theorem workT_hand {e : Ev} {g : List Nat} {s' : Sys} (hi : Inv c s) (h : s.now = nowAt T)
    (hw : workT c s e g = some (s', [])) (he : e ≠ .measureWork) :
    (s'.ct.dtTimer = s.ct.dtTimer ∧ s'.ct.enabled = s.ct.enabled) ∨
    (s'.ct.enabled ≠ s.ct.enabled ∧ ∃ t, T ≤ t ∧ t ≤ T + g.sum ∧ s'.ct.dtTimer = nowAt t) := by
  have fin : SimT (workT c s e) T (HandT True s T) := by
    cases e with
    | menuWork => exact (HandT.menuWork hi h).mono fun _ _ _ k => ⟨k.now, k.since, k.reg.imp id fun r => r.1.elim⟩
    | buttonsWork pinb => exact HandT.buttonsWork h c pinb
    | settingsWork =>
      refine SimT.bind (HandT.refl True h).tick fun T1 s1 _ h1 => SimT.lift fun s2 e2 => ?_
      cases e2
      exact { h1.1 with }
    | displayWork =>
      refine SimT.bind (HandT.refl True h).tick fun T1 s1 _ h1 => SimT.lift fun s2 e2 => ?_
      obtain ⟨⟨p, d⟩, ex, hs⟩ := Option.bind_eq_some_iff.mp e2
      cases hs
      exact { h1.1 with }
    | measureWork => exact absurd rfl he
    | _ => exact SimT.fail
  obtain ⟨T', -, k2, k3⟩ := fin _ _ _ hw
  have k2 : T' = T + g.sum := by simpa using k2
  subst k2
  exact k3.reg.imp id fun r => r.2

/-! ### the controllers in `measure_work` -/

/-- `SimT` for any result -/
def SimV {α : Type} (m : TM α) (T : Nat) (Q : Nat → α → Prop) : Prop :=
  ∀ g x g', m g = some (x, g') → ∃ T', T ≤ T' ∧ T' + g'.sum = T + g.sum ∧ Q T' x

namespace SimV
variable {α β : Type} {Q : Nat → α → Prop} {R : Nat → β → Prop}

theorem pure {x : α} (h : Q T x) : SimV (Pure.pure x) T Q := by
  intro g s' g' e
  have e : some (x, g) = some (s', g') := e
  cases e
  exact ⟨T, Nat.le_refl _, rfl, h⟩

theorem fail : SimV (failure : TM α) T Q := fun _ _ _ e => by cases e

theorem bind {m : TM α} {f : α → TM β} (h : SimV m T Q) (hf : ∀ T1 x, T ≤ T1 → Q T1 x → SimV (f x) T1 R) :
    SimV (m >>= f) T R := by
  intro g y g' e
  have e : (m g).bind (fun p => f p.1 p.2) = some (y, g') := e
  obtain ⟨⟨x, g1⟩, e1, e⟩ := Option.bind_eq_some_iff.mp e
  obtain ⟨T1, h1, h2, h3⟩ := h _ _ _ e1
  obtain ⟨T2, k1, k2, k3⟩ := hf T1 x h1 h3 _ _ _ e
  have k2 : T2 + g'.sum = T1 + g1.sum := k2
  exact ⟨T2, by omega, by omega, k3⟩

theorem bindV {o : Option α} {f : α → TM β} (hf : ∀ x, o = some x → SimV (f x) T R) : SimV (liftM o >>= f) T R := by
  cases o with
  | none => intro g s' g' e; cases e
  | some x => exact hf x rfl

theorem ite {p : Prop} [Decidable p] {x y : TM α} (h : p → SimV x T Q) (h' : ¬ p → SimV y T Q) :
    SimV (if p then x else y) T Q := by
  split
  · exact h ‹_›
  · exact h' ‹_›
end SimV

/-- only the time is later -/
structure Later (s : Sys) (T : Nat) (s' : Sys) : Prop where
  now : s'.now = nowAt T
  ct : s'.ct = s.ct
  cc : s'.cc = s.cc
  act : s'.meas.active = s.meas.active

theorem Later.tick {s0 : Sys} (h : Later s0 T s) : SimV (tickIn s) T fun T' s' => Later s0 T' s' := by
  intro g s' g' e
  obtain ⟨T', h1, h2, h3⟩ := SimT.tick h.now g s' g' e
  exact ⟨T', h1, h2, by rw [h3], by rw [h3]; exact h.ct, by rw [h3]; exact h.cc, by rw [h3]; exact h.act⟩

theorem measPlausT_later {cfg : MeasConfig} {ch : MeasChan} {phys : Int} (hn : s.now = nowAt T) :
    SimV (measPlausT c cfg s ch phys) T fun T' r => Later s T' r.1 := by
  have h0 : Later s T s := ⟨hn, rfl, rfl, rfl⟩
  unfold measPlausT
  have tl : ∀ (T1 : Nat) (s1 : Sys) (ch : MeasChan) (phys : Int) (pl : Plaus), Later s T1 s1 →
      SimV (if ch.timerRunning = true then do
          let s ← tickIn s1
          let x ← pure (s, if timerExpired s.now ch.timer = true then { ch with plausTimeout := true } else ch)
          pure (x.1, x.2, phys, if x.2.plausTimeout = true then Plaus.timeout else pl)
        else do
          let x ← pure (s1, ch)
          pure (x.1, x.2, phys, if x.2.plausTimeout = true then Plaus.timeout else pl)) T1
        fun T' (r : Sys × MeasChan × Int × Plaus) => Later s T' r.1 := by
    intro T1 s1 ch phys pl h
    refine SimV.ite (fun _ => ?_) fun _ => SimV.pure h
    exact SimV.bind h.tick fun _ s2 _ h2 => SimV.pure h2
  have mid : ∀ (ch : MeasChan) (phys : Int) (pl : Plaus),
      SimV (if pl ≠ Plaus.plausible ∧ (!ch.timerRunning) = true then do
          let s ← tickIn s
          let t ← liftM (timerArm s.now cfg.timeoutMs)
          let x ← pure (s, { ch with timer := t, timerRunning := true })
          if x.2.timerRunning = true then do
            let s ← tickIn x.1
            let y ← pure (s, if timerExpired s.now x.2.timer = true then { x.2 with plausTimeout := true } else x.2)
            pure (y.1, y.2, phys, if y.2.plausTimeout = true then Plaus.timeout else pl)
          else do
            let y ← pure (x.1, x.2)
            pure (y.1, y.2, phys, if y.2.plausTimeout = true then Plaus.timeout else pl)
        else do
          let x ← pure (s, ch)
          if x.2.timerRunning = true then do
            let s ← tickIn x.1
            let y ← pure (s, if timerExpired s.now x.2.timer = true then { x.2 with plausTimeout := true } else x.2)
            pure (y.1, y.2, phys, if y.2.plausTimeout = true then Plaus.timeout else pl)
          else do
            let y ← pure (x.1, x.2)
            pure (y.1, y.2, phys, if y.2.plausTimeout = true then Plaus.timeout else pl)) T
        fun T' (r : Sys × MeasChan × Int × Plaus) => Later s T' r.1 := by
    intro ch phys pl
    refine SimV.ite (fun _ => ?_) fun _ => ?_
    · exact SimV.bind h0.tick fun T1 s1 _ h1 => SimV.bindV fun t _ =>
        tl T1 s1 { ch with timer := t, timerRunning := true } phys pl h1
    · exact tl T s ch phys pl h0
  split
  · exact SimV.bindV fun phys _ => mid _ _ _
  · exact SimV.bindV fun phys _ => mid _ _ _

theorem measHandleT_later (hn : s.now = nowAt T) : SimV (measHandleT c s) T fun T' r => Later s T' r.1 := by
  unfold measHandleT
  refine SimV.bindV fun cfg _ => SimV.bindV fun raw _ => ?_
  simp only []
  refine SimV.bindV fun phys _ => ?_
  split
  · exact SimV.bind (measPlausT_later hn) fun _ r _ hr => SimV.pure ⟨hr.now, hr.ct, hr.cc, rfl⟩
  · exact SimV.fail

/-- What an evaluation of the temperature does to the times of the controllers.  A run of the temperature controller
    reads the time twice: at `t` for the time step and at `t'` to remember it. -/
def TempRes (T : Nat) (s : Sys) (T' : Nat) (s' : Sys) : Prop :=
  s'.now = nowAt T' ∧ s'.cc.timer = s.cc.timer ∧ s'.ct.enabled = s.ct.enabled ∧
  ((s.ct.enabled = true ∧ s'.ct.emergency = false ∧ ∃ t t', T ≤ t ∧ t ≤ t' ∧ t' ≤ T' ∧ s'.ct.dtTimer = nowAt t' ∧
      (s.ct.emergency = false → ∃ dt out amps, elapsedDt (nowAt t) s.ct.dtTimer = some dt ∧
        pidRun s.ct.pid dt s'.ct.feedback = some (s'.ct.pid, out) ∧ tempToAmps out = some amps ∧
        s'.cc.pid.setpoint = if s'.ct.feedback > 30720 then 0 else amps)) ∨
   (¬ (s.ct.enabled = true ∧ s'.ct.emergency = false) ∧ s'.ct.dtTimer = s.ct.dtTimer))

theorem setEmerg_rest {s s' : Sys} {f : BitVec 8} (e : contrcurrSetEmerg s f = some s') :
    s'.now = s.now ∧ s'.ct = s.ct ∧ s'.cc = { s.cc with emerg := f } ∧ s'.meas = s.meas := by
  unfold contrcurrSetEmerg at e
  split at e
  · simp only [] at e
    split at e
    · unfold pwmcurrSet at e
      obtain ⟨d, -, e⟩ := Option.bind_eq_some_iff.mp e
      cases e; exact ⟨rfl, rfl, rfl, rfl⟩
    · cases e; exact ⟨rfl, rfl, rfl, rfl⟩
  · rename_i hf
    cases e
    refine ⟨rfl, rfl, ?_, rfl⟩
    rw [not_not.mp hf]

theorem tempRunT_res (hn : s.now = nowAt T) (r : Int) (hr : s.ct.feedback = r) :
    SimT (contrtempRunT s r) T (TempRes T s) := by
  unfold contrtempRunT
  refine SimT.ite (fun h1 => SimT.pure ⟨hn, rfl, rfl, Or.inr ⟨fun h => ?_, rfl⟩⟩) fun h1 =>
    SimT.ite (fun h2 => SimT.pure ⟨hn, rfl, rfl, Or.inr ⟨fun h => ?_, rfl⟩⟩) fun h2 => ?_
  · rw [h.1] at h1; cases h1
  · rw [h.2] at h2; cases h2
  have h1 : s.ct.enabled = true := by simpa using h1
  have h2 : s.ct.emergency = false := by simpa using h2
  refine SimT.bind (SimT.tick hn) fun T1 s1 hT1 e1 => SimT.bindV fun dt hdt => ?_
  subst e1
  refine SimT.bind (SimT.tick (s := { s with now := nowAt T1 }) rfl) fun T2 s2 hT2 e2 => SimT.bindV fun py hpy => ?_
  subst e2
  obtain ⟨pid, y⟩ := py
  simp only []
  refine SimT.bindV fun yc hyc => ?_
  split
  all_goals
    rename_i hhot
    refine SimT.bindV fun s3 e3 => SimT.pure ?_
    obtain ⟨k1, k2, k3, -⟩ := setEmerg_rest e3
    refine ⟨k1, ?_, ?_, Or.inl ⟨h1, ?_, T1, T2, hT1, hT2, Nat.le_refl _, ?_, fun _ => ⟨dt, y, yc, hdt, ?_, hyc, ?_⟩⟩⟩
    · show s3.cc.timer = _
      rw [k3]
    · show s3.ct.enabled = _
      rw [k2]
    · show s3.ct.emergency = _
      rw [k2]; exact h2
    · show s3.ct.dtTimer = _
      rw [k2]; rfl
    · show pidRun s.ct.pid dt s3.ct.feedback = some (s3.ct.pid, y)
      rw [k2, ← hpy]
      show pidRun s.ct.pid dt s.ct.feedback = _
      rw [hr]
    · show _ = if s3.ct.feedback > 30720 then _ else _
      rw [k2]
      show _ = if s.ct.feedback > 30720 then _ else _
      rw [hr]
      first
        | rw [if_pos hhot]; rfl
        | rw [if_neg hhot]; rfl

theorem tempFeedbackT_res (hn : s.now = nowAt T) (r : Int) : SimT (contrtempSetFeedbackT s r) T (TempRes T s) := by
  unfold contrtempSetFeedbackT
  simp only []
  split
  · exact (tempRunT_res (s := menuRequestUpdate { s with ct := { s.ct with feedback := r } }) hn r rfl).mono fun _ _ _ h => h
  · rename_i h
    exact tempRunT_res hn r (not_not.mp h).symm

theorem meastempResultT_res (hn : s.now = nowAt T) (p : Int) (pl : Plaus) : SimT (meastempResultT s p pl) T (TempRes T s) := by
  have hset : ∀ b, (contrtempSetEmerg s b).now = s.now ∧ (contrtempSetEmerg s b).cc.timer = s.cc.timer ∧
      (contrtempSetEmerg s b).ct = { s.ct with emergency := b } := by
    intro b
    unfold contrtempSetEmerg contrtempDoSetEmerg
    by_cases hb : b = s.ct.emergency
    · rw [if_neg (by simpa using hb), hb]
      exact ⟨rfl, rfl, rfl⟩
    · rw [if_pos hb]
      cases b <;> exact ⟨rfl, rfl, rfl⟩
  cases pl <;> unfold meastempResultT <;> simp only []
  · obtain ⟨e1, e2, e3⟩ := hset false
    generalize contrtempSetEmerg s false = q at *
    refine (tempFeedbackT_res (s := contrcurrSetRestricted { q with mtPrev := p } (decide (p < 6400))) (T := T)
      (e1.trans hn) p).mono fun T' s' _ h => ?_
    obtain ⟨k1, k2, k3, k4⟩ := h
    have ec : (contrcurrSetRestricted { q with mtPrev := p } (decide (p < 6400))).ct = { s.ct with emergency := false } := e3
    rw [ec] at k3 k4
    refine ⟨k1, k2.trans e2, k3, ?_⟩
    rcases k4 with ⟨a1, a2, t, t', b1, b2, b3, b4, b5⟩ | k4
    · exact Or.inl ⟨a1, a2, t, t', b1, b2, b3, b4, fun _ => b5 rfl⟩
    · exact Or.inr k4
  · exact tempFeedbackT_res hn _
  · obtain ⟨e1, e2, e3⟩ := hset true
    refine SimT.pure ⟨e1.trans hn, e2, by rw [e3], Or.inr ⟨fun h => ?_, by rw [e3]⟩⟩
    have := h.2
    rw [e3] at this
    cases this

/-- What an evaluation of the current does to the times of the controllers. -/
def CurrRes (T : Nat) (s : Sys) (T' : Nat) (s' : Sys) : Prop :=
  s'.now = nowAt T' ∧ s'.ct = s.ct ∧
  ((s'.cc.emerg = 0 ∧ ∃ t t', T ≤ t ∧ t ≤ t' ∧ t' ≤ T' ∧ s'.cc.timer = nowAt t' ∧
      ∃ dt r out, elapsedDt (nowAt t) s.cc.timer = some dt ∧ pidRun s.cc.pid dt r = some (s'.cc.pid, out) ∧
        contrcurrSelect s.cc s'.cc.feedback = some (r, s'.cc.rState, s'.cc.model) ∧
        s'.cc.prevY = (if s.cc.restricted = true then (if out > 1280 then 1280 else out) else out) ∧
        pwmDuty s'.cc.prevY = some s'.ocr) ∨
   (s'.cc.emerg ≠ 0 ∧ s'.cc.timer = s.cc.timer))

theorem currRunT_res (hn : s.now = nowAt T) (hen : s.cc.enabled = true) (r : Int) (hr : s.cc.feedback = r) :
    SimT (contrcurrRunT s r) T (CurrRes T s) := by
  unfold contrcurrRunT
  refine SimT.ite (fun h => ?_) fun _ => SimT.ite (fun h => SimT.pure ⟨hn, rfl, Or.inr ⟨h, rfl⟩⟩) fun h => ?_
  · rw [hen] at h; cases h
  refine SimT.bind (SimT.tick hn) fun T1 s1 hT1 e1 => SimT.bindV fun dt hdt => ?_
  subst e1
  refine SimT.bind (SimT.tick (s := { s with now := nowAt T1 }) rfl) fun T2 s2 hT2 e2 => ?_
  subst e2
  refine SimT.bindV fun sel hsel => ?_
  obtain ⟨r', rs, md⟩ := sel
  refine SimT.bindV fun py hpy => SimT.lift fun s' e => ?_
  obtain ⟨pid, y⟩ := py
  simp only [] at e
  unfold pwmcurrSet at e
  obtain ⟨d, hd, e⟩ := Option.bind_eq_some_iff.mp e
  cases e
  exact ⟨rfl, rfl, Or.inl ⟨not_not.mp h, T1, T2, hT1, hT2, Nat.le_refl _, rfl, dt, r', y, hdt, hpy, hr ▸ hsel, rfl, hd⟩⟩

theorem meascurrResultT_res (hn : s.now = nowAt T) (hen : s.cc.enabled = true) (p : Int) (pl : Plaus) :
    SimT (meascurrResultT s p pl) T (CurrRes T s) := by
  have run : ∀ {s1 : Sys} {f : BitVec 8} {m : MeasCurr} {r : Int}, contrcurrSetEmerg s f = some s1 →
      SimT (contrcurrSetFeedbackT { s1 with mcurr := m } r >>= fun s =>
        pure { s with mcurr := { s.mcurr with initialized := true } }) T (CurrRes T s) := by
    intro s1 f m r e1
    obtain ⟨k1, k2, k3, -⟩ := setEmerg_rest e1
    have ct : s1.cc.timer = s.cc.timer := by rw [k3]
    have cp : s1.cc.pid = s.cc.pid := by rw [k3]
    have ce : s1.cc.enabled = true := by rw [k3]; exact hen
    refine SimT.bind (currRunT_res (s := { s1 with mcurr := m, cc := { s1.cc with feedback := r } }) (k1.trans hn) ce r rfl)
      fun T2 s2 _ h2 => SimT.pure ?_
    obtain ⟨h1, h2, h3⟩ := h2
    refine ⟨h1, h2.trans k2, ?_⟩
    have cs : ∀ x, contrcurrSelect { s1.cc with feedback := r } x = contrcurrSelect s.cc x := by rw [k3]; exact fun _ => rfl
    have cr : s1.cc.restricted = s.cc.restricted := by rw [k3]
    rw [← ct, ← cp, ← cr]
    simp only [← cs]
    exact h3
  unfold meascurrResultT
  cases pl <;> simp only []
  · exact SimT.bindV fun s1 e1 => run e1
  · exact SimT.bindV fun s1 e1 => run (m := s1.mcurr) e1
  · refine SimT.bindV fun s1 e1 => SimT.pure ?_
    obtain ⟨k1, k2, k3, -⟩ := setEmerg_rest e1
    refine ⟨k1.trans hn, k2, Or.inr ⟨?_, ?_⟩⟩
    · show s1.cc.emerg ≠ 0
      rw [k3]
      show s.cc.emerg ||| 1#8 ≠ 0
      generalize s.cc.emerg = x
      revert x
      decide
    · show s1.cc.timer = _
      rw [k3]

theorem triggerT_later (hn : s.now = nowAt T) :
    SimT (adcTriggerNextT c s) T fun T' s' => s'.now = nowAt T' ∧ s'.ct = s.ct ∧ s'.cc = s.cc ∧ s'.ocr = s.ocr :=
  SimT.bind (SimT.tick hn) fun T1 s1 _ e1 => SimT.bindV fun m _ => SimT.pure (by subst e1; exact ⟨rfl, rfl, rfl, rfl⟩)

/-- an evaluation of the temperature -/
theorem workT_temp {g : List Nat} {s' : Sys} (hn : s.now = nowAt T) (hw : workT c s .measureWork g = some (s', []))
    (hav : s.meas.resultAvail = true) (ha : s.meas.active = 1) : TempRes T s (T + g.sum) s' := by
  have fin : SimT (measureWorkT c s) T (TempRes T s) := by
    unfold measureWorkT
    simp only [hav, if_true]
    refine SimV.bind (measHandleT_later (s := { s with meas := { s.meas with resultAvail := false } }) hn)
      fun T1 r hT1 h1 => ?_
    obtain ⟨s1, p, pl⟩ := r
    have h1 : Later _ T1 s1 := h1
    have ha1 : s1.meas.active = 1 := h1.act.trans ha
    simp only []
    rw [if_pos ha1]
    refine SimT.bind (meastempResultT_res h1.now p pl) fun T2 s2 hT2 h2 => ?_
    refine (triggerT_later h2.1).mono fun T3 s3 hT3 h3 => ?_
    obtain ⟨k1, k2, k3, k4⟩ := h3
    obtain ⟨-, b2, b3, b4⟩ := h2
    have ec : s1.ct = s.ct := h1.ct
    have ecc : s1.cc = s.cc := h1.cc
    rw [ec, ← k2] at b3 b4
    rw [← k3] at b4
    rw [ecc, ← k3] at b2
    refine ⟨k1, b2, b3, ?_⟩
    rcases b4 with ⟨a1, a2, t, t', q1, q2, q3, q4⟩ | b4
    · exact Or.inl ⟨a1, a2, t, t', by omega, q2, by omega, q4⟩
    · exact Or.inr b4
  obtain ⟨T', -, k2, k3⟩ := fin _ _ _ hw
  have k2 : T' = T + g.sum := by simpa using k2
  subst k2
  exact k3

/-- an evaluation of the current -/
theorem workT_curr {g : List Nat} {s' : Sys} (hi : Inv c s) (hn : s.now = nowAt T)
    (hw : workT c s .measureWork g = some (s', [])) (hav : s.meas.resultAvail = true) (ha : s.meas.active = 0) :
    CurrRes T s (T + g.sum) s' := by
  have fin : SimT (measureWorkT c s) T (CurrRes T s) := by
    unfold measureWorkT
    simp only [hav, if_true]
    refine SimV.bind (measHandleT_later (s := { s with meas := { s.meas with resultAvail := false } }) hn)
      fun T1 r hT1 h1 => ?_
    obtain ⟨s1, p, pl⟩ := r
    have h1 : Later _ T1 s1 := h1
    have ha1 : s1.meas.active = 0 := h1.act.trans ha
    have ec : s1.ct = s.ct := h1.ct
    have ecc : s1.cc = s.cc := h1.cc
    simp only []
    rw [if_neg (by omega)]
    refine SimT.bind (meascurrResultT_res h1.now (by rw [ecc]; exact hi.cc.en) p pl) fun T2 s2 hT2 h2 => ?_
    refine (triggerT_later h2.1).mono fun T3 s3 hT3 h3 => ?_
    obtain ⟨k1, k2, k3, k4⟩ := h3
    obtain ⟨-, b3, b4⟩ := h2
    rw [ec, ← k2] at b3
    rw [ecc, ← k3, ← k4] at b4
    refine ⟨k1, b3, ?_⟩
    rcases b4 with ⟨a2, t, t', q1, q2, q3, q4⟩ | b4
    · exact Or.inl ⟨a2, t, t', by omega, q2, by omega, q4⟩
    · exact Or.inr b4
  obtain ⟨T', -, k2, k3⟩ := fin _ _ _ hw
  have k2 : T' = T + g.sum := by simpa using k2
  subst k2
  exact k3

end Verif
