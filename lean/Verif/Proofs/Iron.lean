import Verif.Proofs.Effects
import Verif.Proofs.Buttons
/-
What the menu, the panel buttons and the measurement leave alone in the temperature controller: the
iron button's state, idle mode, the boost mode and the time of the previous run.
-/
namespace Verif
open Spec

/-- Idle mode and the iron button's state are the same.  Boost mode, time of the previous run and
    whether the controller is enabled are the same too, or the controller was switched, which needs
    `P`. -/
structure Hand (c : Conf) (P : Prop) (a s : Sys) : Prop where
  now : s.now = a.now
  btn : s.btn = a.btn
  idle : s.ct.idle = a.ct.idle
  biLet : s.ct.biLet = a.ct.biLet
  biTimer : s.ct.biTimer = a.ct.biTimer
  emerg : s.cc.emerg = a.cc.emerg
  ctEmerg : s.ct.emergency = a.ct.emergency
  feedback : s.ct.feedback = a.ct.feedback
  noBoost : c.boost = false → s.ct.boost = a.ct.boost
  reg : (s.ct.boost = a.ct.boost ∧ s.ct.dtTimer = a.ct.dtTimer ∧ s.ct.enabled = a.ct.enabled) ∨
    (P ∧ (c.boost = true → s.ct.boost = 0) ∧ s.ct.dtTimer = a.now ∧ s.ct.enabled ≠ a.ct.enabled)

variable {c : Conf} {P : Prop} {a s : Sys}

theorem Hand.refl (c : Conf) (P : Prop) (s : Sys) : Hand c P s s :=
  ⟨rfl, rfl, rfl, rfl, rfl, rfl, rfl, rfl, fun _ => rfl, Or.inl ⟨rfl, rfl, rfl⟩⟩

theorem Hand.menuRequestUpdate (h : Hand c P a s) : Hand c P a (menuRequestUpdate s) := { h with }

theorem Hand.setCache (h : Hand c P a s) (x : Settings) : Hand c P a (setCache s x) := { h with }

theorem Hand.sysStore (h : Hand c P a s) : Post (sysStore s) (Hand c P a) := by
  unfold Verif.sysStore
  exact Post.bindAny fun set => Post.pure { h with }

theorem Hand.updateSetpoint (h : Hand c P a s) : Post (contrtempUpdateSetpoint s) (Hand c P a) := by
  unfold contrtempUpdateSetpoint
  exact Post.bindAny fun sp => Post.pure { h with }

theorem Hand.setIdleSetpoint (h : Hand c P a s) (w : Int) :
    Post (contrtempSetIdleSetpoint c s w) (Hand c P a) := by
  unfold contrtempSetIdleSetpoint
  split
  · exact Post.bind (h.setCache _).updateSetpoint fun _ h => h.sysStore
  · exact Post.pure h

/-- setting the factors of the boost mode in force again -/
theorem Hand.sameBoost (h : Hand c P a s) : Post (contrtempSetBoost c s s.ct.boost) (Hand c P a) := by
  unfold contrtempSetBoost
  refine Post.bindAny fun k => ?_
  simp only []
  split
  · exact Post.pure { h with }
  · exact Post.pure { h with }

theorem Hand.setEnabled (h : Hand c P a s) (en : Bool) (hp : (P ∧ s.ct.enabled = a.ct.enabled) ∨ s.ct.enabled = en) :
    Post (contrtempSetEnabled c s en) (Hand c P a) := by
  unfold contrtempSetEnabled
  split
  · rename_i hne
    have hp := hp.resolve_right hne
    unfold contrtempDoSetEnabled contrtempSetBoost
    refine Post.bind (P := fun s2 => ∃ pid b u, s2 = { s with
      ct := { s.ct with enabled := en, dtTimer := timerSetNow s.now, pid := pid, boost := b },
      menu := { s.menu with updReq := u } } ∧ (c.boost = true → b = 0) ∧ (c.boost = false → b = s.ct.boost))
      (Post.bindAny fun k => ?_) ?_
    · simp only []
      split
      · rename_i hb
        exact Post.pure ⟨_, _, _, rfl, fun _ => rfl, fun hh => absurd hb (by rw [hh]; decide)⟩
      · rename_i hb
        exact Post.pure ⟨_, _, _, rfl, fun hh => absurd hh hb, fun _ => rfl⟩
    · rintro s2 ⟨pid, b, u, rfl, h1, h2⟩
      exact Post.pure { h with
        noBoost := fun hh => (h2 hh).trans (h.noBoost hh), reg := Or.inr ⟨hp.1, h1, h.now, fun hh => hne (hp.2.trans hh.symm)⟩ }
  · exact Post.pure h

theorem Hand.presetsStore (h : Hand c P a s) : Post (presetsStore s) (Hand c P a) := by
  unfold Verif.presetsStore
  exact Post.bind h.sysStore fun s2 h2 => Post.bind h2.updateSetpoint fun s3 h3 =>
    Post.pure h3.menuRequestUpdate

theorem Hand.presetsSetActive (h : Hand c P a s) (v : Int) :
    Post (presetsSetActive s v) (Hand c P a) := by
  unfold Verif.presetsSetActive
  exact Post.bindAny fun x => (h.setCache x).presetsStore

theorem Hand.adjustSet (h : Hand c P a s) (v : Int) : Post (meastempAdjustSet c s v) (Hand c P a) := by
  unfold meastempAdjustSet
  split
  · rename_i hc
    have h1 : Hand c P a (measureAdjustSet c s v) := by
      unfold measureAdjustSet
      rw [if_pos hc]
      exact { h with }
    exact Post.bind (h1.setCache _).sysStore fun s2 h2 => Post.pure h2.menuRequestUpdate
  · exact Post.pure h

theorem Hand.menuArm (h : Hand c P a s) (ms : Int) :
    Post (menuArm s ms) (fun s' => Hand c P a s' ∧ s'.ct = s.ct) := by
  unfold Verif.menuArm
  exact Post.bindAny fun t => Post.pure ⟨{ h with }, rfl⟩

/-- entering a screen switches the controller only if its state has to change -/
theorem Hand.menuEnter (h : Hand c P a s) (t : MenuState)
    (hp : (P ∧ s.ct.enabled = a.ct.enabled) ∨ t = .selpreset ∨ t = .chgpreset ∨ s.ct.enabled = !Tuning t) :
    Post (menuEnter c s t) (Hand c P a) := by
  have hq : (t ≠ .selpreset ∧ t ≠ .chgpreset) → (P ∧ s.ct.enabled = a.ct.enabled) ∨ s.ct.enabled = !Tuning t := by
    rintro ⟨h1, h2⟩
    rcases hp with hp | hp | hp | hp
    · exact Or.inl hp
    · exact absurd hp h1
    · exact absurd hp h2
    · exact Or.inr hp
  cases t <;> simp only [Verif.menuEnter]
  case curtemp => exact h.setEnabled _ (hq (by decide))
  case selpreset => exact (h.menuArm _).mono fun _ h => h.1
  case chgpreset => exact (h.menuArm _).mono fun _ h => h.1
  case idletemp => exact (h.menuArm _).mono fun _ h => h.1
  case debug => exact Post.pure h
  all_goals split
  all_goals first
    | exact Post.pure h
    | exact h.setEnabled _ (hq (by decide))
    | exact Post.bind (h.menuArm _) fun s2 h2 => h2.1.setEnabled _ (by rw [h2.2]; exact hq (by decide))

theorem Hand.menuSetState (h : Hand c P a s) (t : MenuState)
    (hp : (P ∧ s.ct.enabled = a.ct.enabled) ∨ t = .selpreset ∨ t = .chgpreset ∨ s.ct.enabled = !Tuning t) :
    Post (menuSetState c s t) (Hand c P a) := by
  unfold Verif.menuSetState
  split
  · exact Post.pure h
  · have h1 : Hand c P a { s with menu := { s.menu with state := t } } := { h with }
    exact Post.bind (h1.menuEnter t hp) fun s2 h2 => Post.pure h2.menuRequestUpdate

theorem Hand.rampK (h : Hand c P a s) (get : PidK → Int) (put : PidK → Int → PidK)
    (inc hi : Int) (up : Bool) : Post (doRampK c s get put inc hi up) (Hand c P a) := by
  unfold doRampK
  simp only []
  split
  · split
    all_goals
      refine Post.bindAny fun x => Post.bindAny fun v => ?_
      exact Post.bind (h.setCache _).sysStore fun s2 h2 => h2.sameBoost
  · exact Post.none

theorem Hand.rampHandler (h : Hand c P a s) (r : RampHandler) (up : Bool) :
    Post (rampHandler c s r up) (Hand c P a) := by
  cases r <;> simp only [Verif.rampHandler]
  · exact Post.bindAny fun sp => Post.bindAny fun v => Post.bind (h.presetsSetActive v) fun s2 h2 =>
      h2.menuSetState _ (Or.inr (Or.inr (Or.inl rfl)))
  · exact Post.bindAny fun sp => h.setIdleSetpoint _
  · exact Post.bindAny fun v => h.adjustSet v
  · exact h.rampK _ _ _ _ _
  · exact h.rampK _ _ _ _ _
  · exact h.rampK _ _ _ _ _

theorem Hand.startRamping (h : Hand c P a s) (up pre : Bool) (r : Option RampHandler) :
    Post (startRamping s up pre r) (Hand c P a) := by
  unfold Verif.startRamping
  split
  · refine Post.bindAny fun m => Post.pure { h with }
  · exact Post.pure { h with }

theorem Hand.startRampingButton (h : Hand c P a s) (b : Button) (e : BState) (pre : Bool)
    (r : RampHandler) : Post (startRampingButton s b e pre r) (Hand c P a) := by
  unfold Verif.startRampingButton
  split
  · split
    · exact h.startRamping _ _ _
    · split
      · exact h.startRamping _ _ _
      · exact Post.pure h
  · exact Post.pure h

theorem Hand.debugEnable (h : Hand c P a s) (en : Bool) : Post (debugEnable c s en) (Hand c P a) := by
  unfold Verif.debugEnable
  split
  · exact Post.bindAny fun pd => Post.pure { h with }
  · exact Post.pure h

theorem Hand.menuButtonScreen (h : Hand c P a s) (b : Button) (e : BState) :
    Post (menuButtonScreen c s b e) (Hand c P a) := by
  have opt : ∀ {m : Option Sys} {p : Prop} [Decidable p] {s : Sys}, Post m (Hand c P a) → Hand c P a s →
      Post (if p then m else Pure.pure s) (Hand c P a) := by
    intro m p _ s h1 h2
    split
    · exact h1
    · exact Post.pure h2
  unfold Verif.menuButtonScreen
  split
  · exact Post.bind (h.startRampingButton b e _ _) fun s2 h2 =>
      opt (h2.menuSetState _ (Or.inr (Or.inl rfl))) h2
  · refine Post.bind (h.menuArm _) fun s2 h2 => ?_
    have h2 := h2.1
    cases e
    · simp only [reduceCtorEq, if_false, pure_bind]; exact h2.startRampingButton b _ _ _
    · simp only [if_true]
      cases b <;> simp only [reduceCtorEq, if_false, if_true, pure_bind]
      · exact h2.startRampingButton _ _ _ _
      · exact Post.bind (h2.setCache _).presetsStore fun s3 h3 => h3.startRampingButton _ _ _ _
      · exact Post.bind (h2.setCache _).presetsStore fun s3 h3 => h3.startRampingButton _ _ _ _
      · exact h2.startRampingButton _ _ _ _
    · simp only [reduceCtorEq, if_false, pure_bind]; exact h2.startRampingButton b _ _ _
  · exact Post.bind (h.menuArm _) fun s2 h2 => h2.1.startRampingButton b e _ _
  · split
    · exact Post.pure h
    · exact Post.bind (h.menuArm _) fun s2 h2 => h2.1.startRampingButton b e _ _
  · split
    · exact Post.pure h
    · split
      · cases b <;> simp only [reduceCtorEq, if_false, if_true, pure_bind]
        · exact Post.pure h
        · exact Post.bind (h.debugEnable _) fun s3 h3 => Post.pure h3.menuRequestUpdate
        · exact Post.bind (h.debugEnable _) fun s3 h3 => Post.pure h3
        · exact Post.pure h
      · exact Post.pure h
  all_goals first
    | exact Post.pure h
    | (split
       · exact Post.pure h
       · exact h.startRampingButton b e _ _)

theorem Hand.stopRamping (h : Hand c P a s) : Hand c P a (stopRamping s) := { h with }

/-- only the release of SET switches the controller -/
theorem Hand.menuButton (h : Hand c P a s) (b : Button) (e : BState)
    (hp : b = .set → e = .negedge → P ∧ s.ct.enabled = a.ct.enabled) :
    Post (menuButton c s b e) (Hand c P a) := by
  unfold Verif.menuButton
  split
  · exact Post.pure h
  · refine Post.bind (P := fun s2 => Hand c P a s2 ∧ s2.ct.enabled = s.ct.enabled) ?_ fun s2 h2 => ?_
    · intro s2 e2
      refine ⟨h.menuButtonScreen b e s2 e2, ?_⟩
      rcases ((Hand.refl c False s).menuButtonScreen b e s2 e2).reg with hh | hh
      · exact hh.2.2
      · exact hh.1.elim
    obtain ⟨h2, hen⟩ := h2
    split
    · rename_i he
      simp only []
      split
      · rename_i hb
        split
        · exact h2.stopRamping.menuSetState _ (Or.inl ⟨(hp hb he).1, hen.trans (hp hb he).2⟩)
        · exact Post.pure h2.stopRamping
      · exact Post.pure h2.stopRamping
    · exact Post.pure h2

/-- the time-outs do not switch the controller -/
theorem Hand.menuTimeouts (hi : Inv c s) (h : Hand c P a s) : Post (menuTimeouts c s) (Hand c P a) := by
  have hen := hi.en
  have hsc := hi.menu.screen
  unfold Verif.menuTimeouts
  split
  all_goals first
    | exact Post.pure h
    | skip
  all_goals
    rename_i hst
    rw [hst] at hen hsc
    split
    · first
        | exact Post.bind (h.menuSetState _ (Or.inr (Or.inr (Or.inr hen)))) fun s2 h2 => Post.pure h2.stopRamping
        | refine Post.bind (h.menuSetState _ (Or.inr (Or.inr (Or.inr ?_)))) fun s2 h2 => Post.pure h2.stopRamping
          rw [hst, hen]
          simp only [ScreenExists] at hsc
          simp only [nextMenuState, hsc, if_true]
          rfl
        | split
          · refine Post.bind (h.menuSetState _ (Or.inr (Or.inr (Or.inr ?_)))) fun s2 h2 => Post.pure h2.stopRamping
            exfalso; rename_i hx; simp only [hst, reduceCtorEq] at hx
          · refine Post.bind (h.menuSetState _ (Or.inr (Or.inr (Or.inr ?_)))) fun s2 h2 => Post.pure h2.stopRamping
            rw [hst, hen]
            simp only [ScreenExists] at hsc
            simp only [nextMenuState, hsc, if_true]
            rfl
    · exact Post.pure h

theorem Hand.menuIndicate (h : Hand c P a s) : Hand c P a (menuIndicate s) := by
  unfold Verif.menuIndicate
  simp only []
  split
  · split
    · exact { h with }
    · exact { h with }
  · split
    · exact { h with }
    · exact h

theorem Hand.menuRamp (h : Hand c P a s) : Post (menuRamp c s) (Hand c P a) := by
  unfold Verif.menuRamp
  split
  · exact Post.pure h
  all_goals
    split
    · first
        | exact h.startRamping _ _ _
        | exact Post.bindAny fun r => Post.bind (h.rampHandler r _) fun s2 h2 =>
            Post.bindAny fun t => Post.pure { h2 with }
    · exact Post.pure h

theorem Hand.menuUpdateDisplay (h : Hand c P a s) : Post (menuUpdateDisplay c s) (Hand c P a) := by
  unfold Verif.menuUpdateDisplay
  exact Post.bindAny fun x => Post.bindAny fun d => Post.bindAny fun d => Post.pure { h with }

theorem Hand.menuWork (hi : Inv c s) : Post (menuWork c s) (Hand c False s) := by
  unfold Verif.menuWork
  refine Post.bind (Hand.menuTimeouts hi (Hand.refl c False s)) fun s1 h1 =>
    Post.bind h1.menuIndicate.menuRamp fun s2 h2 => ?_
  unfold menuRefresh
  split
  · have h3 : Hand c False s { s2 with menu := { s2.menu with updReq := false } } := { h2 with }
    exact h3.menuUpdateDisplay
  · exact Post.pure h2

theorem contrtempButton_other {b : Button} (hb : b ≠ .iron) (e : BState) :
    contrtempButton c s b e = some s := by
  unfold contrtempButton
  split
  · rw [if_pos hb]
  · rw [if_pos hb]
  · rw [if_pos hb]
  · rfl

theorem Hand.call (h : Hand c P a s) {x : Button × BState} (hx : x.1 ≠ .iron)
    (hp : x.1 = .set → x.2 = .negedge → P ∧ s.ct.enabled = a.ct.enabled) :
    Post (callButtonHandlers c s x) (Hand c P a) := by
  unfold callButtonHandlers
  rw [contrtempButton_other hx]
  exact h.menuButton x.1 x.2 hp

theorem Hand.calls (l : List (Button × BState)) (hl : ∀ x ∈ l, x.1 ≠ .iron)
    (hp : (Button.set, BState.negedge) ∉ l) : ∀ {s : Sys}, Hand c P a s →
    Post (l.foldlM (callButtonHandlers c) s) (Hand c P a) := by
  induction l with
  | nil => intro s h; exact Post.pure h
  | cons x l ih =>
    intro s h
    rw [List.foldlM_cons]
    refine Post.bind (h.call (hl x (List.mem_cons_self ..)) fun h1 h2 => absurd ?_ hp) fun s2 h2 =>
      ih (fun y hy => hl y (List.mem_cons_of_mem _ hy)) (fun hh => hp (List.mem_cons_of_mem _ hh)) h2
    rw [← h1, ← h2]
    exact List.mem_cons_self ..

/-- all calls but those for the iron button -/
def panelCalls (prev pinb : BitVec 8) : List (Button × BState) :=
  [Button.set, .minus, .plus].flatMap fun b =>
    (pressCalls (prev.getLsbD (buttonPin b)) (!pinb.getLsbD (buttonPin b))).map fun e => (b, e)

theorem buttonCalls_split (prev pinb : BitVec 8) :
    buttonCalls (buttonsRaw pinb) ((buttonsRaw pinb &&& ~~~prev) &&& BUTTONS_MASK)
        ((~~~(buttonsRaw pinb) &&& prev) &&& BUTTONS_MASK) =
      panelCalls prev pinb ++
        (pressCalls (prev.getLsbD 0) (!pinb.getLsbD 0)).map (fun e => (Button.iron, e)) := by
  rw [buttonCalls_eq]
  simp [panelCalls, buttonPin]

theorem Hand.panel (prev pinb : BitVec 8) {s : Sys} :
    Post ((panelCalls prev pinb).foldlM (callButtonHandlers c) s)
      (Hand c (prev.getLsbD 2 = true ∧ pinb.getLsbD 2 = true) s) := by
  have split : panelCalls prev pinb =
      (pressCalls (prev.getLsbD 2) (!pinb.getLsbD 2)).map (fun e => (Button.set, e)) ++
      [Button.minus, .plus].flatMap fun b =>
        (pressCalls (prev.getLsbD (buttonPin b)) (!pinb.getLsbD (buttonPin b))).map fun e => (b, e) := by
    simp [panelCalls, buttonPin]
  rw [split, List.foldlM_append]
  have rest : ∀ b e, (b, e) ∈ ([Button.minus, .plus].flatMap fun b =>
        (pressCalls (prev.getLsbD (buttonPin b)) (!pinb.getLsbD (buttonPin b))).map fun e => (b, e)) →
      b = .minus ∨ b = .plus := by
    intro b e hx
    obtain ⟨b', hb, hx⟩ := List.mem_flatMap.mp hx
    obtain ⟨e', -, hx⟩ := List.mem_map.mp hx
    cases hx
    simpa using hb
  refine Post.bind (P := Hand c (prev.getLsbD 2 = true ∧ pinb.getLsbD 2 = true) s) ?_ fun s2 h2 =>
    Hand.calls _ (fun x hx => ?_) (fun hx => ?_) h2
  · cases hw : prev.getLsbD 2 <;> cases hd : pinb.getLsbD 2
    case true.true =>
      show Post (([(Button.set, BState.negedge)] : List _).foldlM (callButtonHandlers c) s) _
      rw [List.foldlM_cons]
      exact Post.bind ((Hand.refl c _ s).call (by decide) fun _ _ => ⟨⟨rfl, rfl⟩, rfl⟩) fun s2 h2 => Post.pure h2
    all_goals exact Hand.calls _ (by decide) (by decide) (Hand.refl c _ s)
  · rcases rest x.1 x.2 hx with h | h <;> rw [h] <;> decide
  · rcases rest _ _ hx with h | h <;> cases h

/-- SET is released in a sample: it was down and its pin (PB2) is high now -/
def setReleased (s : Sys) (pinb : BitVec 8) : Prop := s.btn.prev.getLsbD 2 = true ∧ pinb.getLsbD 2 = true

/-- a sample: first the panel buttons, then the iron button -/
theorem buttonsWork_iron {s' : Sys} {pinb : BitVec 8} (hx : timerExpired s.now s.btn.debounce = true)
    (e : buttonsWork c s pinb = some s') :
    ∃ b s1, b.prev = buttonsRaw pinb ∧ Hand c (setReleased s pinb) { s with btn := b } s1 ∧
      (pressCalls (s.btn.prev.getLsbD 0) (!pinb.getLsbD 0)).foldlM (fun s e => contrtempButton c s .iron e) s1 =
        some s' := by
  unfold Verif.buttonsWork at e
  obtain ⟨⟨b, calls⟩, eb, e⟩ := Option.bind_eq_some_iff.mp e
  unfold buttonsSample at eb
  rw [hx] at eb
  simp only [Bool.not_true, Bool.false_eq_true, if_false] at eb
  obtain ⟨t, -, eb⟩ := Option.bind_eq_some_iff.mp eb
  cases eb
  simp only [buttonCalls_split, List.foldlM_append] at e
  obtain ⟨s1, e1, e⟩ := Option.bind_eq_some_iff.mp e
  have hh := Hand.panel s.btn.prev pinb _ e1
  refine ⟨_, s1, rfl, hh, ?_⟩
  rw [← e, List.foldlM_map]
  congr 1
  funext s e
  unfold callButtonHandlers menuButton
  simp

/-- nothing happens when the debounce time has not passed -/
theorem buttonsWork_early {s' : Sys} {pinb : BitVec 8} (hx : timerExpired s.now s.btn.debounce = false)
    (e : buttonsWork c s pinb = some s') : s' = s := by
  unfold Verif.buttonsWork buttonsSample at e
  rw [hx] at e
  simpa using e.symm

/-- the iron button's handler touches idle mode, boost mode, its own state and the set point only -/
structure Touched (s s' : Sys) (idle : Bool) (boost : Nat) (biLet : Bool) : Prop where
  idle : s'.ct.idle = idle
  boost : s'.ct.boost = boost
  biLet : s'.ct.biLet = biLet
  now : s'.now = s.now
  btn : s'.btn = s.btn
  enabled : s'.ct.enabled = s.ct.enabled
  dtTimer : s'.ct.dtTimer = s.ct.dtTimer

theorem doIdle_touched {s s' : Sys} {b : Bool} (e : contrtempDoIdle s b = some s') :
    Touched s s' b s.ct.boost s.ct.biLet ∧ s'.ct.biTimer = s.ct.biTimer := by
  unfold contrtempDoIdle contrtempUpdateSetpoint at e
  obtain ⟨s1, e1, e⟩ := Option.bind_eq_some_iff.mp e
  obtain ⟨sp, -, e1⟩ := Option.bind_eq_some_iff.mp e1
  cases e1
  cases e
  exact ⟨⟨rfl, rfl, rfl, rfl, rfl, rfl, rfl⟩, rfl⟩

theorem nextBoost_touched {s s' : Sys} (hc : c.boost = true) (e : contrtempNextBoost c s = some s') :
    Touched s s' s.ct.idle (ringNext s.ct.boost (c.nrBoost - 1)) s.ct.biLet := by
  unfold contrtempNextBoost contrtempSetBoost at e
  obtain ⟨k, -, e⟩ := Option.bind_eq_some_iff.mp e
  simp only [hc, if_true] at e
  cases e
  exact ⟨rfl, rfl, rfl, rfl, rfl, rfl, rfl⟩

/-- the press edge: leaves idle mode, or arms the timer -/
theorem iron_press {s s' : Sys} (hc : c.boost = true) (hc2 : c.idle = true)
    (e : contrtempButton c s .iron .posedge = some s') :
    Touched s s' false s.ct.boost (!s.ct.idle) ∧ s'.ct.biTimer = toU16 (s.now + 1000) := by
  unfold contrtempButton at e
  rw [hc, hc2] at e
  have h1000 : toU16 1000 = 1000 := by decide
  simp only [ne_eq, not_true, if_false, if_true, timerArm_eq s.now (ms := 1000) (by decide) (by decide),
    Option.bind_eq_bind, Option.bind_some, pure, h1000, reduceCtorEq, false_and, or_false] at e
  cases hi : s.ct.idle
  · simp only [hi, Bool.false_eq_true, if_false] at e
    cases e
    exact ⟨⟨rfl, rfl, rfl, rfl, rfl, rfl, rfl⟩, rfl⟩
  · simp only [hi, if_true] at e
    obtain ⟨s1, e1, e⟩ := Option.bind_eq_some_iff.mp e
    cases e
    obtain ⟨h1, h2⟩ := doIdle_touched e1
    exact ⟨⟨h1.idle, h1.boost, rfl, h1.now, h1.btn, h1.enabled, h1.dtTimer⟩, h2⟩

/-- while pressed: enters idle mode (or leaves it) when armed and due -/
theorem iron_pressed {s s' : Sys} (hc : c.boost = true) (hc2 : c.idle = true)
    (e : contrtempButton c s .iron .pressed = some s') (hi : s.ct.biLet = true → s.ct.idle = false) :
    (if s.ct.biLet = true ∧ timerExpired s.now s.ct.biTimer = true then Touched s s' true s.ct.boost false
     else Touched s s' s.ct.idle s.ct.boost s.ct.biLet) ∧ s'.ct.biTimer = s.ct.biTimer := by
  unfold contrtempButton at e
  rw [hc, hc2] at e
  simp only [ne_eq, not_true, if_false, reduceCtorEq, Option.bind_eq_bind, Option.bind_some, pure,
    true_and] at e
  by_cases hl : s.ct.biLet = true
  · have hi := hi hl
    by_cases hx : timerExpired s.now s.ct.biTimer = true
    · simp only [hl, hx, if_true, or_true] at e
      obtain ⟨s1, e1, e⟩ := Option.bind_eq_some_iff.mp e
      cases e
      rw [if_pos ⟨hl, hx⟩]
      obtain ⟨h1, h2⟩ := doIdle_touched e1
      exact ⟨⟨h1.idle.trans (by rw [hi]; rfl), h1.boost, rfl, h1.now, h1.btn, h1.enabled, h1.dtTimer⟩, h2⟩
    · rw [if_neg (by rintro ⟨-, h⟩; exact hx h)]
      simp only [hl, hi, hx, if_true, Bool.false_eq_true, or_self, if_false] at e
      cases e
      exact ⟨⟨rfl, rfl, rfl, rfl, rfl, rfl, rfl⟩, rfl⟩
  · rw [if_neg (by rintro ⟨h, -⟩; exact hl h)]
    simp only [hl, Bool.false_eq_true, if_false] at e
    cases e
    exact ⟨⟨rfl, rfl, rfl, rfl, rfl, rfl, rfl⟩, rfl⟩

/-- the release: next boost mode when still armed -/
theorem iron_release {s s' : Sys} (hc : c.boost = true) (hc2 : c.idle = true)
    (e : contrtempButton c s .iron .negedge = some s') (hi : s.ct.biLet = true → s.ct.idle = false) :
    Touched s s' s.ct.idle (if s.ct.biLet then ringNext s.ct.boost (c.nrBoost - 1) else s.ct.boost) false := by
  unfold contrtempButton at e
  rw [hc, hc2] at e
  simp only [ne_eq, not_true, if_false, reduceCtorEq, Option.bind_eq_bind, Option.bind_some, pure,
    false_and, or_false, if_true] at e
  by_cases hl : s.ct.biLet = true
  · have hi := hi hl
    simp only [hl, hi, if_true, Bool.false_eq_true, if_false] at e
    obtain ⟨s1, e1, e⟩ := Option.bind_eq_some_iff.mp e
    cases e
    have h1 := nextBoost_touched hc e1
    rw [if_pos hl]
    exact ⟨h1.idle, h1.boost, rfl, h1.now, h1.btn, h1.enabled, h1.dtTimer⟩
  · simp only [hl, Bool.false_eq_true, if_false] at e
    cases e
    rw [if_neg hl]
    exact ⟨rfl, rfl, by simpa using hl, rfl, rfl, rfl, rfl⟩

/-- the iron button's handler does not switch the controller, in any build -/
structure Kept (s s' : Sys) : Prop where
  now : s'.now = s.now
  btn : s'.btn = s.btn
  enabled : s'.ct.enabled = s.ct.enabled
  dtTimer : s'.ct.dtTimer = s.ct.dtTimer

theorem Touched.kept {s s' : Sys} {i : Bool} {b : Nat} {l : Bool} (h : Touched s s' i b l) : Kept s s' :=
  ⟨h.now, h.btn, h.enabled, h.dtTimer⟩

theorem nextBoost_kept {s s' : Sys} (e : contrtempNextBoost c s = some s') : Kept s s' := by
  unfold contrtempNextBoost contrtempSetBoost at e
  obtain ⟨k, -, e⟩ := Option.bind_eq_some_iff.mp e
  simp only [] at e
  split at e <;> (cases e; exact ⟨rfl, rfl, rfl, rfl⟩)

theorem Kept.trans {s s1 s2 : Sys} (h : Kept s s1) (h' : Kept s1 s2) : Kept s s2 :=
  ⟨h'.now.trans h.now, h'.btn.trans h.btn, h'.enabled.trans h.enabled, h'.dtTimer.trans h.dtTimer⟩

theorem iron_kept {s s' : Sys} {e : BState} (h : contrtempButton c s .iron e = some s') : Kept s s' := by
  cases hb : c.boost <;> cases hc : c.idle
  · unfold contrtempButton at h
    rw [hb, hc] at h
    cases h
    exact ⟨rfl, rfl, rfl, rfl⟩
  · unfold contrtempButton at h
    rw [hb, hc] at h
    simp only [ne_eq, not_true, if_false] at h
    have key : ∀ x : Bool, (if ¬ x = s.ct.idle then contrtempDoIdle s x else some s) = some s' → Kept s s' := by
      intro x hx
      split at hx
      · exact (doIdle_touched hx).1.kept
      · cases hx; exact ⟨rfl, rfl, rfl, rfl⟩
    exact key _ h
  · unfold contrtempButton at h
    rw [hb, hc] at h
    simp only [ne_eq, not_true, if_false] at h
    split at h
    · exact nextBoost_kept h
    · cases h; exact ⟨rfl, rfl, rfl, rfl⟩
  · unfold contrtempButton at h
    rw [hb, hc] at h
    simp only [ne_eq, not_true, if_false] at h
    have tail : ∀ s1 : Sys, (if s1.ct.biLet = true then
        if s.ct.idle = true ∨ e = BState.pressed ∧ timerExpired s1.now s1.ct.biTimer = true then do
          let s ← contrtempDoIdle s1 !s.ct.idle
          pure { s with ct := { s.ct with biLet := false } }
        else if e = BState.negedge then do
          let s ← contrtempNextBoost c s1
          pure { s with ct := { s.ct with biLet := false } }
        else pure s1
        else pure s1) = some s' → Kept s1 s' := by
      intro s1 h
      split at h
      · split at h
        · obtain ⟨s2, e2, h⟩ := Option.bind_eq_some_iff.mp h
          cases h
          have := (doIdle_touched e2).1.kept
          exact ⟨this.now, this.btn, this.enabled, this.dtTimer⟩
        · split at h
          · obtain ⟨s2, e2, h⟩ := Option.bind_eq_some_iff.mp h
            cases h
            have := nextBoost_kept e2
            exact ⟨this.now, this.btn, this.enabled, this.dtTimer⟩
          · cases h; exact ⟨rfl, rfl, rfl, rfl⟩
      · cases h; exact ⟨rfl, rfl, rfl, rfl⟩
    by_cases hp : e = .posedge
    · rw [if_pos hp] at h
      obtain ⟨t, -, h⟩ := Option.bind_eq_some_iff.mp h
      have := tail { s with ct := { s.ct with biTimer := t, biLet := true } } h
      exact ⟨this.now, this.btn, this.enabled, this.dtTimer⟩
    · rw [if_neg hp] at h
      exact tail s h

theorem irons_kept (l : List BState) {s s' : Sys}
    (h : l.foldlM (fun s e => contrtempButton c s .iron e) s = some s') : Kept s s' := by
  induction l generalizing s with
  | nil => cases h; exact ⟨rfl, rfl, rfl, rfl⟩
  | cons e l ih =>
    rw [List.foldlM_cons] at h
    obtain ⟨s1, e1, h⟩ := Option.bind_eq_some_iff.mp h
    exact (iron_kept e1).trans (ih h)

/-- a call of `buttons_work` either leaves the controller's switch and time reference alone or
    switches it and sets the reference -/
theorem buttonsWork_switch {s s' : Sys} {pinb : BitVec 8} (e : buttonsWork c s pinb = some s') :
    (s'.ct.enabled = s.ct.enabled ∧ s'.ct.dtTimer = s.ct.dtTimer) ∨
    (s'.ct.enabled ≠ s.ct.enabled ∧ s'.ct.dtTimer = s.now) := by
  cases hx : timerExpired s.now s.btn.debounce
  · rw [buttonsWork_early hx e]
    exact Or.inl ⟨rfl, rfl⟩
  · obtain ⟨b, s1, -, hh, hf⟩ := buttonsWork_iron hx e
    have k := irons_kept _ hf
    rw [k.enabled, k.dtTimer]
    rcases hh.reg with h | h
    · exact Or.inl ⟨h.2.2, h.2.1⟩
    · exact Or.inr ⟨h.2.2.2, h.2.2.1⟩

theorem menuWork_switch {s s' : Sys} (hi : Inv c s) (e : menuWork c s = some s') :
    s'.ct.enabled = s.ct.enabled ∧ s'.ct.dtTimer = s.ct.dtTimer ∧ s'.ct.boost = s.ct.boost ∧
      s'.ct.idle = s.ct.idle := by
  have hh := Hand.menuWork hi s' e
  rcases hh.reg with h | h
  · exact ⟨h.2.2, h.2.1, h.1, hh.idle⟩
  · exact h.1.elim

end Verif
