import Verif.Proofs.PortLog
import Verif.Proofs.Buttons
/-
Which steps touch the display, its ports and its timer.
-/
namespace Verif
open Spec

variable {c : Conf} {a s : Sys}

/-- nothing of the display has changed -/
structure DispKept (a s : Sys) : Prop where
  now : s.now = a.now
  disp : s.disp = a.disp
  ports : s.ports = a.ports
  debugEn : s.debugEn = a.debugEn

theorem DispKept.refl (s : Sys) : DispKept s s := ⟨rfl, rfl, rfl, rfl⟩

theorem DispKept.trans {s' : Sys} (h : DispKept a s) (h' : DispKept s s') : DispKept a s' :=
  ⟨h'.now.trans h.now, h'.disp.trans h.disp, h'.ports.trans h.ports, h'.debugEn.trans h.debugEn⟩

theorem DispKept.menuRequestUpdate (h : DispKept a s) : DispKept a (menuRequestUpdate s) := { h with }

theorem DispKept.setCache (h : DispKept a s) (x : Settings) : DispKept a (setCache s x) := { h with }

theorem DispKept.sysStore (h : DispKept a s) : Post (sysStore s) (DispKept a) := by
  unfold Verif.sysStore
  exact Post.bindAny fun set => Post.pure { h with }

theorem DispKept.updateSetpoint (h : DispKept a s) : Post (contrtempUpdateSetpoint s) (DispKept a) := by
  unfold contrtempUpdateSetpoint
  exact Post.bindAny fun sp => Post.pure { h with }

theorem DispKept.setIdleSetpoint (h : DispKept a s) (w : Int) : Post (contrtempSetIdleSetpoint c s w) (DispKept a) := by
  unfold contrtempSetIdleSetpoint
  split
  · exact Post.bind (h.setCache _).updateSetpoint fun _ h => h.sysStore
  · exact Post.pure h

theorem DispKept.setBoost (h : DispKept a s) (m : Nat) :
    Post (contrtempSetBoost c s m) (DispKept a) := by
  unfold contrtempSetBoost
  refine Post.bindAny fun k => ?_
  simp only []
  split
  · exact Post.pure { h with }
  · exact Post.pure { h with }

theorem DispKept.setEnabled (h : DispKept a s) (en : Bool) : Post (contrtempSetEnabled c s en) (DispKept a) := by
  unfold contrtempSetEnabled
  split
  · unfold contrtempDoSetEnabled
    have h1 : DispKept a { s with ct := { s.ct with enabled := en, pid := pidReset s.ct.pid, dtTimer := timerSetNow s.now } } :=
      { h with }
    exact Post.bind (h1.setBoost 0) fun s2 h2 => Post.pure { h2 with }
  · exact Post.pure h

theorem DispKept.presetsStore (h : DispKept a s) : Post (presetsStore s) (DispKept a) := by
  unfold Verif.presetsStore
  exact Post.bind h.sysStore fun s2 h2 => Post.bind h2.updateSetpoint fun s3 h3 =>
    Post.pure h3.menuRequestUpdate

theorem DispKept.presetsSetActive (h : DispKept a s) (v : Int) :
    Post (presetsSetActive s v) (DispKept a) := by
  unfold Verif.presetsSetActive
  exact Post.bindAny fun x => (h.setCache x).presetsStore

theorem DispKept.adjustSet (h : DispKept a s) (v : Int) : Post (meastempAdjustSet c s v) (DispKept a) := by
  unfold meastempAdjustSet
  split
  · rename_i hc
    have h1 : DispKept a (measureAdjustSet c s v) := by
      unfold measureAdjustSet
      rw [if_pos hc]
      exact { h with }
    exact Post.bind (h1.setCache _).sysStore fun s2 h2 => Post.pure h2.menuRequestUpdate
  · exact Post.pure h

theorem DispKept.menuArm (h : DispKept a s) (ms : Int) : Post (menuArm s ms) (DispKept a) := by
  unfold Verif.menuArm
  exact Post.bindAny fun t => Post.pure { h with }

theorem DispKept.menuEnter (h : DispKept a s) (t : MenuState) : Post (menuEnter c s t) (DispKept a) := by
  cases t <;> simp only [Verif.menuEnter]
  case curtemp => exact h.setEnabled _
  case selpreset => exact h.menuArm _
  case chgpreset => exact h.menuArm _
  case idletemp => exact h.menuArm _
  case debug => exact Post.pure h
  all_goals split
  all_goals first
    | exact Post.pure h
    | exact h.setEnabled _
    | exact Post.bind (h.menuArm _) fun s2 h2 => h2.setEnabled _

theorem DispKept.menuSetState (h : DispKept a s) (t : MenuState) :
    Post (menuSetState c s t) (DispKept a) := by
  unfold Verif.menuSetState
  split
  · exact Post.pure h
  · have h1 : DispKept a { s with menu := { s.menu with state := t } } := { h with }
    exact Post.bind (h1.menuEnter t) fun s2 h2 => Post.pure h2.menuRequestUpdate

theorem DispKept.rampK (h : DispKept a s) (get : PidK → Int) (put : PidK → Int → PidK) (inc hi : Int) (up : Bool) :
    Post (doRampK c s get put inc hi up) (DispKept a) := by
  unfold doRampK
  simp only []
  split
  · split
    all_goals
      refine Post.bindAny fun x => Post.bindAny fun v => ?_
      exact Post.bind (h.setCache _).sysStore fun s2 h2 => h2.setBoost _
  · exact Post.none

theorem DispKept.rampHandler (h : DispKept a s) (r : RampHandler) (up : Bool) : Post (rampHandler c s r up) (DispKept a) := by
  cases r <;> simp only [Verif.rampHandler]
  · exact Post.bindAny fun sp => Post.bindAny fun v => Post.bind (h.presetsSetActive v) fun s2 h2 =>
      h2.menuSetState _
  · exact Post.bindAny fun sp => h.setIdleSetpoint _
  · exact Post.bindAny fun v => h.adjustSet v
  · exact h.rampK _ _ _ _ _
  · exact h.rampK _ _ _ _ _
  · exact h.rampK _ _ _ _ _

theorem DispKept.startRamping (h : DispKept a s) (up pre : Bool) (r : Option RampHandler) :
    Post (startRamping s up pre r) (DispKept a) := by
  unfold Verif.startRamping
  split
  · exact Post.bindAny fun t => Post.pure { h with }
  · exact Post.pure { h with }

theorem DispKept.startRampingButton (h : DispKept a s) (b : Button) (e : BState) (pre : Bool) (r : RampHandler) :
    Post (startRampingButton s b e pre r) (DispKept a) := by
  unfold Verif.startRampingButton
  split
  · split
    · exact h.startRamping _ _ _
    · split
      · exact h.startRamping _ _ _
      · exact Post.pure h
  · exact Post.pure h

/-- the display has just been switched on -/
structure JustOn (a s : Sys) : Prop where
  now : s.now = a.now
  timer : s.disp.muxTimer = a.now
  off : AllOff s.ports.v

/-- what a call of a button handler does to the display: nothing, or plus switches it off, or minus on -/
def Turn (b : Button) (a s : Sys) : Prop :=
  DispKept a s ∨ (b = .plus ∧ s.debugEn = true ∧ s.now = a.now) ∨
    (b = .minus ∧ a.debugEn = true ∧ s.debugEn = false ∧ JustOn a s)

theorem turn_debugEnable {b : Button} {en : Bool} (hi : DispInv c s.disp s.ports.v s.debugEn)
    (hb : b = if en then .plus else .minus) : Post (debugEnable c s en) (Turn b s) := by
  intro s' e
  unfold Verif.debugEnable at e
  split at e
  · obtain ⟨⟨p, d⟩, e1, e⟩ := Option.bind_eq_some_iff.mp e
    cases e
    cases en with
    | true => exact Or.inr (Or.inl ⟨hb, rfl, rfl⟩)
    | false =>
      have hen := hi.en
      cases hd : s.debugEn with
      | false =>
        rw [hd] at hen
        change displayEnable s.now s.ports s.disp true = some (p, d) at e1
        unfold displayEnable at e1
        rw [if_pos (by rw [hen]; rfl)] at e1
        cases e1
        refine Or.inl ⟨rfl, rfl, ?_, hd.symm⟩
        have := hi.tx
        rw [hd] at this
        show { s.ports with v := { s.ports.v with txen := false } } = s.ports
        rw [← this]
      | true =>
        rw [hd] at hen
        obtain ⟨dg, e', -⟩ := displayOn_eq s.now s.ports (d := s.disp) hen
        change displayEnable s.now s.ports s.disp true = some (p, d) at e1
        rw [e'] at e1
        cases e1
        refine Or.inr (Or.inr ⟨hb, hd, rfl, rfl, rfl, fun k => ?_⟩)
        have hoff : AllOff s.ports.v := fun k => by
          cases hk : DriverOn s.ports.v k with
          | false => rfl
          | true => exact absurd ((hi.drv k hk).1.symm.trans hen) (by decide)
        exact (driverOn_txen _ false k).trans ((displayOn_calm hoff).off hoff k)
  · cases e
    exact Or.inl (DispKept.refl _)

theorem Turn.then {b : Button} {s' : Sys} (h : Turn b a s) (h' : DispKept s s') : Turn b a s' := by
  rcases h with h | ⟨h1, h2, h3⟩ | ⟨h1, h2, h3, h4⟩
  · exact Or.inl (h.trans h')
  · exact Or.inr (Or.inl ⟨h1, h'.debugEn.trans h2, h'.now.trans h3⟩)
  · exact Or.inr (Or.inr ⟨h1, h2, h'.debugEn.trans h3, h'.now.trans h4.now, by rw [h'.disp]; exact h4.timer,
      by rw [h'.ports]; exact h4.off⟩)

theorem DispKept.then {b : Button} {s' : Sys} (h : DispKept a s) (h' : Turn b s s') : Turn b a s' := by
  rcases h' with h' | ⟨h1, h2, h3⟩ | ⟨h1, h2, h3, h4⟩
  · exact Or.inl (h.trans h')
  · exact Or.inr (Or.inl ⟨h1, h2, h3.trans h.now⟩)
  · exact Or.inr (Or.inr ⟨h1, h.debugEn.symm.trans h2, h3, h4.now.trans h.now, h4.timer.trans h.now, h4.off⟩)

theorem turn_menuButtonScreen (hi : Inv c s) (b : Button) (e : BState) :
    Post (menuButtonScreen c s b e) (Turn b s) := by
  have same : ∀ {m : Option Sys}, Post m (DispKept s) → Post m (Turn b s) := fun h => h.mono fun _ h => Or.inl h
  have h0 := DispKept.refl s
  unfold Verif.menuButtonScreen
  split
  · refine same (Post.bind (h0.startRampingButton b e _ _) fun s2 h2 => ?_)
    split
    · exact h2.menuSetState _
    · exact Post.pure h2
  · refine same (Post.bind (h0.menuArm _) fun s2 h2 => ?_)
    have store : ∀ x : Settings, Post (presetsStore (Verif.setCache s2 x)) (DispKept s) := fun x =>
      (h2.setCache x).presetsStore
    cases e
    · simp only [reduceCtorEq, if_false, pure_bind]; exact h2.startRampingButton b _ _ _
    · simp only [if_true]
      cases b <;> simp only [reduceCtorEq, if_false, if_true, pure_bind]
      · exact h2.startRampingButton _ _ _ _
      · exact Post.bind (store _) fun s3 h3 => h3.startRampingButton _ _ _ _
      · exact Post.bind (store _) fun s3 h3 => h3.startRampingButton _ _ _ _
      · exact h2.startRampingButton _ _ _ _
    · simp only [reduceCtorEq, if_false, pure_bind]; exact h2.startRampingButton b _ _ _
  · exact same (Post.bind (h0.menuArm _) fun s2 h2 => h2.startRampingButton b e _ _)
  · split
    · exact same (Post.pure h0)
    · exact same (Post.bind (h0.menuArm _) fun s2 h2 => h2.startRampingButton b e _ _)
  · split
    · exact same (Post.pure h0)
    · split
      · simp only []
        by_cases hp : b = .plus
        · rw [if_pos hp]
          refine Post.bind (turn_debugEnable (en := true) hi.disp hp) fun s3 h3 => ?_
          rw [if_neg (by rw [hp]; decide)]
          exact Post.pure (h3.then { DispKept.refl s3 with })
        · rw [if_neg hp, pure_bind]
          split
          · rename_i hm
            exact Post.bind (turn_debugEnable (en := false) hi.disp hm) fun s3 h3 =>
              Post.pure (h3.then { DispKept.refl s3 with })
          · exact same (Post.pure h0)
      · exact same (Post.pure h0)
  all_goals first
    | exact same (Post.pure h0)
    | (split
       · exact same (Post.pure h0)
       · exact same (h0.startRampingButton b e _ _))

theorem turn_menuButton (hi : Inv c s) (b : Button) (e : BState) : Post (menuButton c s b e) (Turn b s) := by
  unfold Verif.menuButton
  split
  · exact Post.pure (Or.inl (DispKept.refl _))
  · refine Post.bind (turn_menuButtonScreen hi b e) fun s2 h2 => ?_
    split
    · simp only []
      split
      · split
        · have h3 : DispKept s2 (stopRamping s2) := { DispKept.refl s2 with }
          exact (h3.menuSetState _).mono fun s4 h4 => h2.then h4
        · exact Post.pure (h2.then { DispKept.refl s2 with })
      · exact Post.pure (h2.then { DispKept.refl s2 with })
    · exact Post.pure h2

theorem still_contrtempButton (b : Button) (e : BState) : Post (contrtempButton c s b e) (DispKept s) := by
  have boost : ∀ s2 : Sys, DispKept s s2 → Post (contrtempNextBoost c s2) (DispKept s) := fun s2 h2 => h2.setBoost _
  have idle : ∀ (s2 : Sys) x, DispKept s s2 → Post (contrtempDoIdle s2 x) (DispKept s) := by
    intro s2 x h2
    unfold contrtempDoIdle contrtempUpdateSetpoint
    exact Post.bind (P := DispKept s) (Post.bindAny fun sp => Post.pure { h2 with }) fun s3 h3 => Post.pure { h3 with }
  have h0 := DispKept.refl s
  unfold Verif.contrtempButton
  split
  · split
    · exact Post.pure h0
    · have tail : ∀ s2 : Sys, DispKept s s2 → Post (if s2.ct.biLet = true then
          if s.ct.idle = true ∨ e = .pressed ∧ timerExpired s2.now s2.ct.biTimer = true then do
            let s ← contrtempDoIdle s2 !s.ct.idle
            pure { s with ct := { s.ct with biLet := false } }
          else if e = .negedge then do
            let s ← contrtempNextBoost c s2
            pure { s with ct := { s.ct with biLet := false } }
          else pure s2
        else pure s2) (DispKept s) := by
        intro s2 h2
        split
        · split
          · exact Post.bind (idle s2 _ h2) fun s3 h3 => Post.pure { h3 with }
          · split
            · exact Post.bind (boost s2 h2) fun s3 h3 => Post.pure { h3 with }
            · exact Post.pure h2
        · exact Post.pure h2
      cases e
      · simp only [if_true]
        exact Post.bindAny fun t => tail { s with ct := { s.ct with biTimer := t, biLet := true } } { h0 with }
      · exact tail s h0
      · exact tail s h0
  · split
    · exact Post.pure h0
    · split
      · exact boost s h0
      · exact Post.pure h0
  · split
    · exact Post.pure h0
    · simp only []
      generalize (if c.idleToggle = true then _ else _ : Bool) = x
      split
      · exact idle s _ h0
      · exact Post.pure h0
  · exact Post.pure h0

theorem turn_call (hi : Inv c s) (x : Button × BState) :
    Post (callButtonHandlers c s x) fun s' => Inv c s' ∧ Turn x.1 s s' := by
  unfold callButtonHandlers
  refine Post.bind (P := fun s1 => Inv c s1 ∧ DispKept s s1)
    (fun s1 e => ⟨(hi.ironButton x.1 x.2).elim e, still_contrtempButton _ _ s1 e⟩) fun s1 ⟨i1, h1⟩ => ?_
  exact fun s2 e => ⟨(i1.menuButton x.1 x.2).elim e, h1.then (turn_menuButton i1 x.1 x.2 s2 e)⟩

/-- The steps until plus: the display remains as it is, or is switched on. -/
def Early (a s : Sys) : Prop := DispKept a s ∨ (a.debugEn = true ∧ s.debugEn = false ∧ JustOn a s)

theorem Early.then {s' : Sys} (h : Early a s) (h' : Early s s') : Early a s' := by
  rcases h with h | ⟨h1, h2, h3⟩
  · rcases h' with h' | ⟨k1, k2, k3⟩
    · exact Or.inl (h.trans h')
    · exact Or.inr ⟨h.debugEn.symm.trans k1, k2, k3.now.trans h.now, k3.timer.trans h.now, k3.off⟩
  · rcases h' with h' | ⟨k1, -⟩
    · exact Or.inr ⟨h1, h'.debugEn.trans h2, h'.now.trans h3.now, by rw [h'.disp]; exact h3.timer,
        by rw [h'.ports]; exact h3.off⟩
    · rw [h2] at k1; cases k1

theorem calls_early (l : List (Button × BState)) (hl : ∀ x ∈ l, x.1 ≠ .plus) :
    ∀ {s : Sys}, Inv c s → Post (l.foldlM (callButtonHandlers c) s) fun s' => Inv c s' ∧ Early s s' := by
  induction l with
  | nil => intro s hi; exact Post.pure ⟨hi, Or.inl (DispKept.refl _)⟩
  | cons x l ih =>
    intro s hi
    rw [List.foldlM_cons]
    refine Post.bind (P := fun s2 => Inv c s2 ∧ Early s s2) (fun s2 e => ⟨(turn_call hi x s2 e).1, ?_⟩)
      fun s2 ⟨i2, h2⟩ => (ih (fun y hy => hl y (List.mem_cons_of_mem _ hy)) i2).mono fun s3 h3 => ⟨h3.1, h2.then h3.2⟩
    rcases (turn_call hi x s2 e).2 with h | ⟨h, -⟩ | ⟨-, h⟩
    · exact Or.inl h
    · exact absurd h (hl x List.mem_cons_self)
    · exact Or.inr h

/-- The steps from plus on: the display remains as it is, or is switched off. -/
def Late (a s : Sys) : Prop := DispKept a s ∨ s.debugEn = true

theorem calls_late (l : List (Button × BState)) (hl : ∀ x ∈ l, x.1 ≠ .minus) :
    ∀ {s : Sys}, Inv c s → Post (l.foldlM (callButtonHandlers c) s) (Late s) := by
  induction l with
  | nil => intro s hi; exact Post.pure (Or.inl (DispKept.refl _))
  | cons x l ih =>
    intro s hi
    rw [List.foldlM_cons]
    refine Post.bind (P := fun s2 => Inv c s2 ∧ Late s s2) (fun s2 e => ⟨(turn_call hi x s2 e).1, ?_⟩)
      fun s2 ⟨i2, h2⟩ => (ih (fun y hy => hl y (List.mem_cons_of_mem _ hy)) i2).mono fun s3 h3 => ?_
    · rcases (turn_call hi x s2 e).2 with h | ⟨-, h, -⟩ | ⟨h, -⟩
      · exact Or.inl h
      · exact Or.inr h
      · exact absurd h (hl x List.mem_cons_self)
    · rcases h3 with h3 | h3
      · rcases h2 with h2 | h2
        · exact Or.inl (h2.trans h3)
        · exact Or.inr (h3.debugEn.trans h2)
      · exact Or.inr h3

/-- sampling the buttons leaves the display as it is, switches it off, or on -/
theorem buttonsWork_turn (hi : Inv c s) (pinb : BitVec 8) : Post (buttonsWork c s pinb) fun s' =>
    s'.debugEn = true ∨ Early s s' := by
  unfold Verif.buttonsWork
  refine Post.bind (P := fun x => ∃ l l', x.2 = l ++ l' ∧ (∀ y ∈ l, y.1 ≠ Button.plus) ∧ ∀ y ∈ l', y.1 ≠ Button.minus)
    ?_ fun x ⟨l, l', hx, hl, hl'⟩ => ?_
  · rintro ⟨b, l⟩ e
    unfold buttonsSample at e
    split at e
    · cases e
      exact ⟨[], [], rfl, by simp, by simp⟩
    · obtain ⟨t, et, e⟩ := Option.bind_eq_some_iff.mp e
      cases e
      simp only []
      rw [buttonCalls_eq]
      refine ⟨[Button.set, .minus].flatMap fun b =>
        (pressCalls (s.btn.prev.getLsbD (buttonPin b)) (!pinb.getLsbD (buttonPin b))).map fun e => (b, e),
        [Button.plus, .iron].flatMap fun b =>
        (pressCalls (s.btn.prev.getLsbD (buttonPin b)) (!pinb.getLsbD (buttonPin b))).map fun e => (b, e), ?_, ?_, ?_⟩
      · rw [← List.flatMap_append]; rfl
      · intro y hy
        simp only [List.mem_flatMap, List.mem_map, List.mem_cons, List.not_mem_nil, or_false] at hy
        obtain ⟨b, hb, e, -, rfl⟩ := hy
        rcases hb with rfl | rfl <;> simp
      · intro y hy
        simp only [List.mem_flatMap, List.mem_map, List.mem_cons, List.not_mem_nil, or_false] at hy
        obtain ⟨b, hb, e, -, rfl⟩ := hy
        rcases hb with rfl | rfl <;> simp
  · have i1 : Inv c { s with btn := x.1 } := { hi with }
    have h1 : DispKept s { s with btn := x.1 } := { DispKept.refl s with }
    obtain ⟨b, lb⟩ := x
    have hx : lb = l ++ l' := hx
    subst hx
    simp only [List.foldlM_append]
    refine Post.bind (calls_early l hl i1) fun s2 ⟨i2, h2⟩ => (calls_late l' hl' i2).mono fun s3 h3 => ?_
    have h2 : Early s s2 := Early.then (Or.inl h1) h2
    rcases h3 with h3 | h3
    · exact Or.inr (h2.then (Or.inl h3))
    · exact Or.inl h3

/-! ### the work functions -/

theorem still_menuTimeouts : Post (menuTimeouts c s) (DispKept s) := by
  have h0 := DispKept.refl s
  unfold Verif.menuTimeouts
  split
  all_goals first
    | exact Post.pure h0
    | skip
  all_goals
    split
    · try split
      all_goals exact Post.bind (h0.menuSetState _) fun s2 h2 => Post.pure { h2 with }
    · exact Post.pure h0

theorem still_menuIndicate : DispKept s (menuIndicate s) := by
  have h0 := DispKept.refl s
  unfold Verif.menuIndicate
  simp only []
  split
  · split <;> exact { h0 with }
  · split <;> exact { h0 with }

theorem still_menuRamp : Post (menuRamp c s) (DispKept s) := by
  have h0 := DispKept.refl s
  unfold Verif.menuRamp
  split
  · exact Post.pure h0
  all_goals
    split
    · first
        | exact h0.startRamping _ _ _
        | exact Post.bindAny fun r => Post.bind (h0.rampHandler r _) fun s2 h2 =>
            Post.bindAny fun t => Post.pure { h2 with }
    · exact Post.pure h0

/-- nothing of the display has changed but the text -/
structure Lit (a s : Sys) : Prop where
  debugEn : s.debugEn = a.debugEn
  ports : s.ports = a.ports
  mux : s.disp.mux = a.disp.mux
  timer : s.disp.muxTimer = a.disp.muxTimer

theorem DispKept.lit (h : DispKept a s) : Lit a s := ⟨h.debugEn, h.ports, by rw [h.disp], by rw [h.disp]⟩

theorem showFrom_lit : ∀ (n i : Nat) {d d' : Display} {t : List (Option (BitVec 8))}, showFrom d t n i = some d' →
    d'.mux = d.mux ∧ d'.muxTimer = d.muxTimer ∧ d'.enabled = d.enabled := by
  intro n
  induction n with
  | zero => intro i d d' t h; cases h; exact ⟨rfl, rfl, rfl⟩
  | succ n ih =>
    intro i d d' t h
    unfold showFrom at h
    split at h
    · obtain ⟨⟨ch, t'⟩, -, h⟩ := Option.bind_eq_some_iff.mp h
      obtain ⟨g, -, h⟩ := Option.bind_eq_some_iff.mp h
      obtain ⟨k1, k2, k3⟩ := ih _ h
      exact ⟨k1, k2, k3⟩
    · cases h

/-- updating the text changes nothing else of the display -/
theorem menuUpdateDisplay_lit : Post (menuUpdateDisplay c s) fun s' =>
    s'.now = s.now ∧ Lit s s' ∧ s'.disp.enabled = s.disp.enabled := by
  intro s' e
  unfold menuUpdateDisplay at e
  obtain ⟨⟨b, heat⟩, -, e⟩ := Option.bind_eq_some_iff.mp e
  obtain ⟨d, e1, e⟩ := Option.bind_eq_some_iff.mp e
  obtain ⟨d', e2, e⟩ := Option.bind_eq_some_iff.mp e
  cases e
  obtain ⟨k1, k2, k3⟩ := showFrom_lit 4 0 e2
  unfold displayForceDp at e1
  rw [dif_pos (by decide)] at e1
  cases e1
  exact ⟨rfl, ⟨rfl, rfl, k1, k2⟩, k3⟩

theorem lit_menuWork : Post (menuWork c s) (Lit s) := by
  unfold Verif.menuWork
  refine Post.bind still_menuTimeouts fun s1 h1 => ?_
  have h2 := h1.trans (still_menuIndicate (s := s1))
  simp only []
  refine Post.bind (P := DispKept s) (still_menuRamp.mono fun s3 h3 => h2.trans h3) fun s3 h3 => ?_
  unfold menuRefresh
  split
  · intro s4 e
    obtain ⟨-, k, -⟩ := menuUpdateDisplay_lit _ e
    exact ⟨k.debugEn.trans h3.debugEn, k.ports.trans h3.ports, k.mux.trans (congrArg Display.mux h3.disp :),
      k.timer.trans (congrArg Display.muxTimer h3.disp :)⟩
  · exact Post.pure h3.lit

/-- what a step other than `display_work` does to the display -/
theorem step_lit {s' : Sys} {e : Ev} (hi : Inv c s) (hs : step c s e = some s') (hn : e ≠ .displayWork) :
    Lit s s' ∨ (∃ pinb, e = .buttonsWork pinb ∧
      (s'.debugEn = true ∨ (s.debugEn = true ∧ s'.debugEn = false ∧ JustOn s s'))) := by
  cases e with
  | tick => cases hs; exact Or.inl ⟨rfl, rfl, rfl, rfl⟩
  | adc raw => cases hs; exact Or.inl ⟨rfl, rfl, rfl, rfl⟩
  | eeIsr =>
    obtain ⟨st, -, hs⟩ := Option.bind_eq_some_iff.mp hs
    cases hs
    exact Or.inl ⟨rfl, rfl, rfl, rfl⟩
  | eeDone => cases hs; exact Or.inl ⟨rfl, rfl, rfl, rfl⟩
  | measureWork =>
    rcases measureWork_eff hi hs with ⟨-, h⟩ | ⟨-, p, pl, h⟩
    · rw [h]; exact Or.inl ⟨rfl, rfl, rfl, rfl⟩
    · exact Or.inl ⟨h.debugEn, h.ports, by rw [h.disp], by rw [h.disp]⟩
  | menuWork => exact Or.inl (lit_menuWork _ hs)
  | displayWork => exact absurd rfl hn
  | buttonsWork pinb =>
    rcases buttonsWork_turn hi pinb _ hs with h | h | h
    · exact Or.inr ⟨pinb, rfl, Or.inl h⟩
    · exact Or.inl h.lit
    · exact Or.inr ⟨pinb, rfl, Or.inr h⟩
  | settingsWork => cases hs; exact Or.inl ⟨rfl, rfl, rfl, rfl⟩

end Verif
