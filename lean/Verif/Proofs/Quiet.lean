import Verif.Model.Main
/-
What the menu, the buttons and the presets leave alone: the heater output, the measurement and
the emergency states.
-/
namespace Verif

/-- if `m` is defined then its result satisfies `Q` -/
def Post {α : Type _} (m : Option α) (Q : α → Prop) : Prop := ∀ a, m = some a → Q a

theorem Post.pure {α : Type _} {a : α} {Q : α → Prop} (h : Q a) : Post (some a) Q := by
  intro b e; cases e; exact h

theorem Post.none {α : Type _} {Q : α → Prop} : Post (none : Option α) Q := by
  intro b e; cases e

theorem Post.bind {α β : Type _} {m : Option α} {f : α → Option β} {P : α → Prop} {Q : β → Prop}
    (hm : Post m P) (hf : ∀ a, P a → Post (f a) Q) : Post (m >>= f) Q := by
  intro b e
  cases hh : m with
  | none => rw [hh] at e; cases e
  | some a => rw [hh] at e; exact hf a (hm a hh) b e

theorem Post.bindAny {α β : Type _} {m : Option α} {f : α → Option β} {Q : β → Prop}
    (hf : ∀ a, Post (f a) Q) : Post (m >>= f) Q :=
  Post.bind (P := fun _ => True) (fun _ _ => trivial) fun a _ => hf a

theorem Post.mono {α : Type _} {m : Option α} {P Q : α → Prop} (hm : Post m P)
    (h : ∀ a, P a → Q a) : Post m Q := fun a e => h a (hm a e)

/-- the measurement state without the user's adjustment -/
def stripAdj (m : Meas) : Meas := { m with chan := m.chan.map fun ch => { ch with adj := 0 } }

/-- the current controller's state without its set point -/
def stripSp (cc : ContrCurr) : ContrCurr := { cc with pid := { cc.pid with setpoint := 0 } }

/-- heater output, measurement and emergency states are the same; the current set point and whether
    the temperature controller is enabled are the same, or the set point is 0; the temperature
    controller's memory is the same or cleared -/
structure Quiet (s s' : Sys) : Prop where
  now : s'.now = s.now
  ocr : s'.ocr = s.ocr
  mtPrev : s'.mtPrev = s.mtPrev
  mcurr : s'.mcurr = s.mcurr
  emerg : s'.ct.emergency = s.ct.emergency
  feedback : s'.ct.feedback = s.ct.feedback
  cc : stripSp s'.cc = stripSp s.cc
  sp : (s'.cc.pid.setpoint = s.cc.pid.setpoint ∧ s'.ct.enabled = s.ct.enabled) ∨ s'.cc.pid.setpoint = 0
  meas : stripAdj s'.meas = stripAdj s.meas
  mem : ((s'.ct.pid.integr = s.ct.pid.integr ∧ s'.ct.pid.prevE = s.ct.pid.prevE) ∧
      s'.ct.enabled = s.ct.enabled ∧ s'.ct.boost = s.ct.boost) ∨
    (s'.ct.pid.integr = 0 ∧ s'.ct.pid.prevE = 0)

theorem Quiet.refl (s : Sys) : Quiet s s :=
  ⟨rfl, rfl, rfl, rfl, rfl, rfl, rfl, Or.inl ⟨rfl, rfl⟩, rfl, Or.inl ⟨⟨rfl, rfl⟩, rfl, rfl⟩⟩

theorem Quiet.menuRequestUpdate {a s : Sys} (h : Quiet a s) : Quiet a (menuRequestUpdate s) := { h with }

theorem Quiet.setCache {a s : Sys} (h : Quiet a s) (x : Settings) : Quiet a (setCache s x) := { h with }

theorem Quiet.sysStore {a s : Sys} (h : Quiet a s) : Post (sysStore s) (Quiet a) := by
  unfold Verif.sysStore
  exact Post.bindAny fun set => Post.pure { h with }

theorem Quiet.setBoost {a s : Sys} (h : Quiet a s) (c : Conf) (mode : Nat) :
    Post (contrtempSetBoost c s mode) (Quiet a) := by
  unfold contrtempSetBoost
  refine Post.bindAny fun k => ?_
  simp only []
  split
  · exact Post.pure { h with mem := Or.inr ⟨rfl, rfl⟩ }
  · exact Post.pure { h with mem := Or.inr ⟨rfl, rfl⟩ }

theorem Quiet.updateSetpoint {a s : Sys} (h : Quiet a s) :
    Post (contrtempUpdateSetpoint s) (Quiet a) := by
  unfold contrtempUpdateSetpoint
  exact Post.bindAny fun sp => Post.pure { h with }

theorem Quiet.setIdleSetpoint {a s : Sys} (h : Quiet a s) (c : Conf) (w : Int) :
    Post (contrtempSetIdleSetpoint c s w) (Quiet a) := by
  unfold contrtempSetIdleSetpoint
  split
  · exact Post.bind (h.setCache _).updateSetpoint fun _ h => h.sysStore
  · exact Post.pure h

theorem Quiet.setEnabled {a s : Sys} (h : Quiet a s) (c : Conf) (en : Bool) :
    Post (contrtempSetEnabled c s en) (Quiet a) := by
  unfold contrtempSetEnabled
  split
  · unfold contrtempDoSetEnabled contrtempSetBoost
    refine Post.bind (P := fun s2 => ∃ pid b u, (pid.integr = 0 ∧ pid.prevE = 0) ∧ s2 = { s with
      ct := { s.ct with enabled := en, dtTimer := timerSetNow s.now, pid := pid, boost := b },
      menu := { s.menu with updReq := u } }) (Post.bindAny fun k => ?_) ?_
    · simp only []
      split
      · exact Post.pure ⟨_, _, _, ⟨rfl, rfl⟩, rfl⟩
      · exact Post.pure ⟨_, _, _, ⟨rfl, rfl⟩, rfl⟩
    · rintro s2 ⟨pid, b, u, hz, rfl⟩
      exact Post.pure { h with cc := h.cc, sp := Or.inr rfl, mem := Or.inr hz }
  · exact Post.pure h

theorem Quiet.nextBoost {a s : Sys} (h : Quiet a s) (c : Conf) :
    Post (contrtempNextBoost c s) (Quiet a) := h.setBoost c _

theorem Quiet.doIdle {a s : Sys} (h : Quiet a s) (b : Bool) :
    Post (contrtempDoIdle s b) (Quiet a) := by
  unfold contrtempDoIdle
  have h1 : Quiet a { s with ct := { s.ct with idle := b } } := { h with }
  exact Post.bind h1.updateSetpoint fun s2 h2 => Post.pure h2.menuRequestUpdate

theorem Quiet.ironButton {a s : Sys} (h : Quiet a s) (c : Conf) (b : Button) (e : BState) :
    Post (contrtempButton c s b e) (Quiet a) := by
  have tail : ∀ {s : Sys}, Quiet a s → ∀ idle : Bool,
      Post (if s.ct.biLet then
        if idle ∨ (e = .pressed ∧ timerExpired s.now s.ct.biTimer) then do
          let s ← contrtempDoIdle s !idle
          return { s with ct := { s.ct with biLet := false } }
        else if e = .negedge then do
          let s ← contrtempNextBoost c s
          return { s with ct := { s.ct with biLet := false } }
        else return s
      else return s) (Quiet a) := by
    intro s h idle
    split
    · split
      · exact Post.bind (h.doIdle _) fun s2 h2 => Post.pure { h2 with }
      · split
        · exact Post.bind (h.nextBoost c) fun s2 h2 => Post.pure { h2 with }
        · exact Post.pure h
    · exact Post.pure h
  unfold contrtempButton
  split
  · simp only []
    split
    · exact Post.pure h
    · split
      · refine Post.bindAny fun t => ?_
        exact Post.bind (P := Quiet a) (Post.pure { h with }) fun s2 h2 => tail h2 s.ct.idle
      · exact Post.bind (P := Quiet a) (Post.pure h) fun s2 h2 => tail h2 s.ct.idle
  · split
    · exact Post.pure h
    · split
      · exact h.nextBoost c
      · exact Post.pure h
  · split
    · exact Post.pure h
    · simp only []
      have : ∀ x : Bool, Post (if x ≠ s.ct.idle then contrtempDoIdle s x else some s) (Quiet a) := by
        intro x
        split
        · exact h.doIdle _
        · exact Post.pure h
      repeat' split
      all_goals first
        | exact h.doIdle _
        | exact Post.pure h
        | exact this _
  · exact Post.pure h

theorem Quiet.presetsStore {a s : Sys} (h : Quiet a s) : Post (presetsStore s) (Quiet a) := by
  unfold Verif.presetsStore
  exact Post.bind h.sysStore fun s2 h2 => Post.bind h2.updateSetpoint fun s3 h3 =>
    Post.pure h3.menuRequestUpdate

theorem Quiet.presetsSetActive {a s : Sys} (h : Quiet a s) (v : Int) :
    Post (presetsSetActive s v) (Quiet a) := by
  unfold Verif.presetsSetActive
  exact Post.bindAny fun x => (h.setCache x).presetsStore

theorem stripAdj_set (m : Meas) (v : Int) :
    stripAdj { m with chan := m.chan.set 1 { m.chan[1] with adj := v } } = stripAdj m := by
  unfold stripAdj
  simp only [Meas.mk.injEq, and_true]
  apply Vector.ext
  intro i hi
  simp only [Vector.getElem_map, Vector.getElem_set]
  split
  · rename_i e; subst e; rfl
  · rfl

theorem Quiet.adjustSet {a s : Sys} (h : Quiet a s) (c : Conf) (v : Int) :
    Post (meastempAdjustSet c s v) (Quiet a) := by
  unfold meastempAdjustSet
  split
  · rename_i hc
    have h1 : Quiet a (measureAdjustSet c s v) := by
      unfold measureAdjustSet
      rw [if_pos hc]
      exact { h with meas := (stripAdj_set s.meas v).trans h.meas }
    exact Post.bind (h1.setCache _).sysStore fun s2 h2 => Post.pure h2.menuRequestUpdate
  · exact Post.pure h

theorem Quiet.menuArm {a s : Sys} (h : Quiet a s) (ms : Int) : Post (menuArm s ms) (Quiet a) := by
  unfold Verif.menuArm
  exact Post.bindAny fun t => Post.pure { h with }

theorem Quiet.menuEnter {a s : Sys} (h : Quiet a s) (c : Conf) (t : MenuState) :
    Post (menuEnter c s t) (Quiet a) := by
  cases t <;> simp only [Verif.menuEnter]
  case curtemp => exact h.setEnabled c _
  case selpreset => exact h.menuArm _
  case chgpreset => exact h.menuArm _
  case idletemp => exact h.menuArm _
  case debug => exact Post.pure h
  all_goals split
  all_goals first
    | exact Post.pure h
    | exact h.setEnabled c _
    | exact Post.bind (h.menuArm _) fun s2 h2 => h2.setEnabled c _

theorem Quiet.menuSetState {a s : Sys} (h : Quiet a s) (c : Conf) (t : MenuState) :
    Post (menuSetState c s t) (Quiet a) := by
  unfold Verif.menuSetState
  split
  · exact Post.pure h
  · have h1 : Quiet a { s with menu := { s.menu with state := t } } := { h with }
    exact Post.bind (h1.menuEnter c t) fun s2 h2 => Post.pure h2.menuRequestUpdate

theorem Quiet.rampK {a s : Sys} (h : Quiet a s) (c : Conf) (get : PidK → Int) (put : PidK → Int → PidK)
    (inc hi : Int) (up : Bool) : Post (doRampK c s get put inc hi up) (Quiet a) := by
  unfold doRampK
  simp only []
  split
  · split
    all_goals
      refine Post.bindAny fun x => Post.bindAny fun v => ?_
      exact Post.bind (h.setCache _).sysStore fun s2 h2 => h2.setBoost c _
  · exact Post.none

theorem Quiet.rampHandler {a s : Sys} (h : Quiet a s) (c : Conf) (r : RampHandler) (up : Bool) :
    Post (rampHandler c s r up) (Quiet a) := by
  cases r <;> simp only [Verif.rampHandler]
  · exact Post.bindAny fun sp => Post.bindAny fun v => Post.bind (h.presetsSetActive v) fun s2 h2 =>
      h2.menuSetState c _
  · exact Post.bindAny fun sp => h.setIdleSetpoint c _
  · exact Post.bindAny fun v => h.adjustSet c v
  · exact h.rampK c _ _ _ _ _
  · exact h.rampK c _ _ _ _ _
  · exact h.rampK c _ _ _ _ _

theorem Quiet.startRamping {a s : Sys} (h : Quiet a s) (up pre : Bool) (r : Option RampHandler) :
    Post (startRamping s up pre r) (Quiet a) := by
  unfold Verif.startRamping
  split
  · refine Post.bindAny fun m => Post.pure { h with }
  · exact Post.pure { h with }

theorem Quiet.startRampingButton {a s : Sys} (h : Quiet a s) (b : Button) (e : BState) (pre : Bool)
    (r : RampHandler) : Post (startRampingButton s b e pre r) (Quiet a) := by
  unfold Verif.startRampingButton
  split
  · split
    · exact h.startRamping _ _ _
    · split
      · exact h.startRamping _ _ _
      · exact Post.pure h
  · exact Post.pure h

theorem Quiet.debugEnable {a s : Sys} (h : Quiet a s) (c : Conf) (en : Bool) :
    Post (debugEnable c s en) (Quiet a) := by
  unfold Verif.debugEnable
  split
  · exact Post.bindAny fun pd => Post.pure { h with }
  · exact Post.pure h

theorem Quiet.menuButtonScreen {a s : Sys} (h : Quiet a s) (c : Conf) (b : Button) (e : BState) :
    Post (menuButtonScreen c s b e) (Quiet a) := by
  have opt : ∀ {m : Option Sys} {p : Prop} [Decidable p] {s : Sys}, Post m (Quiet a) → Quiet a s →
      Post (if p then m else Pure.pure s) (Quiet a) := by
    intro m p _ s h1 h2
    split
    · exact h1
    · exact Post.pure h2
  unfold Verif.menuButtonScreen
  split
  · exact Post.bind (h.startRampingButton b e _ _) fun s2 h2 => opt (h2.menuSetState c _) h2
  · refine Post.bind (h.menuArm _) fun s2 h2 => ?_
    cases e
    · simp only [reduceCtorEq, if_false, pure_bind]; exact h2.startRampingButton b _ _ _
    · simp only [if_true]
      cases b <;> simp only [reduceCtorEq, if_false, if_true, pure_bind]
      · exact h2.startRampingButton _ _ _ _
      · exact Post.bind (h2.setCache _).presetsStore fun s3 h3 => h3.startRampingButton _ _ _ _
      · exact Post.bind (h2.setCache _).presetsStore fun s3 h3 => h3.startRampingButton _ _ _ _
      · exact h2.startRampingButton _ _ _ _
    · simp only [reduceCtorEq, if_false, pure_bind]; exact h2.startRampingButton b _ _ _
  · exact Post.bind (h.menuArm _) fun s2 h2 => h2.startRampingButton b e _ _
  · split
    · exact Post.pure h
    · exact Post.bind (h.menuArm _) fun s2 h2 => h2.startRampingButton b e _ _
  · split
    · exact Post.pure h
    · split
      · cases b <;> simp only [reduceCtorEq, if_false, if_true, pure_bind]
        · exact Post.pure h
        · exact Post.bind (h.debugEnable c _) fun s3 h3 => Post.pure h3.menuRequestUpdate
        · exact Post.bind (h.debugEnable c _) fun s3 h3 => Post.pure h3
        · exact Post.pure h
      · exact Post.pure h
  all_goals first
    | exact Post.pure h
    | (split
       · exact Post.pure h
       · exact h.startRampingButton b e _ _)

theorem Quiet.stopRamping {a s : Sys} (h : Quiet a s) : Quiet a (stopRamping s) := { h with }

theorem Quiet.menuButton {a s : Sys} (h : Quiet a s) (c : Conf) (b : Button) (e : BState) :
    Post (menuButton c s b e) (Quiet a) := by
  unfold Verif.menuButton
  split
  · exact Post.pure h
  · refine Post.bind (h.menuButtonScreen c b e) fun s2 h2 => ?_
    split
    · simp only []
      split
      · split
        · exact h2.stopRamping.menuSetState c _
        · exact Post.pure h2.stopRamping
      · exact Post.pure h2.stopRamping
    · exact Post.pure h2

theorem Quiet.menuTimeouts {a s : Sys} (h : Quiet a s) (c : Conf) : Post (menuTimeouts c s) (Quiet a) := by
  unfold Verif.menuTimeouts
  split
  all_goals first
    | exact Post.pure h
    | (split
       · first
         | exact Post.bind (h.menuSetState c _) fun s2 h2 => Post.pure h2.stopRamping
         | split
           · exact Post.bind (h.menuSetState c _) fun s2 h2 => Post.pure h2.stopRamping
           · exact Post.bind (h.menuSetState c _) fun s2 h2 => Post.pure h2.stopRamping
       · exact Post.pure h)

theorem Quiet.menuIndicate {a s : Sys} (h : Quiet a s) : Quiet a (menuIndicate s) := by
  unfold Verif.menuIndicate
  simp only []
  split
  · split
    · exact { h with }
    · exact { h with }
  · split
    · exact { h with }
    · exact h

theorem Quiet.menuRamp {a s : Sys} (h : Quiet a s) (c : Conf) : Post (menuRamp c s) (Quiet a) := by
  unfold Verif.menuRamp
  split
  · exact Post.pure h
  all_goals
    split
    · first
        | exact h.startRamping _ _ _
        | exact Post.bindAny fun r => Post.bind (h.rampHandler c r _) fun s2 h2 =>
            Post.bindAny fun t => Post.pure { h2 with }
    · exact Post.pure h

theorem Quiet.menuUpdateDisplay {a s : Sys} (h : Quiet a s) (c : Conf) :
    Post (menuUpdateDisplay c s) (Quiet a) := by
  unfold Verif.menuUpdateDisplay
  exact Post.bindAny fun x => Post.bindAny fun d => Post.bindAny fun d => Post.pure { h with }

theorem Quiet.menuWork (c : Conf) (s : Sys) : Post (menuWork c s) (Quiet s) := by
  unfold Verif.menuWork
  refine Post.bind ((Quiet.refl s).menuTimeouts c) fun s1 h1 =>
    Post.bind (h1.menuIndicate.menuRamp c) fun s2 h2 => ?_
  unfold menuRefresh
  split
  · have h3 : Quiet s { s2 with menu := { s2.menu with updReq := false } } := { h2 with }
    exact h3.menuUpdateDisplay c
  · exact Post.pure h2

theorem Quiet.buttonsWork (c : Conf) (s : Sys) (pinb : BitVec 8) :
    Post (buttonsWork c s pinb) (Quiet s) := by
  have key : ∀ (l : List (Button × BState)) {s1 : Sys}, Quiet s s1 →
      Post (l.foldlM (callButtonHandlers c) s1) (Quiet s) := by
    intro l
    induction l with
    | nil => intro s1 h; exact Post.pure h
    | cons x l ih =>
      intro s1 h
      rw [List.foldlM_cons]
      refine Post.bind ?_ fun s2 h2 => ih h2
      exact Post.bind (h.ironButton c x.1 x.2) fun s1 h1 => h1.menuButton c x.1 x.2
  unfold Verif.buttonsWork
  exact Post.bindAny fun x => key _ { Quiet.refl s with }

end Verif
