import Verif.Proofs.Effects
/-
What a step does to the settings: they stay, or they are changed and a store is requested.
-/
namespace Verif
open Spec

/-- the controller factors are values of their C type -/
def KWf (x : Settings) : Prop :=
  ∀ i (h : i < 3), S24 x.k[i].kp ∧ S24 x.k[i].ki ∧ S24 x.k[i].kd ∧ S24 x.k[i].decay

/-- what no change of the settings touches, and what all of them keep -/
structure Keeps (a x : Settings) : Prop where
  serial : x.serial = a.serial
  res0 : x.res0 = a.res0
  res1 : x.res1 = a.res1
  k : KWf a → KWf x

theorem Keeps.refl (a : Settings) : Keeps a a := ⟨rfl, rfl, rfl, id⟩

/-- the settings stay, or they are changed and a store is requested -/
structure SetEff (a s : Sys) : Prop where
  now : s.now = a.now
  set : s.set = a.set ∨ ∃ x, Keeps a.set.cache x ∧ s.set = requested a.now { a.set with cache := x }

/-- the settings have been changed; a store may have been requested or not -/
structure SetTmp (a s : Sys) : Prop where
  now : s.now = a.now
  set : ∃ x, Keeps a.set.cache x ∧
    (s.set = { a.set with cache := x } ∨ s.set = requested a.now { a.set with cache := x })

theorem SetEff.refl (s : Sys) : SetEff s s := ⟨rfl, Or.inl rfl⟩

theorem SetEff.keep {a s s' : Sys} (h : SetEff a s) (h1 : s'.now = s.now) (h2 : s'.set = s.set) : SetEff a s' :=
  ⟨h1.trans h.now, by rw [h2]; exact h.set⟩

theorem SetEff.keeps {a s : Sys} (h : SetEff a s) : Keeps a.set.cache s.set.cache := by
  rcases h.set with e | ⟨x, k, e⟩
  · rw [e]; exact Keeps.refl _
  · rw [e]; exact k

theorem SetEff.setCache {a s : Sys} (h : SetEff a s) (x : Settings) (hx : Keeps s.set.cache x) :
    SetTmp a (setCache s x) := by
  have hk := h.keeps
  refine ⟨h.now, x, ⟨hx.serial.trans hk.serial, hx.res0.trans hk.res0, hx.res1.trans hk.res1,
    fun k => hx.k (hk.k k)⟩, ?_⟩
  rcases h.set with e | ⟨y, -, e⟩
  · left
    show ({ s.set with cache := x } : SettingsSt) = _
    rw [e]
  · right
    show ({ s.set with cache := x } : SettingsSt) = _
    rw [e]
    rfl

theorem SetTmp.sysStore {a s : Sys} (h : SetTmp a s) : Post (sysStore s) (SetEff a) := by
  rw [sysStore_eq]
  refine Post.pure ⟨h.now, Or.inr ?_⟩
  obtain ⟨x, k, e⟩ := h.set
  refine ⟨x, k, ?_⟩
  show requested s.now s.set = _
  rw [h.now]
  rcases e with e | e <;> rw [e] <;> rfl

theorem SetTmp.updateSetpoint {a s : Sys} (h : SetTmp a s) :
    Post (contrtempUpdateSetpoint s) (SetTmp a) := by
  unfold contrtempUpdateSetpoint
  exact Post.bindAny fun sp => Post.pure { h with }

theorem addLimited_range {x d lo hi : Int} (h1 : S24 lo) (h2 : S24 hi) :
    Post (fixptAddLimited x d lo hi) S24 := by
  unfold fixptAddLimited
  refine Post.bindAny fun y => Post.pure ?_
  unfold fixptClamp S24 at *
  simp only []
  repeat' split
  all_goals omega

theorem SetEff.menuRequestUpdate {a s : Sys} (h : SetEff a s) : SetEff a (menuRequestUpdate s) := { h with }

theorem SetEff.setBoost {a s : Sys} (h : SetEff a s) (c : Conf) (mode : Nat) :
    Post (contrtempSetBoost c s mode) (SetEff a) := by
  unfold contrtempSetBoost
  refine Post.bindAny fun k => ?_
  simp only []
  split
  · exact Post.pure { h with }
  · exact Post.pure { h with }

theorem SetEff.updateSetpoint {a s : Sys} (h : SetEff a s) :
    Post (contrtempUpdateSetpoint s) (SetEff a) := by
  unfold contrtempUpdateSetpoint
  exact Post.bindAny fun sp => Post.pure { h with }

theorem SetEff.setIdleSetpoint {a s : Sys} (h : SetEff a s) (c : Conf) (w : Int) :
    Post (contrtempSetIdleSetpoint c s w) (SetEff a) := by
  unfold contrtempSetIdleSetpoint
  split
  · exact Post.bind (h.setCache { s.set.cache with idleSp := w } ⟨rfl, rfl, rfl, id⟩).updateSetpoint fun _ h => h.sysStore
  · exact Post.pure h

theorem SetEff.setEnabled {a s : Sys} (h : SetEff a s) (c : Conf) (en : Bool) :
    Post (contrtempSetEnabled c s en) (SetEff a) := by
  unfold contrtempSetEnabled
  split
  · unfold contrtempDoSetEnabled contrtempSetBoost
    refine Post.bind (P := fun s2 => ∃ pid b u, (pid.integr = 0 ∧ pid.prevE = 0) ∧ s2 = { s with
      ct := { s.ct with enabled := en, dtTimer := timerSetNow s.now, pid := pid, boost := b },
      menu := { s.menu with updReq := u } }) (Post.bindAny fun k => ?_) ?_
    · simp only []
      split
      · exact Post.pure ⟨_, _, _, ⟨rfl, rfl⟩, rfl⟩
      · exact Post.pure ⟨_, _, _, ⟨rfl, rfl⟩, rfl⟩
    · rintro s2 ⟨pid, b, u, hz, rfl⟩
      exact Post.pure { h with }
  · exact Post.pure h

theorem SetEff.nextBoost {a s : Sys} (h : SetEff a s) (c : Conf) :
    Post (contrtempNextBoost c s) (SetEff a) := h.setBoost c _

theorem SetEff.doIdle {a s : Sys} (h : SetEff a s) (b : Bool) :
    Post (contrtempDoIdle s b) (SetEff a) := by
  unfold contrtempDoIdle
  have h1 : SetEff a { s with ct := { s.ct with idle := b } } := { h with }
  exact Post.bind h1.updateSetpoint fun s2 h2 => Post.pure h2.menuRequestUpdate

theorem SetEff.ironButton {a s : Sys} (h : SetEff a s) (c : Conf) (b : Button) (e : BState) :
    Post (contrtempButton c s b e) (SetEff a) := by
  have tail : ∀ {s : Sys}, SetEff a s → ∀ idle : Bool,
      Post (if s.ct.biLet then
        if idle ∨ (e = .pressed ∧ timerExpired s.now s.ct.biTimer) then do
          let s ← contrtempDoIdle s !idle
          return { s with ct := { s.ct with biLet := false } }
        else if e = .negedge then do
          let s ← contrtempNextBoost c s
          return { s with ct := { s.ct with biLet := false } }
        else return s
      else return s) (SetEff a) := by
    intro s h idle
    split
    · split
      · exact Post.bind (h.doIdle _) fun s2 h2 => Post.pure { h2 with }
      · split
        · exact Post.bind (h.nextBoost c) fun s2 h2 => Post.pure { h2 with }
        · exact Post.pure h
    · exact Post.pure h
  unfold contrtempButton
  split
  · simp only []
    split
    · exact Post.pure h
    · split
      · refine Post.bindAny fun t => ?_
        exact Post.bind (P := SetEff a) (Post.pure { h with }) fun s2 h2 => tail h2 s.ct.idle
      · exact Post.bind (P := SetEff a) (Post.pure h) fun s2 h2 => tail h2 s.ct.idle
  · split
    · exact Post.pure h
    · split
      · exact h.nextBoost c
      · exact Post.pure h
  · split
    · exact Post.pure h
    · simp only []
      have : ∀ x : Bool, Post (if x ≠ s.ct.idle then contrtempDoIdle s x else some s) (SetEff a) := by
        intro x
        split
        · exact h.doIdle _
        · exact Post.pure h
      repeat' split
      all_goals first
        | exact h.doIdle _
        | exact Post.pure h
        | exact this _
  · exact Post.pure h

theorem SetTmp.presetsStore {a s : Sys} (h : SetTmp a s) : Post (presetsStore s) (SetEff a) := by
  unfold Verif.presetsStore
  exact Post.bind h.sysStore fun s2 h2 => Post.bind h2.updateSetpoint fun s3 h3 =>
    Post.pure h3.menuRequestUpdate

theorem SetEff.presetsNext {a s : Sys} (h : SetEff a s) : Post (presetsNext s) (SetEff a) :=
  (h.setCache s.set.cache.presetsNext ⟨rfl, rfl, rfl, id⟩).presetsStore

theorem SetEff.presetsPrev {a s : Sys} (h : SetEff a s) : Post (presetsPrev s) (SetEff a) :=
  (h.setCache s.set.cache.presetsPrev ⟨rfl, rfl, rfl, id⟩).presetsStore

theorem SetEff.presetsSetActive {a s : Sys} (h : SetEff a s) (v : Int) :
    Post (presetsSetActive s v) (SetEff a) := by
  unfold Verif.presetsSetActive
  refine Post.bind (P := Keeps s.set.cache) ?_ fun x hx => (h.setCache x hx).presetsStore
  unfold Settings.presetsSet
  split
  · exact Post.pure ⟨rfl, rfl, rfl, id⟩
  · exact Post.none

theorem SetEff.adjustSet {a s : Sys} (h : SetEff a s) (c : Conf) (v : Int) :
    Post (meastempAdjustSet c s v) (SetEff a) := by
  unfold meastempAdjustSet
  split
  · rename_i hc
    have h1 : SetEff a (measureAdjustSet c s v) := by
      unfold measureAdjustSet
      rw [if_pos hc]
      exact { h with }
    exact Post.bind (h1.setCache { (measureAdjustSet c s v).set.cache with adj := v } ⟨rfl, rfl, rfl, id⟩).sysStore fun s2 h2 => Post.pure h2.menuRequestUpdate
  · exact Post.pure h

theorem SetEff.menuArm {a s : Sys} (h : SetEff a s) (ms : Int) : Post (menuArm s ms) (SetEff a) := by
  unfold Verif.menuArm
  exact Post.bindAny fun t => Post.pure { h with }

theorem SetEff.menuEnter {a s : Sys} (h : SetEff a s) (c : Conf) (t : MenuState) :
    Post (menuEnter c s t) (SetEff a) := by
  cases t <;> simp only [Verif.menuEnter]
  case curtemp => exact h.setEnabled c _
  case selpreset => exact h.menuArm _
  case chgpreset => exact h.menuArm _
  case idletemp => exact h.menuArm _
  case debug => exact Post.pure h
  all_goals split
  all_goals first
    | exact Post.pure h
    | exact h.setEnabled c _
    | exact Post.bind (h.menuArm _) fun s2 h2 => h2.setEnabled c _

theorem SetEff.menuSetState {a s : Sys} (h : SetEff a s) (c : Conf) (t : MenuState) :
    Post (menuSetState c s t) (SetEff a) := by
  unfold Verif.menuSetState
  split
  · exact Post.pure h
  · have h1 : SetEff a { s with menu := { s.menu with state := t } } := { h with }
    exact Post.bind (h1.menuEnter c t) fun s2 h2 => Post.pure h2.menuRequestUpdate

theorem SetEff.rampK {a s : Sys} (h : SetEff a s) (c : Conf) (get : PidK → Int) (put : PidK → Int → PidK)
    (inc hi : Int) (up : Bool) (hhi : S24 hi) (hput : ∀ k v, k.InRange → S24 v → (put k v).InRange) :
    Post (doRampK c s get put inc hi up) (SetEff a) := by
  unfold doRampK
  simp only []
  split
  · rename_i hb
    have key : ∀ v, S24 v → Keeps s.set.cache { s.set.cache with
        k := s.set.cache.k.set s.ct.boost (put s.set.cache.k[s.ct.boost] v) } := by
      intro v hv
      refine ⟨rfl, rfl, rfl, fun hk i hi => ?_⟩
      show S24 (s.set.cache.k.set s.ct.boost _)[i].kp ∧ S24 (s.set.cache.k.set s.ct.boost _)[i].ki ∧
        S24 (s.set.cache.k.set s.ct.boost _)[i].kd ∧ S24 (s.set.cache.k.set s.ct.boost _)[i].decay
      rw [Vector.getElem_set]
      split
      · exact hput _ v (hk s.ct.boost hb) hv
      · exact hk i hi
    split
    all_goals
      refine Post.bindAny fun x => Post.bind (addLimited_range (by decide) hhi) fun v hv => ?_
      exact Post.bind (h.setCache _ (key v hv)).sysStore fun s2 h2 => h2.setBoost c _
  · exact Post.none

theorem SetEff.rampHandler {a s : Sys} (h : SetEff a s) (c : Conf) (r : RampHandler) (up : Bool) :
    Post (rampHandler c s r up) (SetEff a) := by
  cases r <;> simp only [Verif.rampHandler]
  · exact Post.bindAny fun sp => Post.bindAny fun v => Post.bind (h.presetsSetActive v) fun s2 h2 =>
      h2.menuSetState c _
  · exact Post.bindAny fun sp => h.setIdleSetpoint c _
  · exact Post.bindAny fun v => h.adjustSet c v
  · exact h.rampK c _ _ _ _ _ (by decide) fun k v hk hv => ⟨hv, hk.2⟩
  · exact h.rampK c _ _ _ _ _ (by decide) fun k v hk hv => ⟨hk.1, hv, hk.2.2⟩
  · exact h.rampK c _ _ _ _ _ (by decide) fun k v hk hv => ⟨hk.1, hk.2.1, hv, hk.2.2.2⟩

theorem SetEff.startRamping {a s : Sys} (h : SetEff a s) (up pre : Bool) (r : Option RampHandler) :
    Post (startRamping s up pre r) (SetEff a) := by
  unfold Verif.startRamping
  split
  · refine Post.bindAny fun m => Post.pure { h with }
  · exact Post.pure { h with }

theorem SetEff.startRampingButton {a s : Sys} (h : SetEff a s) (b : Button) (e : BState) (pre : Bool)
    (r : RampHandler) : Post (startRampingButton s b e pre r) (SetEff a) := by
  unfold Verif.startRampingButton
  split
  · split
    · exact h.startRamping _ _ _
    · split
      · exact h.startRamping _ _ _
      · exact Post.pure h
  · exact Post.pure h

theorem SetEff.debugEnable {a s : Sys} (h : SetEff a s) (c : Conf) (en : Bool) :
    Post (debugEnable c s en) (SetEff a) := by
  unfold Verif.debugEnable
  split
  · exact Post.bindAny fun pd => Post.pure { h with }
  · exact Post.pure h

theorem SetEff.menuButtonScreen {a s : Sys} (h : SetEff a s) (c : Conf) (b : Button) (e : BState) :
    Post (menuButtonScreen c s b e) (SetEff a) := by
  have opt : ∀ {m : Option Sys} {p : Prop} [Decidable p] {s : Sys}, Post m (SetEff a) → SetEff a s →
      Post (if p then m else Pure.pure s) (SetEff a) := by
    intro m p _ s h1 h2
    split
    · exact h1
    · exact Post.pure h2
  unfold Verif.menuButtonScreen
  split
  · exact Post.bind (h.startRampingButton b e _ _) fun s2 h2 => opt (h2.menuSetState c _) h2
  · refine Post.bind (h.menuArm _) fun s2 h2 => ?_
    cases e
    · simp only [reduceCtorEq, if_false, pure_bind]; exact h2.startRampingButton b _ _ _
    · simp only [if_true]
      cases b <;> simp only [reduceCtorEq, if_false, if_true, pure_bind]
      · exact h2.startRampingButton _ _ _ _
      · exact Post.bind h2.presetsPrev fun s3 h3 => h3.startRampingButton _ _ _ _
      · exact Post.bind h2.presetsNext fun s3 h3 => h3.startRampingButton _ _ _ _
      · exact h2.startRampingButton _ _ _ _
    · simp only [reduceCtorEq, if_false, pure_bind]; exact h2.startRampingButton b _ _ _
  · exact Post.bind (h.menuArm _) fun s2 h2 => h2.startRampingButton b e _ _
  · split
    · exact Post.pure h
    · exact Post.bind (h.menuArm _) fun s2 h2 => h2.startRampingButton b e _ _
  · split
    · exact Post.pure h
    · split
      · cases b <;> simp only [reduceCtorEq, if_false, if_true, pure_bind]
        · exact Post.pure h
        · exact Post.bind (h.debugEnable c _) fun s3 h3 => Post.pure h3.menuRequestUpdate
        · exact Post.bind (h.debugEnable c _) fun s3 h3 => Post.pure h3
        · exact Post.pure h
      · exact Post.pure h
  all_goals first
    | exact Post.pure h
    | (split
       · exact Post.pure h
       · exact h.startRampingButton b e _ _)

theorem SetEff.stopRamping {a s : Sys} (h : SetEff a s) : SetEff a (stopRamping s) := { h with }

theorem SetEff.menuButton {a s : Sys} (h : SetEff a s) (c : Conf) (b : Button) (e : BState) :
    Post (menuButton c s b e) (SetEff a) := by
  unfold Verif.menuButton
  split
  · exact Post.pure h
  · refine Post.bind (h.menuButtonScreen c b e) fun s2 h2 => ?_
    split
    · simp only []
      split
      · split
        · exact h2.stopRamping.menuSetState c _
        · exact Post.pure h2.stopRamping
      · exact Post.pure h2.stopRamping
    · exact Post.pure h2

theorem SetEff.menuTimeouts {a s : Sys} (h : SetEff a s) (c : Conf) : Post (menuTimeouts c s) (SetEff a) := by
  unfold Verif.menuTimeouts
  split
  all_goals first
    | exact Post.pure h
    | (split
       · first
         | exact Post.bind (h.menuSetState c _) fun s2 h2 => Post.pure h2.stopRamping
         | split
           · exact Post.bind (h.menuSetState c _) fun s2 h2 => Post.pure h2.stopRamping
           · exact Post.bind (h.menuSetState c _) fun s2 h2 => Post.pure h2.stopRamping
       · exact Post.pure h)

theorem SetEff.menuIndicate {a s : Sys} (h : SetEff a s) : SetEff a (menuIndicate s) := by
  unfold Verif.menuIndicate
  simp only []
  split
  · split
    · exact { h with }
    · exact { h with }
  · split
    · exact { h with }
    · exact h

theorem SetEff.menuRamp {a s : Sys} (h : SetEff a s) (c : Conf) : Post (menuRamp c s) (SetEff a) := by
  unfold Verif.menuRamp
  split
  · exact Post.pure h
  all_goals
    split
    · first
        | exact h.startRamping _ _ _
        | exact Post.bindAny fun r => Post.bind (h.rampHandler c r _) fun s2 h2 =>
            Post.bindAny fun t => Post.pure { h2 with }
    · exact Post.pure h

theorem SetEff.menuUpdateDisplay {a s : Sys} (h : SetEff a s) (c : Conf) :
    Post (menuUpdateDisplay c s) (SetEff a) := by
  unfold Verif.menuUpdateDisplay
  exact Post.bindAny fun x => Post.bindAny fun d => Post.bindAny fun d => Post.pure { h with }

theorem SetEff.menuWork (c : Conf) (s : Sys) : Post (menuWork c s) (SetEff s) := by
  unfold Verif.menuWork
  refine Post.bind ((SetEff.refl s).menuTimeouts c) fun s1 h1 =>
    Post.bind (h1.menuIndicate.menuRamp c) fun s2 h2 => ?_
  unfold menuRefresh
  split
  · have h3 : SetEff s { s2 with menu := { s2.menu with updReq := false } } := { h2 with }
    exact h3.menuUpdateDisplay c
  · exact Post.pure h2

theorem SetEff.buttonsWork (c : Conf) (s : Sys) (pinb : BitVec 8) :
    Post (buttonsWork c s pinb) (SetEff s) := by
  have key : ∀ (l : List (Button × BState)) {s1 : Sys}, SetEff s s1 →
      Post (l.foldlM (callButtonHandlers c) s1) (SetEff s) := by
    intro l
    induction l with
    | nil => intro s1 h; exact Post.pure h
    | cons x l ih =>
      intro s1 h
      rw [List.foldlM_cons]
      refine Post.bind ?_ fun s2 h2 => ih h2
      exact Post.bind (h.ironButton c x.1 x.2) fun s1 h1 => h1.menuButton c x.1 x.2
  unfold Verif.buttonsWork
  exact Post.bindAny fun x => key _ ⟨rfl, Or.inl rfl⟩

end Verif
