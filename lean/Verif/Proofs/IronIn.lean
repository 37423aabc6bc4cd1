import Verif.Proofs.PanelIn
import Verif.Proofs.Once
import Verif.Spec.IronIn
/-
What a work function with ticks inside does to the state of the iron button.
-/
namespace Verif
open Spec Props

variable {v : Speed} {c : Conf} {s a : Sys} {T : Nat}

/-- nothing of the iron button has changed -/
structure IronKept (a s : Sys) : Prop where
  now : s.now = a.now
  idle : s.ct.idle = a.ct.idle
  biLet : s.ct.biLet = a.ct.biLet
  biTimer : s.ct.biTimer = a.ct.biTimer

theorem IronKept.refl (s : Sys) : IronKept s s := ⟨rfl, rfl, rfl, rfl⟩

theorem IronKept.sysStore (h : IronKept a s) : Post (sysStore s) (IronKept a) := by
  unfold Verif.sysStore
  exact Post.bindAny fun set => Post.pure { h with }

theorem IronKept.updateSetpoint (h : IronKept a s) : Post (contrtempUpdateSetpoint s) (IronKept a) := by
  unfold contrtempUpdateSetpoint
  exact Post.bindAny fun sp => Post.pure { h with }

theorem IronKept.setBoost (h : IronKept a s) (m : Nat) : Post (contrtempSetBoost c s m) (IronKept a) := by
  unfold contrtempSetBoost
  refine Post.bindAny fun k => ?_
  simp only []
  split
  · exact Post.pure { h with }
  · exact Post.pure { h with }

theorem IronKept.doSetEnabled (en : Bool) : Post (contrtempDoSetEnabled c s en) (IronKept s) := by
  unfold contrtempDoSetEnabled
  have h1 : IronKept s { s with ct := { s.ct with enabled := en, pid := pidReset s.ct.pid, dtTimer := timerSetNow s.now } } :=
    { IronKept.refl s with }
  exact Post.bind (h1.setBoost 0) fun s2 h2 => Post.pure { h2 with }

theorem IronKept.menuArm (h : IronKept a s) (ms : Int) : Post (menuArm s ms) (IronKept a) := by
  unfold Verif.menuArm
  exact Post.bindAny fun t => Post.pure { h with }

theorem IronKept.debugEnable (h : IronKept a s) (en : Bool) : Post (debugEnable c s en) (IronKept a) := by
  unfold Verif.debugEnable
  split
  · exact Post.bindAny fun pd => Post.pure { h with }
  · exact Post.pure h

theorem IronKept.menuIndicate (s : Sys) : IronKept s (menuIndicate s) := by
  have h := IronKept.refl s
  unfold Verif.menuIndicate
  simp only []
  split
  · split
    · exact { h with }
    · exact { h with }
  · split
    · exact { h with }
    · exact h

theorem IronKept.menuRefresh (s : Sys) : Post (menuRefresh c s) (IronKept s) := by
  have h := IronKept.refl s
  unfold Verif.menuRefresh
  split
  · unfold menuUpdateDisplay
    exact Post.bindAny fun x => Post.bindAny fun d => Post.bindAny fun d => Post.pure { h with }
  · exact Post.pure h

/-- the time has passed, but nothing of the iron button has changed -/
structure IronIn (a : Sys) (T : Nat) (s : Sys) : Prop where
  now : s.now = nowAt T
  idle : s.ct.idle = a.ct.idle
  biLet : s.ct.biLet = a.ct.biLet
  biTimer : s.ct.biTimer = a.ct.biTimer

theorem IronIn.refl (h : s.now = nowAt T) : IronIn s T s := ⟨h, rfl, rfl, rfl⟩

theorem IronIn.eff {s' : Sys} (h : IronIn a T s) (k : IronKept s s') : IronIn a T s' :=
  ⟨k.now.trans h.now, k.idle.trans h.idle, k.biLet.trans h.biLet, k.biTimer.trans h.biTimer⟩

theorem IronIn.post {o : Option Sys} (h : IronIn a T s) (k : Post o (IronKept s)) : SimT (liftM o) T (IronIn a) :=
  SimT.lift fun s' e => h.eff (k s' e)

theorem IronIn.tick (h : IronIn a T s) : SimT (tickIn s) T (IronIn a) :=
  (SimT.tick h.now).mono fun T' s' hT e => by
    subst e
    exact ⟨rfl, h.idle, h.biLet, h.biTimer⟩

theorem IronIn.setCache (h : IronIn a T s) (x : Settings) : IronIn a T (setCache s x) := { h with }

theorem IronIn.store (h : IronIn a T s) : SimT (sysStoreT s) T (IronIn a) :=
  SimT.bind h.tick fun _ _ _ h1 => h1.post (IronKept.refl _).sysStore

theorem IronIn.setpoint (h : IronIn a T s) : SimT (liftM (contrtempUpdateSetpoint s)) T (IronIn a) :=
  h.post (IronKept.refl s).updateSetpoint

theorem IronIn.update (h : IronIn a T s) : IronIn a T (menuRequestUpdate s) := { h with }

theorem IronIn.idleSetpoint (h : IronIn a T s) (c : Conf) (w : Int) : SimT (contrtempSetIdleSetpointT c s w) T (IronIn a) :=
  SimT.ite (fun _ => SimT.bind (h.setCache { s.set.cache with idleSp := w }).setpoint fun _ _ _ h => h.store) fun _ =>
    SimT.pure h

theorem IronIn.enabled (h : IronIn a T s) (c : Conf) (b : Bool) : SimT (contrtempSetEnabledT c s b) T (IronIn a) :=
  SimT.ite (fun _ => SimT.bind h.tick fun _ _ _ h1 => h1.post (IronKept.doSetEnabled b)) fun _ => SimT.pure h

theorem IronIn.presetsStore (h : IronIn a T s) : SimT (presetsStoreT s) T (IronIn a) :=
  SimT.bind h.store fun _ _ _ h => SimT.bind h.setpoint fun _ _ _ h => SimT.pure h.update

theorem IronIn.presetsSet (h : IronIn a T s) (w : Int) : SimT (presetsSetActiveT s w) T (IronIn a) :=
  SimT.bindV fun x _ => (h.setCache x).presetsStore

theorem IronIn.adjust (h : IronIn a T s) (c : Conf) (w : Int) : SimT (meastempAdjustSetT c s w) T (IronIn a) := by
  refine SimT.ite (fun hc => ?_) fun _ => SimT.pure h
  have h1 : IronIn a T (measureAdjustSet c s w) := by
    unfold measureAdjustSet
    rw [if_pos hc]
    exact { h with }
  exact SimT.bind (h1.setCache _).store fun _ _ _ h => SimT.pure h.update

theorem IronIn.rampK (h : IronIn a T s) (c : Conf) (get : PidK → Int) (put : PidK → Int → PidK)
    (inc hi : Int) (up : Bool) : SimT (doRampKT c s get put inc hi up) T (IronIn a) := by
  unfold doRampKT
  simp only []
  split
  · split
    all_goals
      exact SimT.bindV fun x _ => SimT.bindV fun v _ => SimT.bind (h.setCache _).store fun _ _ _ h2 =>
        h2.post ((IronKept.refl _).setBoost _)
  · exact SimT.fail

theorem IronIn.arm (h : IronIn a T s) (ms : Int) : SimT (menuArmT s ms) T (IronIn a) :=
  SimT.bind h.tick fun _ _ _ h => h.post ((IronKept.refl _).menuArm ms)

theorem IronIn.debugEnable (h : IronIn a T s) (c : Conf) (en : Bool) : SimT (debugEnableT c s en) T (IronIn a) :=
  SimT.bind h.tick fun _ _ _ h => h.post ((IronKept.refl _).debugEnable en)

theorem IronIn.menuEnter (h : IronIn a T s) (c : Conf) (t : MenuState) : SimT (menuEnterT c s t) T (IronIn a) := by
  cases t <;> simp only [menuEnterT]
  case curtemp => exact h.enabled c _
  case selpreset => exact h.arm _
  case chgpreset => exact h.arm _
  case idletemp => exact h.arm _
  case debug => exact SimT.pure h
  all_goals split
  all_goals first
    | exact SimT.pure h
    | exact h.enabled c _
    | exact SimT.bind (h.arm _) fun _ _ _ h2 => h2.enabled c _

theorem IronIn.menuSetState (h : IronIn a T s) (c : Conf) (t : MenuState) : SimT (menuSetStateT c s t) T (IronIn a) := by
  refine SimT.ite (fun _ => SimT.pure h) fun _ => ?_
  have h1 : IronIn a T { s with menu := { s.menu with state := t } } := { h with }
  exact SimT.bind (h1.menuEnter c t) fun _ _ _ h2 => SimT.pure h2.update

theorem IronIn.rampHandler (h : IronIn a T s) (c : Conf) (r : RampHandler) (up : Bool) :
    SimT (rampHandlerT c s r up) T (IronIn a) := by
  cases r <;> simp only [rampHandlerT]
  · exact SimT.bindV fun sp _ => SimT.bindV fun v _ => SimT.bind (h.presetsSet v) fun _ _ _ h2 => h2.menuSetState c _
  · exact SimT.bindV fun sp _ => h.idleSetpoint c _
  · exact SimT.bindV fun v _ => h.adjust c v
  · exact h.rampK c _ _ _ _ _
  · exact h.rampK c _ _ _ _ _
  · exact h.rampK c _ _ _ _ _

theorem IronIn.startRamping (h : IronIn a T s) (up pre : Bool) (r : Option RampHandler) :
    SimT (startRampingT s up pre r) T (IronIn a) := by
  unfold startRampingT
  refine SimT.ite (fun _ => ?_) fun _ => ?_
  · refine SimT.bind h.tick fun T1 s1 _ h1 => SimT.bindV fun t _ => ?_
    refine SimT.bind (P := IronIn a) (SimT.pure { h1 with }) fun T2 s2 _ h2 => ?_
    exact SimT.bind h2.tick fun _ _ _ h => SimT.pure { h with }
  · refine SimT.bind (P := IronIn a) (SimT.pure { h with }) fun T2 s2 _ h2 => ?_
    exact SimT.bind h2.tick fun _ _ _ h => SimT.pure { h with }

theorem IronIn.startRampingButton (h : IronIn a T s) (b : Button) (e : BState) (pre : Bool) (r : RampHandler) :
    SimT (startRampingButtonT s b e pre r) T (IronIn a) :=
  SimT.ite (fun _ => SimT.ite (fun _ => h.startRamping _ _ _) fun _ => SimT.ite (fun _ => h.startRamping _ _ _) fun _ =>
    SimT.pure h) fun _ => SimT.pure h

theorem IronIn.stop (h : IronIn a T s) : IronIn a T (stopRamping s) := { h with }

theorem IronIn.menuButtonScreen (h : IronIn a T s) (c : Conf) (b : Button) (e : BState) :
    SimT (menuButtonScreenT c s b e) T (IronIn a) := by
  unfold menuButtonScreenT
  split
  · exact SimT.bind (h.startRampingButton b e _ _) fun _ _ _ h2 =>
      SimT.ite (fun _ => h2.menuSetState c _) fun _ => SimT.pure h2
  · refine SimT.bind (h.arm _) fun T2 s2 _ h2 => ?_
    cases e
    · simp only [reduceCtorEq, if_false, pure_bind]; exact h2.startRampingButton b _ _ _
    · simp only [if_true]
      cases b <;> simp only [reduceCtorEq, if_false, if_true, pure_bind]
      · exact h2.startRampingButton _ _ _ _
      · exact SimT.bind (h2.setCache _).presetsStore fun _ _ _ h3 => h3.startRampingButton _ _ _ _
      · exact SimT.bind (h2.setCache _).presetsStore fun _ _ _ h3 => h3.startRampingButton _ _ _ _
      · exact h2.startRampingButton _ _ _ _
    · simp only [reduceCtorEq, if_false, pure_bind]; exact h2.startRampingButton b _ _ _
  · exact SimT.bind (h.arm _) fun _ _ _ h2 => h2.startRampingButton b e _ _
  · exact SimT.ite (fun _ => SimT.pure h) fun _ => SimT.bind (h.arm _) fun _ _ _ h2 => h2.startRampingButton b e _ _
  · refine SimT.ite (fun _ => SimT.pure h) fun _ => SimT.ite (fun _ => ?_) fun _ => SimT.pure h
    cases b <;> simp only [reduceCtorEq, if_false, if_true, pure_bind]
    · exact SimT.pure h
    · exact SimT.bind (h.debugEnable c _) fun _ _ _ h3 => SimT.pure h3.update
    · exact SimT.bind (h.debugEnable c _) fun _ _ _ h3 => SimT.pure h3
    · exact SimT.pure h
  all_goals first
    | exact SimT.pure h
    | exact SimT.ite (fun _ => SimT.pure h) fun _ => h.startRampingButton b e _ _

theorem IronIn.menuButton (h : IronIn a T s) (c : Conf) (b : Button) (e : BState) :
    SimT (menuButtonT c s b e) T (IronIn a) := by
  refine SimT.ite (fun _ => SimT.pure h) fun _ => SimT.bind (h.menuButtonScreen c b e) fun _ s2 _ h2 => ?_
  refine SimT.ite (fun _ => ?_) fun _ => SimT.pure h2
  simp only []
  exact SimT.ite (fun _ => SimT.ite (fun _ => h2.stop.menuSetState c _) fun _ => SimT.pure h2.stop) fun _ => SimT.pure h2.stop

theorem IronIn.menuTimeouts (h : IronIn a T s) (c : Conf) : SimT (menuTimeoutsT c s) T (IronIn a) := by
  unfold menuTimeoutsT
  split
  all_goals first
    | exact SimT.pure h
    | exact SimT.bind h.tick fun _ _ _ h => SimT.ite (fun _ => SimT.ite (fun _ => SimT.bind (h.menuSetState c _)
        fun _ _ _ h2 => SimT.pure h2.stop) fun _ => SimT.bind (h.menuSetState c _) fun _ _ _ h2 => SimT.pure h2.stop)
        fun _ => SimT.pure h

theorem IronIn.menuRamp (h : IronIn a T s) (c : Conf) : SimT (menuRampT c s) T (IronIn a) := by
  unfold menuRampT
  split
  · exact SimT.pure h
  all_goals
    refine SimT.bind h.tick fun _ _ _ h => SimT.ite (fun _ => ?_) fun _ => SimT.pure h
    first
      | exact h.startRamping _ _ _
      | exact SimT.bindV fun r _ => SimT.bind (h.rampHandler c r _) fun _ _ _ h2 =>
          SimT.bindV fun t _ => SimT.pure { h2 with }

theorem IronIn.menuWork (h : s.now = nowAt T) (c : Conf) : SimT (menuWorkT c s) T (IronIn s) := by
  refine SimT.bind ((IronIn.refl h).menuTimeouts c) fun T1 s1 _ h1 => ?_
  simp only []
  exact SimT.bind ((h1.eff (IronKept.menuIndicate s1)).menuRamp c) fun T2 s2 _ h2 => h2.post (IronKept.menuRefresh s2)

theorem IronIn.panel (h : IronIn a T s) (l : List (Button × BState)) (hl : ∀ x ∈ l, x.1 ≠ .iron) :
    SimT (l.foldlM (callButtonHandlersT c) s) T (IronIn a) := by
  induction l generalizing T s with
  | nil => exact SimT.pure h
  | cons x l ih =>
    rw [List.foldlM_cons]
    refine SimT.bind (P := IronIn a) ?_ fun _ s2 _ h2 => ih h2 fun y hy => hl y (List.mem_cons_of_mem _ hy)
    rw [callPanelT (b := x.1) (hl x List.mem_cons_self)]
    exact h.menuButton c x.1 x.2

/-! ### the handler of the iron button -/

theorem ironPressT (hb : c.boost = true) (hc : c.idle = true) (h : s.now = nowAt T) :
    SimT (contrtempButtonT c s .iron .posedge) T fun T' s' => s'.now = nowAt T' ∧ s'.ct.idle = false ∧
      s'.ct.biLet = !s.ct.idle ∧ s'.ct.biTimer = nowAt (T' + 1000) := by
  unfold contrtempButtonT
  rw [if_pos ⟨hb, hc, rfl, Or.inl rfl⟩]
  refine SimT.bind (SimT.tick h) fun T1 s1 _ e1 => SimT.lift fun s' e => ?_
  subst e1
  obtain ⟨t1, t2⟩ := iron_press hb hc e
  refine ⟨t1.now, t1.idle, t1.biLet, t2.trans ?_⟩
  exact nowAt_add T1 1000

theorem ironPressedT (hb : c.boost = true) (hc : c.idle = true) (h : s.now = nowAt T)
    (hi : s.ct.biLet = true → s.ct.idle = false) :
    SimT (contrtempButtonT c s .iron .pressed) T fun T' s' => s'.now = nowAt T' ∧ s'.ct.biTimer = s.ct.biTimer ∧
      ∃ b, T ≤ b ∧ b ≤ T' ∧ (if s.ct.biLet = true ∧ timerExpired (nowAt b) s.ct.biTimer = true
        then s'.ct.idle = true ∧ s'.ct.biLet = false else s'.ct.idle = s.ct.idle ∧ s'.ct.biLet = s.ct.biLet) := by
  have key : ∀ {T1 : Nat} {s' : Sys}, T ≤ T1 → contrtempButton c { s with now := nowAt T1 } .iron .pressed = some s' →
      s'.now = nowAt T1 ∧ s'.ct.biTimer = s.ct.biTimer ∧
      ∃ b, T ≤ b ∧ b ≤ T1 ∧ (if s.ct.biLet = true ∧ timerExpired (nowAt b) s.ct.biTimer = true
        then s'.ct.idle = true ∧ s'.ct.biLet = false else s'.ct.idle = s.ct.idle ∧ s'.ct.biLet = s.ct.biLet) := by
    intro T1 s' hT e
    obtain ⟨t1, t2⟩ := iron_pressed hb hc e hi
    have hn : s'.now = nowAt T1 := by
      split at t1
      · exact t1.now
      · exact t1.now
    refine ⟨hn, t2, T1, hT, Nat.le_refl _, ?_⟩
    by_cases hx : s.ct.biLet = true ∧ timerExpired (nowAt T1) s.ct.biTimer = true
    · rw [if_pos hx] at t1 ⊢
      exact ⟨t1.idle, t1.biLet⟩
    · rw [if_neg hx] at t1 ⊢
      exact ⟨t1.idle, t1.biLet⟩
  unfold contrtempButtonT
  refine SimT.ite (fun _ => SimT.bind (SimT.tick h) fun T1 s1 hT e1 => SimT.lift fun s' e => ?_) fun _ =>
    SimT.lift fun s' e => key (Nat.le_refl _) ?_
  · subst e1
    obtain ⟨k1, k2, b, k3, k4, k5⟩ := key hT e
    exact ⟨k1, k2, b, k3, k4, k5⟩
  · rw [← h]; exact e

theorem ironReleaseT (hb : c.boost = true) (hc : c.idle = true) (h : s.now = nowAt T)
    (hi : s.ct.biLet = true → s.ct.idle = false) :
    SimT (contrtempButtonT c s .iron .negedge) T fun T' s' => s'.now = nowAt T' ∧ s'.ct.idle = s.ct.idle := by
  unfold contrtempButtonT
  rw [if_neg (by simp)]
  refine SimT.lift fun s' e => ?_
  have t := iron_release hb hc e hi
  exact ⟨t.now.trans h, t.idle⟩

/-- what a sample at the time `t` does to idle mode, given whether the iron button was down and is down -/
def IronDone (s : Sys) (t T' : Nat) (s' : Sys) : Bool → Bool → Prop
  | _, false => s'.ct.idle = s.ct.idle
  | false, true => s'.ct.idle = false ∧ s'.ct.biLet = !s.ct.idle ∧ ∃ b, t ≤ b ∧ b ≤ T' ∧ s'.ct.biTimer = nowAt (b + 1000)
  | true, true => s'.ct.biTimer = s.ct.biTimer ∧
      ∃ b, t ≤ b ∧ b ≤ T' ∧ (if s.ct.biLet = true ∧ timerExpired (nowAt b) s.ct.biTimer = true
        then s'.ct.idle = true ∧ s'.ct.biLet = false else s'.ct.idle = s.ct.idle ∧ s'.ct.biLet = s.ct.biLet)

theorem iron_sampleT (hb : c.boost = true) (hc : c.idle = true) (h : s.now = nowAt T)
    (hi : s.btn.prev.getLsbD 0 = true → s.ct.biLet = true → s.ct.idle = false) (pinb : BitVec 8) {g g' : List Nat} {s' : Sys}
    (hw : buttonsWorkT c s pinb g = some (s', g')) (hg : g.sum < 1000)
    (hx : timerExpired (nowAt (T + g.headD 0)) s.btn.debounce = true) :
    IronDone s (T + g.headD 0) (T + g.sum) s' (s.btn.prev.getLsbD 0) (!pinb.getLsbD 0) := by
  have hgs := head_le_sum g
  generalize ht : T + g.headD 0 = t at *
  have hn : toU16 (s.now + g.headD 0) = nowAt t := by
    rw [h, ← ht]
    unfold nowAt toU16
    omega
  have hw : (do
      let (b, calls) ← liftM (buttonsSample (toU16 (s.now + g.headD 0)) s.btn pinb)
      calls.foldlM (callButtonHandlersT c) { s with now := toU16 (s.now + g.headD 0), btn := b } : TM Sys) g.tail = some (s', g') := hw
  rw [hn] at hw
  have key := fun Q hh => SimT.bindV (T := t) (Q := Q) (o := buttonsSample (nowAt t) s.btn pinb)
    (f := fun x => x.2.foldlM (callButtonHandlersT c) { s with now := nowAt t, btn := x.1 }) hh _ _ _ hw
  have hsum : t + g.tail.sum = T + g.sum := by
    rw [← ht]
    cases g with
    | nil => simp
    | cons a l => simp only [List.headD_cons, List.tail_cons, List.sum_cons]; omega
  have body : ∀ x, buttonsSample (nowAt t) s.btn pinb = some x →
      SimT (x.2.foldlM (callButtonHandlersT c) { s with now := nowAt t, btn := x.1 }) t fun T' s' => T' < t + 1000 →
        IronDone s t T' s' (s.btn.prev.getLsbD 0) (!pinb.getLsbD 0) := by
    rintro ⟨b, calls⟩ eb
    unfold buttonsSample at eb
    rw [timerAdd_eq _ (by decide) (by decide), hx] at eb
    simp only [Bool.not_true, Bool.false_eq_true, if_false, Option.bind_eq_bind, Option.bind_some] at eb
    cases eb
    simp only []
    rw [buttonCalls_split, List.foldlM_append]
    have hp : ∀ x ∈ panelCalls s.btn.prev pinb, x.1 ≠ Button.iron := by
      intro x hx
      unfold panelCalls at hx
      obtain ⟨b, hb, hx⟩ := List.mem_flatMap.mp hx
      obtain ⟨e, -, rfl⟩ := List.mem_map.mp hx
      rintro rfl
      simp at hb
    have h0 : IronIn s t { s with now := nowAt t, btn := { prev := buttonsRaw pinb, debounce := toU16 (s.btn.debounce + toU16 10) } } :=
      ⟨rfl, rfl, rfl, rfl⟩
    refine SimT.bind (h0.panel _ hp) fun T1 s1 hT1 h1 => ?_
    have hi1 : s.btn.prev.getLsbD 0 = true → s1.ct.biLet = true → s1.ct.idle = false := by
      rw [h1.biLet, h1.idle]; exact hi
    revert hi1
    generalize s.btn.prev.getLsbD 0 = was
    generalize (!pinb.getLsbD 0) = d
    intro hi1
    cases was <;> cases d <;> simp only [pressCalls, IronDone, Bool.and_true, Bool.and_false, Bool.not_true, Bool.not_false,
      if_true, Bool.false_eq_true, if_false, List.append_nil, List.nil_append, List.map_cons, List.map_nil, List.cons_append,
      List.foldlM_cons, List.foldlM_nil, ironCallT, bind_pure]
    · exact SimT.pure fun _ => h1.idle
    · refine SimT.bind (ironPressT hb hc h1.now) fun T2 s2 hT2 ⟨q0, q1, q2, q3⟩ => ?_
      refine (ironPressedT hb hc q0 fun _ => q1).mono fun T3 s3 hT3 ⟨r0, r1, b, r2, r3, r4⟩ hlt => ?_
      rw [if_neg (by
        rintro ⟨-, hh⟩
        rw [q3, expired_due (by omega) (by omega)] at hh
        omega)] at r4
      exact ⟨r4.1.trans q1, r4.2.trans (q2.trans (by rw [h1.idle])), T2, by omega, by omega, r1.trans q3⟩
    · exact (ironReleaseT hb hc h1.now (hi1 rfl)).mono fun T3 s3 hT3 ⟨_, r1⟩ _ => r1.trans h1.idle
    · refine (ironPressedT hb hc h1.now (hi1 rfl)).mono fun T3 s3 hT3 ⟨r0, r1, b, r2, r3, r4⟩ _ => ?_
      rw [h1.biLet, h1.biTimer, h1.idle] at r4
      exact ⟨r1.trans h1.biTimer, b, by omega, r3, r4⟩
  obtain ⟨T', k1, k2, k3⟩ := key _ body
  have k3 := k3 (by omega)
  have hT' : T' ≤ T + g.sum := by omega
  revert k3
  cases s.btn.prev.getLsbD 0 <;> cases !pinb.getLsbD 0 <;> simp only [IronDone]
  · exact id
  · rintro ⟨q1, q2, b, q3, q4, q5⟩
    exact ⟨q1, q2, b, q3, by omega, q5⟩
  · exact id
  · rintro ⟨q1, b, q3, q4, q5⟩
    exact ⟨q1, b, q3, by omega, q5⟩

/-! ### the measurements -/

/-- the iron button is left alone -/
structure Ironless (s s' : Sys) : Prop where
  idle : s'.ct.idle = s.ct.idle
  biLet : s'.ct.biLet = s.ct.biLet
  biTimer : s'.ct.biTimer = s.ct.biTimer

theorem Ironless.refl (s : Sys) : Ironless s s := ⟨rfl, rfl, rfl⟩

theorem Ironless.trans {s1 s2 s3 : Sys} (h : Ironless s1 s2) (h' : Ironless s2 s3) : Ironless s1 s3 :=
  ⟨h'.idle.trans h.idle, h'.biLet.trans h.biLet, h'.biTimer.trans h.biTimer⟩

theorem tick_iron (s : Sys) : PostT (tickIn s) (Ironless s) := by
  intro g x g' e
  cases e
  exact ⟨rfl, rfl, rfl⟩

theorem setEmerg_iron {s s' : Sys} {f : BitVec 8} (e : contrcurrSetEmerg s f = some s') : Ironless s s' := by
  unfold contrcurrSetEmerg at e
  split at e
  · simp only [] at e
    split at e
    · unfold pwmcurrSet at e
      obtain ⟨d, -, e⟩ := Option.bind_eq_some_iff.mp e
      cases e; exact ⟨rfl, rfl, rfl⟩
    · cases e; exact ⟨rfl, rfl, rfl⟩
  · cases e; exact Ironless.refl s

theorem currRunT_iron (s : Sys) (r : Int) : PostT (contrcurrRunT s r) (Ironless s) := by
  unfold contrcurrRunT
  refine PostT.ite (fun _ => PostT.pure (Ironless.refl s)) fun _ => PostT.ite (fun _ => PostT.pure (Ironless.refl s)) fun _ => ?_
  refine PostT.bind (tick_iron s) fun s1 h1 => PostT.bindV fun _ _ => PostT.bind (tick_iron s1) fun s2 h2 =>
    PostT.bindV fun _ _ => PostT.bindV fun _ _ => PostT.lift fun s' e => ?_
  unfold pwmcurrSet at e
  obtain ⟨d, -, e⟩ := Option.bind_eq_some_iff.mp e
  cases e
  exact (h1.trans h2).trans ⟨rfl, rfl, rfl⟩

theorem tempRunT_iron (s : Sys) (r : Int) : PostT (contrtempRunT s r) (Ironless s) := by
  unfold contrtempRunT
  refine PostT.ite (fun _ => PostT.pure (Ironless.refl s)) fun _ => PostT.ite (fun _ => PostT.pure (Ironless.refl s)) fun _ => ?_
  refine PostT.bind (tick_iron s) fun s1 h1 => PostT.bindV fun _ _ => PostT.bind (tick_iron s1) fun s2 h2 =>
    PostT.bindV fun _ _ => PostT.bindV fun _ _ => ?_
  simp only []
  split
  all_goals
    refine PostT.bindV fun s3 e3 => PostT.pure ((h1.trans h2).trans ?_)
    have k := setEmerg_iron e3
    exact ⟨k.idle, k.biLet, k.biTimer⟩

theorem tempFeedbackT_iron (s : Sys) (r : Int) : PostT (contrtempSetFeedbackT s r) (Ironless s) := by
  unfold contrtempSetFeedbackT
  simp only []
  split
  · intro g x g' e
    exact Ironless.trans (s2 := menuRequestUpdate { s with ct := { s.ct with feedback := r } }) ⟨rfl, rfl, rfl⟩
      (tempRunT_iron _ r g x g' e)
  · exact tempRunT_iron _ r

theorem meastempResultT_iron (s : Sys) (p : Int) (pl : Plaus) : PostT (meastempResultT s p pl) (Ironless s) := by
  have hset : ∀ b, Ironless s (contrtempSetEmerg s b) := by
    intro b
    unfold contrtempSetEmerg contrtempDoSetEmerg
    repeat' split
    all_goals exact ⟨rfl, rfl, rfl⟩
  cases pl <;> unfold meastempResultT <;> simp only []
  · intro g x g' e
    refine Ironless.trans ?_ (tempFeedbackT_iron _ p _ _ _ e)
    refine Ironless.trans (hset false) ?_
    unfold contrcurrSetRestricted
    exact ⟨rfl, rfl, rfl⟩
  · exact tempFeedbackT_iron _ _
  · exact PostT.pure (hset true)

theorem meascurrResultT_iron (s : Sys) (p : Int) (pl : Plaus) : PostT (meascurrResultT s p pl) (Ironless s) := by
  unfold meascurrResultT
  cases pl <;> simp only []
  · exact PostT.bindV fun s1 e1 => PostT.bind (currRunT_iron _ p) fun s2 h2 =>
      PostT.pure ((setEmerg_iron e1).trans ⟨h2.idle, h2.biLet, h2.biTimer⟩)
  · exact PostT.bindV fun s1 e1 => PostT.bind (currRunT_iron _ _) fun s2 h2 =>
      PostT.pure ((setEmerg_iron e1).trans ⟨h2.idle, h2.biLet, h2.biTimer⟩)
  · exact PostT.bindV fun s1 e1 => PostT.pure ((setEmerg_iron e1).trans ⟨rfl, rfl, rfl⟩)

theorem measPlausT_iron {cfg : MeasConfig} {s : Sys} {ch : MeasChan} {phys : Int} :
    PostT (measPlausT c cfg s ch phys) fun r => Ironless s r.1 := by
  unfold measPlausT
  have tl : ∀ (s1 : Sys) (ch : MeasChan) (phys : Int) (pl : Plaus), Ironless s s1 →
      PostT (if ch.timerRunning = true then do
          let s ← tickIn s1
          let x ← pure (s, if timerExpired s.now ch.timer = true then { ch with plausTimeout := true } else ch)
          pure (x.1, x.2, phys, if x.2.plausTimeout = true then Plaus.timeout else pl)
        else do
          let x ← pure (s1, ch)
          pure (x.1, x.2, phys, if x.2.plausTimeout = true then Plaus.timeout else pl)) fun r : Sys × MeasChan × Int × Plaus => Ironless s r.1 := by
    intro s1 ch phys pl h
    refine PostT.ite (fun _ => ?_) fun _ => PostT.pure h
    exact PostT.bind (tick_iron s1) fun s2 h2 => PostT.pure (h.trans h2)
  have mid : ∀ (ch : MeasChan) (phys : Int) (pl : Plaus),
      PostT (if pl ≠ Plaus.plausible ∧ (!ch.timerRunning) = true then do
          let s ← tickIn s
          let t ← liftM (timerArm s.now cfg.timeoutMs)
          let x ← pure (s, { ch with timer := t, timerRunning := true })
          if x.2.timerRunning = true then do
            let s ← tickIn x.1
            let y ← pure (s, if timerExpired s.now x.2.timer = true then { x.2 with plausTimeout := true } else x.2)
            pure (y.1, y.2, phys, if y.2.plausTimeout = true then Plaus.timeout else pl)
          else do
            let y ← pure (x.1, x.2)
            pure (y.1, y.2, phys, if y.2.plausTimeout = true then Plaus.timeout else pl)
        else do
          let x ← pure (s, ch)
          if x.2.timerRunning = true then do
            let s ← tickIn x.1
            let y ← pure (s, if timerExpired s.now x.2.timer = true then { x.2 with plausTimeout := true } else x.2)
            pure (y.1, y.2, phys, if y.2.plausTimeout = true then Plaus.timeout else pl)
          else do
            let y ← pure (x.1, x.2)
            pure (y.1, y.2, phys, if y.2.plausTimeout = true then Plaus.timeout else pl))
        fun r : Sys × MeasChan × Int × Plaus => Ironless s r.1 := by
    intro ch phys pl
    refine PostT.ite (fun _ => ?_) fun _ => ?_
    · exact PostT.bind (tick_iron s) fun s1 h1 => PostT.bindV fun t _ => tl s1 { ch with timer := t, timerRunning := true } phys pl h1
    · exact tl s ch phys pl (Ironless.refl s)
  split
  · exact PostT.bindV fun phys _ => mid _ _ _
  · exact PostT.bindV fun phys _ => mid _ _ _

theorem measHandleT_iron (s : Sys) : PostT (measHandleT c s) fun r => Ironless s r.1 := by
  unfold measHandleT
  refine PostT.bindV fun cfg _ => PostT.bindV fun raw _ => ?_
  simp only []
  refine PostT.bindV fun phys _ => ?_
  split
  · exact PostT.bind measPlausT_iron fun r hr => PostT.pure (hr.trans ⟨rfl, rfl, rfl⟩)
  · exact PostT.fail

theorem measureWorkT_iron (s : Sys) : PostT (measureWorkT c s) (Ironless s) := by
  unfold measureWorkT
  simp only []
  refine PostT.ite (fun _ => ?_) fun _ => PostT.pure ⟨rfl, rfl, rfl⟩
  refine PostT.bind (measHandleT_iron _) fun x hx => ?_
  have fin : ∀ s2 : Sys, Ironless x.1 s2 → PostT (adcTriggerNextT c s2) (Ironless s) := by
    intro s2 h2
    refine PostT.bind (tick_iron s2) fun s3 h3 => PostT.bindV fun m hm => PostT.pure ?_
    have h0 : Ironless s { s with meas := { s.meas with resultAvail := false } } := ⟨rfl, rfl, rfl⟩
    exact (((h0.trans hx).trans h2).trans h3).trans ⟨rfl, rfl, rfl⟩
  exact PostT.ite (fun _ => PostT.bind (meastempResultT_iron _ _ _) fin) fun _ =>
    PostT.bind (meascurrResultT_iron _ _ _) fin

/-! ### in the loop -/

/-- a call of `buttons_work` that takes no sample -/
theorem iron_earlyT (h : s.now = nowAt T) (pinb : BitVec 8) {g g' : List Nat} {s' : Sys}
    (hw : buttonsWorkT c s pinb g = some (s', g'))
    (hx : timerExpired (nowAt (T + g.headD 0)) s.btn.debounce = false) : ∃ n, s' = { s with now := n } := by
  have hn : toU16 (s.now + g.headD 0) = nowAt (T + g.headD 0) := by
    rw [h]
    unfold nowAt toU16
    omega
  have hw : (do
      let (b, calls) ← liftM (buttonsSample (toU16 (s.now + g.headD 0)) s.btn pinb)
      calls.foldlM (callButtonHandlersT c) { s with now := toU16 (s.now + g.headD 0), btn := b } : TM Sys) g.tail = some (s', g') := hw
  rw [hn] at hw
  have e : buttonsSample (nowAt (T + g.headD 0)) s.btn pinb = some (s.btn, []) := by
    unfold buttonsSample
    rw [hx]
    rfl
  rw [e] at hw
  cases hw
  exact ⟨_, rfl⟩

theorem workT_iron {e : Ev} {g : List Nat} {s' : Sys} (h : s.now = nowAt T) (hw : workT c s e g = some (s', []))
    (hn : ∀ pinb, e ≠ .buttonsWork pinb) : Ironless s s' := by
  cases e with
  | menuWork =>
    obtain ⟨T', -, -, k⟩ := IronIn.menuWork h c _ _ _ hw
    exact ⟨k.idle, k.biLet, k.biTimer⟩
  | buttonsWork pinb => exact absurd rfl (hn pinb)
  | settingsWork =>
    have k : PostT (workT c s .settingsWork) (Ironless s) := PostT.bind (tick_iron s) fun s1 h1 => PostT.lift fun s2 e2 => by
      cases e2
      exact h1.trans ⟨rfl, rfl, rfl⟩
    exact k _ _ _ hw
  | displayWork =>
    have k : PostT (workT c s .displayWork) (Ironless s) := PostT.bind (tick_iron s) fun s1 h1 => PostT.lift fun s2 e2 => by
      obtain ⟨x, -, e2⟩ := Option.bind_eq_some_iff.mp e2
      cases e2
      exact h1.trans ⟨rfl, rfl, rfl⟩
    exact k _ _ _ hw
  | measureWork => exact measureWorkT_iron s _ _ _ hw
  | _ => cases hw

/-- a call of `buttons_work` that takes no sample, in the loop -/
theorem Spec.LoopISamples.early {x : LoopI} {l : List (Nat × BitVec 8)} (hv : v.SaneI) (hW : v.W ≤ 10)
    (h : LoopISamples v c x l) {g : List Nat} {s' : Sys} {pinb : BitVec 8}
    (hw : workT c x.s (.buttonsWork pinb) g = some (s', [])) (heq : s'.btn.debounce = x.s.btn.debounce) :
    ∃ n, s' = { x.s with now := n } := by
  have ih := h.inv hv hW
  obtain ⟨u, hu⟩ := ih.ui
  have full : Full c x.T x.s u := Full.of hu.inv.inv hu.inv.now hu.rel
  rcases full.sampleAt pinb hw with ⟨-, k2⟩ | ⟨k1, -⟩
  · have k3 : toU16 (x.s.btn.debounce + 10) = x.s.btn.debounce := (congrArg Buttons.debounce k2).symm.trans heq
    rw [ih.due] at k3
    unfold toU16 nowAt at k3
    omega
  · exact iron_earlyT hu.inv.now pinb hw k1

/-- steps other than samples leave the iron button alone -/
theorem Spec.LoopISamples.ironless {x y : LoopI} {e : Option Ev} {l : List (Nat × BitVec 8)} (hv : v.SaneI) (hW : v.W ≤ 10)
    (h : LoopISamples v c x l) (hs : LoopIStep c x e y) (heq : y.s.btn.debounce = x.s.btn.debounce) :
    Ironless x.s y.s := by
  have ih := h.inv hv hW
  obtain ⟨u, hu⟩ := ih.ui
  cases hs with
  | reset => exact Ironless.refl _
  | pass => exact Ironless.refl _
  | tick hD es => cases es; exact ⟨rfl, rfl, rfl⟩
  | @ee e s' he hp es =>
    rcases he with rfl | rfl
    · obtain ⟨st, -, es⟩ := Option.bind_eq_some_iff.mp es
      cases es
      exact ⟨rfl, rfl, rfl⟩
    · cases es; exact ⟨rfl, rfl, rfl⟩
  | adc => exact ⟨rfl, rfl, rfl⟩
  | @call e g s' pinb hD hp hw =>
    by_cases hb : ∃ pinb, e = .buttonsWork pinb
    · obtain ⟨pinb, rfl⟩ := hb
      obtain ⟨n, rfl⟩ := h.early hv hW hw heq
      exact ⟨rfl, rfl, rfl⟩
    · exact workT_iron hu.inv.now hw fun p hh => hb ⟨p, hh⟩

theorem Spec.LoopIIron.samples {x : LoopI} {l : List (Nat × BitVec 8)} {i : Bool} (h : LoopIIron v c x l i) :
    LoopISamples v c x l := by
  induction h with
  | boot he hb => exact .boot he hb
  | sample _ hs ht hw hT hne ih => exact ih.sample hs ht hw hT hne
  | other _ hs ht heq ih => exact ih.other hs ht heq

theorem was_held {b : Button} {l : List (Nat × BitVec 8)} (h : WasDown l b = true) : ∃ t, heldSince b l = some t := by
  induction l with
  | nil => cases h
  | cons x l ih =>
    obtain ⟨T, p⟩ := x
    have h : Down p b = true := h
    unfold heldSince
    rw [if_pos h]
    split
    · exact ih ‹_›
    · exact ⟨T, rfl⟩

/-- what the firmware knows of the press of the iron button since the sample at the time `t`, which found the idle mode `i` -/
structure IronHeld (v : Speed) (x : LoopI) (l : List (Nat × BitVec 8)) (i : Bool) (t : Nat) : Prop where
  le : t ≤ x.T
  used : i = true → x.s.ct.idle = false ∧ x.s.ct.biLet = false
  idle : i = false → x.s.ct.idle = !x.s.ct.biLet
  wait : i = false → x.s.ct.biLet = true → ∃ a, t ≤ a ∧ a ≤ t + v.W ∧ a ≤ x.T ∧ x.s.ct.biTimer = nowAt (a + 1000) ∧
    ∀ t1 p, l.head? = some (t1, p) → t1 < a + 1000
  done : i = false → x.s.ct.biLet = false → t + 1000 ≤ x.T

theorem IronHeld.keep {x y : LoopI} {l : List (Nat × BitVec 8)} {i : Bool} {t : Nat} (h : IronHeld v x l i t)
    (hk : Ironless x.s y.s) (hT : x.T ≤ y.T) : IronHeld v y l i t where
  le := Nat.le_trans h.le hT
  used hi := by rw [hk.idle, hk.biLet]; exact h.used hi
  idle hi := by rw [hk.idle, hk.biLet]; exact h.idle hi
  wait hi hl := by
    obtain ⟨a, k1, k2, k3, k4, k5⟩ := h.wait hi (by rw [← hk.biLet]; exact hl)
    exact ⟨a, k1, k2, by omega, by rw [hk.biTimer]; exact k4, k5⟩
  done hi hl := by have := h.done hi (by rw [← hk.biLet]; exact hl); omega

theorem prev_iron {x : LoopI} {l : List (Nat × BitVec 8)} (h : SampIInv v c x l) (b : Button) :
    x.s.btn.prev.getLsbD (buttonPin b) = WasDown l b := by
  rw [h.prev]
  cases l with
  | nil => cases b <;> rfl
  | cons a l =>
    show (buttonsRaw a.2).getLsbD _ = Down a.2 b
    unfold buttonsRaw
    cases b <;> simp [Down, buttonPin, BUTTONS_MASK]

theorem Spec.LoopIIron.held {x : LoopI} {l : List (Nat × BitVec 8)} {i : Bool} (hb : c.boost = true) (hc : c.idle = true)
    (hv : v.SaneI) (hW : v.W ≤ 10) (h : LoopIIron v c x l i) : ∀ t, heldSince .iron l = some t → IronHeld v x l i t := by
  induction h with
  | boot => intro t h; cases h
  | @other x e y l i hl hs ht heq ih =>
    exact fun t hh => (ih t hh).keep (hl.samples.ironless hv hW hs heq) hs.time
  | @sample x y l i g pinb hl hs ht hw hT hne ih =>
    have hi := hl.samples.inv hv hW
    obtain ⟨u, hu⟩ := hi.ui
    have hpc : y.reset = x.reset := by
      cases hs with
      | ee he => rcases he with he | he <;> cases he
      | call _ hp _ => rfl
    have hy : y.T ≤ y.reset + v.W := ht.1
    have hres := hu.inv.reset
    have hr : x.reset ≤ 10 * l.length + v.W := hi.behind.le
    have hg := head_le_sum g
    have hx : timerExpired (nowAt (x.T + g.headD 0)) x.s.btn.debounce = true := by
      have full : Full c x.T x.s u := Full.of hu.inv.inv hu.inv.now hu.rel
      rcases full.sampleAt pinb hw with ⟨k1, -⟩ | ⟨-, k2⟩
      · exact k1
      · exact absurd (congrArg Buttons.debounce k2) hne
    have hp := prev_iron hi .iron
    have hd := iron_sampleT hb hc hu.inv.now (fun h1 h2 => by
      obtain ⟨t, hh⟩ := was_held (hp.symm.trans h1)
      cases i with
      | true => exact ((ih t hh).used rfl).1
      | false => rw [(ih t hh).idle rfl, h2]; rfl) pinb hw (by omega) hx
    have hp : x.s.btn.prev.getLsbD 0 = WasDown l .iron := hp
    rw [hp, show (!pinb.getLsbD 0) = Down pinb .iron by simp [Down]] at hd
    intro t hh
    unfold heldSince at hh
    cases hdn : Down pinb .iron with
    | false => rw [hdn] at hh; cases hh
    | true =>
      rw [hdn, if_pos rfl] at hh
      cases hwas : WasDown l .iron with
      | false =>
        rw [hwas] at hh
        simp only [Bool.false_eq_true, if_false, Option.some.injEq] at hh
        subst hh
        rw [hwas, hdn] at hd
        obtain ⟨q1, q2, b, q3, q4, q5⟩ := hd
        simp only [and_self, if_true]
        refine ⟨by omega, fun he => ⟨q1, by rw [q2, he]; rfl⟩, fun he => by rw [q1, q2, he]; rfl,
          fun he hl => ⟨b, q3, by omega, by omega, q5, fun t1 p h1 => ?_⟩, fun he hl => by rw [q2, he] at hl; cases hl⟩
        cases h1
        omega
      | true =>
        rw [hwas, if_pos rfl] at hh
        have k := ih t hh
        rw [hwas, hdn] at hd
        obtain ⟨q1, b, q3, q4, q5⟩ := hd
        simp only [Bool.true_eq_false, false_and, if_false]
        have kle := k.le
        cases i with
        | true =>
          obtain ⟨k1, k2⟩ := k.used rfl
          rw [if_neg (by rw [k2]; simp)] at q5
          exact ⟨by omega, fun _ => ⟨q5.1.trans k1, q5.2.trans k2⟩, fun h => (by cases h), fun h => (by cases h), fun h => (by cases h)⟩
        | false =>
          have kid := k.idle rfl
          cases hbl : x.s.ct.biLet with
          | false =>
            have kd := k.done rfl hbl
            rw [if_neg (by rw [hbl]; simp)] at q5
            refine ⟨by omega, fun h => (by cases h), fun _ => ?_, fun _ hl => ?_, fun _ _ => by omega⟩
            · rw [q5.1, q5.2, kid]
            · rw [q5.2, hbl] at hl; cases hl
          | true =>
            obtain ⟨a, a1, a2, a3, a4, a5⟩ := k.wait rfl hbl
            have hlen : b < a + 1000 + 32768 := by
              cases l with
              | nil => cases hh
              | cons z l' =>
                have := a5 z.1 z.2 rfl
                have := (hi.times l'.length z.1 z.2 (by simp)).1
                simp only [List.length_cons] at hr
                omega
            have hexp := expired_due (t := b) (B := a + 1000) hlen (by omega)
            rw [← a4] at hexp
            by_cases hdue : a + 1000 ≤ b
            · rw [if_pos ⟨hbl, hexp.mpr hdue⟩] at q5
              refine ⟨by omega, fun h => (by cases h), fun _ => by rw [q5.1, q5.2]; rfl, fun _ hl => ?_, fun _ _ => by omega⟩
              rw [q5.2] at hl; cases hl
            · rw [if_neg (fun hh => hdue (hexp.mp hh.2))] at q5
              refine ⟨by omega, fun h => (by cases h), fun _ => by rw [q5.1, q5.2, kid], fun _ _ =>
                ⟨a, a1, a2, by omega, q1.trans a4, fun t1 p h1 => ?_⟩, fun _ hl => ?_⟩
              · cases h1
                omega
              · rw [q5.2, hbl] at hl; cases hl

/-- steps other than samples leave the boost mode alone -/
theorem Spec.LoopISamples.boostKept {x y : LoopI} {e : Option Ev} {l : List (Nat × BitVec 8)} (hv : v.SaneI) (hW : v.W ≤ 10)
    (h : LoopISamples v c x l) (hs : LoopIStep c x e y) (ht : InTimeI v y) (heq : y.s.btn.debounce = x.s.btn.debounce) :
    y.s.ct.boost = x.s.ct.boost := by
  obtain ⟨u, hu⟩ := (h.inv hv hW).ui
  by_cases hb : ∃ pinb, e = some (.buttonsWork pinb)
  · obtain ⟨pinb, rfl⟩ := hb
    cases hs with
    | ee he => rcases he with he | he <;> cases he
    | @call _ g s' pinb' hD hp hw =>
      obtain ⟨n, rfl⟩ := h.early hv hW hw heq
      rfl
  · rcases hs.once hv hu.inv ht with ⟨-, e1⟩ | ⟨f, t, t', rfl, it, it', k1, es, k2⟩
    · rw [e1]
    · have b1 : t.ct.boost = x.s.ct.boost := (congrArg (·.ct.boost) k1 :)
      have b2 : t'.ct.boost = y.s.ct.boost := (congrArg (·.ct.boost) k2 :)
      rw [← b1, ← b2]
      cases f with
      | tick => cases es; rfl
      | adc x => cases es; rfl
      | eeIsr => obtain ⟨_, -, es⟩ := Option.bind_eq_some_iff.mp es; cases es; rfl
      | eeDone => cases es; rfl
      | measureWork =>
        rcases measureWork_eff it es with ⟨-, rfl⟩ | ⟨hav, p', pl, hm⟩
        · rfl
        · rcases (by have := it.meas.act; omega : t.meas.active = 0 ∨ t.meas.active = 1) with ha | ha
          · obtain ⟨-, f, hf⟩ := hm.curr ha
            exact (congrArg ContrTemp.boost hf.ct :)
          · exact (hm.temp ha).boost
      | menuWork =>
        rcases (Hand.menuWork it t' es).reg with hh | hh
        · exact hh.1
        · exact hh.1.elim
      | displayWork => obtain ⟨_, -, es⟩ := Option.bind_eq_some_iff.mp es; cases es; rfl
      | buttonsWork pinb => exact absurd ⟨pinb, rfl⟩ hb
      | settingsWork => cases es; rfl

/-- what a sample does to the boost mode, in a copy of the state with other times -/
theorem boost_sample (hb : c.boost = true) (hc : c.idle = true) {t t' : Sys} {pinb : BitVec 8} (it : Inv c t)
    (es : step c t (.buttonsWork pinb) = some t') (hp : t'.btn.prev.getLsbD 0 = !pinb.getLsbD 0)
    (hi : t.btn.prev.getLsbD 0 = true → t.ct.biLet = true → t.ct.idle = false) :
    ∃ b, (b = t.ct.boost ∨ (b = 0 ∧ t.btn.prev.getLsbD 2 = true ∧ pinb.getLsbD 2 = true)) ∧
      t'.ct.boost = if t.btn.prev.getLsbD 0 = true ∧ pinb.getLsbD 0 = true ∧ t.ct.biLet = true then (b + 1) % 3 else b := by
  have es : buttonsWork c t pinb = some t' := es
  cases hx : timerExpired t.now t.btn.debounce with
  | false =>
    have := buttonsWork_early hx es
    subst this
    refine ⟨_, Or.inl rfl, ?_⟩
    rw [if_neg]
    rintro ⟨h1, h2, -⟩
    rw [h1, h2] at hp
    cases hp
  | true =>
    obtain ⟨bt, s1, hbp, hh, hf⟩ := buttonsWork_iron hx es
    have hbo := it.ct.boost
    rw [show c.nrBoost = 3 by unfold Conf.nrBoost; rw [if_pos hb]] at hbo
    have hidle1 : s1.ct.idle = t.ct.idle := hh.idle
    have hlet1 : s1.ct.biLet = t.ct.biLet := hh.biLet
    have hbo1 : s1.ct.boost = t.ct.boost ∨ (s1.ct.boost = 0 ∧ t.btn.prev.getLsbD 2 = true ∧ pinb.getLsbD 2 = true) := by
      rcases hh.reg with h | h
      · exact Or.inl h.1
      · exact Or.inr ⟨h.2.1 hb, h.1⟩
    have hbo3 : s1.ct.boost < 3 := by rcases hbo1 with h | h <;> omega
    refine ⟨s1.ct.boost, hbo1, ?_⟩
    rw [← hlet1, ← hidle1] at hi
    rw [← hlet1]
    generalize t.btn.prev.getLsbD 0 = was at hf hi ⊢
    generalize pinb.getLsbD 0 = up at hf ⊢
    cases was <;> cases up <;> simp only [pressCalls, Bool.not_true, Bool.not_false, Bool.and_true, Bool.and_false, if_true,
      Bool.false_eq_true, if_false, List.append_nil, List.nil_append, List.cons_append, List.foldlM_cons, List.foldlM_nil,
      Option.bind_eq_bind, false_and, and_false, true_and] at hf ⊢
    · obtain ⟨s2, e2, hf⟩ := Option.bind_eq_some_iff.mp hf
      obtain ⟨s3, e3, hf⟩ := Option.bind_eq_some_iff.mp hf
      cases hf
      obtain ⟨t1, -⟩ := iron_press hb hc e2
      obtain ⟨t3, -⟩ := iron_pressed hb hc e3 (fun _ => t1.idle)
      split at t3
      · exact t3.boost.trans t1.boost
      · exact t3.boost.trans t1.boost
    · cases hf; rfl
    · obtain ⟨s2, e2, hf⟩ := Option.bind_eq_some_iff.mp hf
      cases hf
      obtain ⟨t3, -⟩ := iron_pressed hb hc e2 (hi rfl)
      split at t3
      · exact t3.boost
      · exact t3.boost
    · obtain ⟨s2, e2, hf⟩ := Option.bind_eq_some_iff.mp hf
      cases hf
      have hring : ringNext s1.ct.boost (c.nrBoost - 1) = (s1.ct.boost + 1) % 3 := by
        have : c.nrBoost = 3 := by unfold Conf.nrBoost; rw [if_pos hb]
        rw [this]
        revert hbo3
        generalize s1.ct.boost = x
        revert x
        decide
      have k := (iron_release hb hc e2 (hi rfl)).boost
      rw [hring] at k
      exact k

/-! ### concrete runs -/

def ironCmdI (v : Speed) (c : Conf) (x : LoopI × List (Nat × BitVec 8) × Bool) (a : CmdI) :
    Option (LoopI × List (Nat × BitVec 8) × Bool) :=
  (loopCmdI v c NeverI x.1 a).bind fun y =>
    match a with
    | .call (.buttonsWork pinb) g =>
      if y.s.btn.debounce = x.1.s.btn.debounce then some (y, x.2) else some (y, (x.1.T + g.headD 0, pinb) :: x.2.1,
        if WasDown x.2.1 .iron = false ∧ Down pinb .iron = true then x.1.s.ct.idle else x.2.2)
    | _ => if y.s.btn.debounce = x.1.s.btn.debounce then some (y, x.2) else none

def ironCmdsI (v : Speed) (c : Conf) (pinb : BitVec 8) (l : List CmdI) : Option (LoopI × List (Nat × BitVec 8) × Bool) :=
  (loopBootI c pinb).bind fun x => l.foldlM (ironCmdI v c) (x, [], false)

theorem ironCmdI_iron {x y : LoopI × List (Nat × BitVec 8) × Bool} {a : CmdI} (hx : LoopIIron v c x.1 x.2.1 x.2.2)
    (h : ironCmdI v c x a = some y) : LoopIIron v c y.1 y.2.1 y.2.2 := by
  unfold ironCmdI at h
  obtain ⟨z, hz, h⟩ := Option.bind_eq_some_iff.mp h
  obtain ⟨e, k1, k2, -⟩ := loopCmdI_stretch hz
  split at h
  · rename_i pinb g
    split at h
    · cases h; exact hx.other k1 k2 ‹_›
    · cases h
      obtain ⟨q1, q2, q3⟩ := loopCmdI_call hz
      refine hx.sample q1 q2 ?_ q3 ‹_›
      unfold loopCmdI at hz
      simp only [] at hz
      split at hz
      · rename_i s' es
        split at hz
        · cases hz; exact es
        · cases hz
      · cases hz
  · split at h
    · cases h; exact hx.other k1 k2 ‹_›
    · cases h

theorem ironCmdsI_iron {pinb : BitVec 8} {l : List CmdI} {y : LoopI × List (Nat × BitVec 8) × Bool}
    (hv : ValidEeprom c (shippedEeprom c)) (h : ironCmdsI v c pinb l = some y) : LoopIIron v c y.1 y.2.1 y.2.2 := by
  obtain ⟨x, hx, h⟩ := Option.bind_eq_some_iff.mp h
  have h0 : LoopIIron v c x [] false := by
    obtain ⟨s, h1, rfl⟩ := Option.map_eq_some_iff.mp hx
    exact .boot hv h1
  have key : ∀ (l : List CmdI) {x y : LoopI × List (Nat × BitVec 8) × Bool}, LoopIIron v c x.1 x.2.1 x.2.2 →
      l.foldlM (ironCmdI v c) x = some y → LoopIIron v c y.1 y.2.1 y.2.2 := by
    intro l
    induction l with
    | nil => intro x y h e; cases e; exact h
    | cons a l ih =>
      intro x y h e
      rw [List.foldlM_cons] at e
      obtain ⟨z, e1, e2⟩ := Option.bind_eq_some_iff.mp e
      exact ih (ironCmdI_iron h e1) e2
  exact key l (x := (x, [], false)) h0 h

end Verif
