import Verif.Proofs.UiInLoop
import Verif.Proofs.PanelIn
import Verif.Spec.MuxIn
/-
What a work function with ticks inside does to the timer of the display.
-/
namespace Verif
open Spec Props

variable {v : Speed} {c : Conf} {s a : Sys} {A T : Nat}

/-! ### the ports record what is written -/

theorem exitFrom_log {d : Display} : ∀ (n i : Nat) {p p' : Ports}, exitFrom p d n i = some p' → p.log.length ≤ p'.log.length := by
  intro n
  induction n with
  | zero => intro i p p' h; cases h; exact Nat.le_refl _
  | succ n ih =>
    intro i p p' h
    unfold exitFrom at h
    split at h
    · obtain ⟨q, e, h⟩ := Option.bind_eq_some_iff.mp h
      have h2 := ih _ h
      obtain ⟨io, -, e⟩ := Option.bind_eq_some_iff.mp e
      cases e
      have h3 : p.log.length + 4 ≤ p'.log.length := h2
      omega
    · cases h

/-- since the time `A` the timer of the display has stayed and the display has not been switched on, or it has -/
structure MuxIn (a : Sys) (A T : Nat) (s : Sys) : Prop where
  now : s.now = nowAt T
  since : A ≤ T
  log : a.ports.log.length ≤ s.ports.log.length
  timer : (s.disp.muxTimer = a.disp.muxTimer ∧ (s.disp.enabled = true → a.disp.enabled = true)) ∨
    ∃ t, A ≤ t ∧ t ≤ T ∧ s.disp.muxTimer = nowAt t ∧ a.ports.log.length < s.ports.log.length

theorem MuxIn.refl (h : s.now = nowAt T) : MuxIn s T T s := ⟨h, Nat.le_refl _, Nat.le_refl _, Or.inl ⟨rfl, id⟩⟩

theorem MuxIn.eff {s' : Sys} (h : MuxIn a A T s) (k : DispKept s s') : MuxIn a A T s' := by
  refine ⟨k.now.trans h.now, h.since, ?_, ?_⟩
  · rw [k.ports]; exact h.log
  · rw [k.ports, k.disp]; exact h.timer

theorem MuxIn.post {o : Option Sys} (h : MuxIn a A T s) (k : Post o (DispKept s)) : SimT (liftM o) T (MuxIn a A) :=
  SimT.lift fun s' e => h.eff (k s' e)

theorem MuxIn.tick (h : MuxIn a A T s) : SimT (tickIn s) T (MuxIn a A) :=
  (SimT.tick h.now).mono fun T' s' hT e => by
    subst e
    refine ⟨rfl, Nat.le_trans h.since hT, h.log, ?_⟩
    rcases h.timer with e | ⟨t, h1, h2, h3⟩
    · exact Or.inl e
    · exact Or.inr ⟨t, h1, by omega, h3⟩

theorem MuxIn.setCache (h : MuxIn a A T s) (x : Settings) : MuxIn a A T (setCache s x) := { h with }

theorem MuxIn.store (h : MuxIn a A T s) : SimT (sysStoreT s) T (MuxIn a A) :=
  SimT.bind h.tick fun _ _ _ h1 => h1.post (DispKept.refl _).sysStore

theorem MuxIn.setpoint (h : MuxIn a A T s) : SimT (liftM (contrtempUpdateSetpoint s)) T (MuxIn a A) :=
  h.post (DispKept.refl s).updateSetpoint

theorem MuxIn.update (h : MuxIn a A T s) : MuxIn a A T (menuRequestUpdate s) := { h with }

theorem MuxIn.idleSetpoint (h : MuxIn a A T s) (c : Conf) (w : Int) : SimT (contrtempSetIdleSetpointT c s w) T (MuxIn a A) :=
  SimT.ite (fun _ => SimT.bind (h.setCache { s.set.cache with idleSp := w }).setpoint fun _ _ _ h => h.store) fun _ =>
    SimT.pure h

theorem MuxIn.enabled (h : MuxIn a A T s) (c : Conf) (b : Bool) : SimT (contrtempSetEnabledT c s b) T (MuxIn a A) :=
  SimT.ite (fun _ => SimT.bind h.tick fun _ _ _ h1 => h1.post (still_doSetEnabled b)) fun _ => SimT.pure h

theorem MuxIn.presetsStore (h : MuxIn a A T s) : SimT (presetsStoreT s) T (MuxIn a A) :=
  SimT.bind h.store fun _ _ _ h => SimT.bind h.setpoint fun _ _ _ h => SimT.pure h.update

theorem MuxIn.presetsSet (h : MuxIn a A T s) (w : Int) : SimT (presetsSetActiveT s w) T (MuxIn a A) :=
  SimT.bindV fun x _ => (h.setCache x).presetsStore

theorem MuxIn.adjust (h : MuxIn a A T s) (c : Conf) (w : Int) : SimT (meastempAdjustSetT c s w) T (MuxIn a A) := by
  refine SimT.ite (fun hc => ?_) fun _ => SimT.pure h
  have h1 : MuxIn a A T (measureAdjustSet c s w) := by
    unfold measureAdjustSet
    rw [if_pos hc]
    exact { h with }
  exact SimT.bind (h1.setCache _).store fun _ _ _ h => SimT.pure h.update

theorem MuxIn.rampK (h : MuxIn a A T s) (c : Conf) (get : PidK → Int) (put : PidK → Int → PidK)
    (inc hi : Int) (up : Bool) : SimT (doRampKT c s get put inc hi up) T (MuxIn a A) := by
  unfold doRampKT
  simp only []
  split
  · split
    all_goals
      exact SimT.bindV fun x _ => SimT.bindV fun v _ => SimT.bind (h.setCache _).store fun _ _ _ h2 =>
        h2.post ((DispKept.refl _).setBoost _)
  · exact SimT.fail

theorem MuxIn.iron (h : MuxIn a A T s) (c : Conf) (b : Button) (e : BState) : SimT (contrtempButtonT c s b e) T (MuxIn a A) :=
  SimT.ite (fun _ => SimT.bind h.tick fun _ _ _ h => h.post (still_contrtempButton b e)) fun _ =>
    h.post (still_contrtempButton b e)

theorem MuxIn.arm (h : MuxIn a A T s) (ms : Int) : SimT (menuArmT s ms) T (MuxIn a A) :=
  SimT.bind h.tick fun _ _ _ h => h.post ((DispKept.refl _).menuArm ms)

theorem MuxIn.debugEnable (h : MuxIn a A T s) (c : Conf) (en : Bool) : SimT (debugEnableT c s en) T (MuxIn a A) := by
  refine SimT.bind h.tick fun T1 s1 _ h => SimT.lift fun s' e => ?_
  unfold Verif.debugEnable at e
  split at e
  · obtain ⟨⟨p, d⟩, e1, e⟩ := Option.bind_eq_some_iff.mp e
    cases e
    have e1 : displayEnable s1.now s1.ports s1.disp (!en) = some (p, d) := e1
    cases hd : s1.disp.enabled with
    | false =>
      cases en with
      | true =>
        unfold displayEnable at e1
        rw [if_pos (by rw [hd]; rfl)] at e1
        cases e1
        exact { h with }
      | false =>
        obtain ⟨dg, e', -⟩ := displayOn_eq s1.now s1.ports (d := s1.disp) hd
        change displayEnable s1.now s1.ports s1.disp true = some (p, d) at e1
        rw [e'] at e1
        cases e1
        have hl : s1.ports.log.length + 16 = (digitInit (digitInit (digitInit (digitInit s1.ports 0) 1) 2) 3).log.length := rfl
        have := h.log
        refine ⟨h.now, h.since, ?_, Or.inr ⟨T1, h.since, Nat.le_refl _, h.now, ?_⟩⟩
        · show _ ≤ (digitInit (digitInit (digitInit (digitInit s1.ports 0) 1) 2) 3).log.length
          omega
        · show _ < (digitInit (digitInit (digitInit (digitInit s1.ports 0) 1) 2) 3).log.length
          omega
    | true =>
      cases en with
      | false =>
        unfold displayEnable at e1
        rw [if_pos (by rw [hd]; rfl)] at e1
        cases e1
        exact { h with }
      | true =>
        unfold displayEnable at e1
        rw [if_neg (by rw [hd]; decide)] at e1
        simp only [Bool.not_true, Bool.false_eq_true, if_false] at e1
        obtain ⟨q, e2, e1⟩ := Option.bind_eq_some_iff.mp e1
        cases e1
        have hl := exitFrom_log _ _ e2
        refine ⟨h.now, h.since, Nat.le_trans h.log hl, ?_⟩
        rcases h.timer with ⟨k1, -⟩ | ⟨t, k1, k2, k3, k4⟩
        · exact Or.inl ⟨k1, fun hh => by cases hh⟩
        · exact Or.inr ⟨t, k1, k2, k3, Nat.lt_of_lt_of_le k4 hl⟩
  · cases e; exact h

theorem MuxIn.menuEnter (h : MuxIn a A T s) (c : Conf) (t : MenuState) : SimT (menuEnterT c s t) T (MuxIn a A) := by
  cases t <;> simp only [menuEnterT]
  case curtemp => exact h.enabled c _
  case selpreset => exact h.arm _
  case chgpreset => exact h.arm _
  case idletemp => exact h.arm _
  case debug => exact SimT.pure h
  all_goals split
  all_goals first
    | exact SimT.pure h
    | exact h.enabled c _
    | exact SimT.bind (h.arm _) fun _ _ _ h2 => h2.enabled c _

theorem MuxIn.menuSetState (h : MuxIn a A T s) (c : Conf) (t : MenuState) : SimT (menuSetStateT c s t) T (MuxIn a A) := by
  refine SimT.ite (fun _ => SimT.pure h) fun _ => ?_
  have h1 : MuxIn a A T { s with menu := { s.menu with state := t } } := { h with }
  exact SimT.bind (h1.menuEnter c t) fun _ _ _ h2 => SimT.pure h2.update

theorem MuxIn.rampHandler (h : MuxIn a A T s) (c : Conf) (r : RampHandler) (up : Bool) :
    SimT (rampHandlerT c s r up) T (MuxIn a A) := by
  cases r <;> simp only [rampHandlerT]
  · exact SimT.bindV fun sp _ => SimT.bindV fun v _ => SimT.bind (h.presetsSet v) fun _ _ _ h2 => h2.menuSetState c _
  · exact SimT.bindV fun sp _ => h.idleSetpoint c _
  · exact SimT.bindV fun v _ => h.adjust c v
  · exact h.rampK c _ _ _ _ _
  · exact h.rampK c _ _ _ _ _
  · exact h.rampK c _ _ _ _ _

theorem MuxIn.startRamping (h : MuxIn a A T s) (up pre : Bool) (r : Option RampHandler) :
    SimT (startRampingT s up pre r) T (MuxIn a A) := by
  unfold startRampingT
  refine SimT.ite (fun _ => ?_) fun _ => ?_
  · refine SimT.bind h.tick fun T1 s1 _ h1 => SimT.bindV fun t _ => ?_
    refine SimT.bind (P := MuxIn a A) (SimT.pure { h1 with }) fun T2 s2 _ h2 => ?_
    exact SimT.bind h2.tick fun _ _ _ h => SimT.pure { h with }
  · refine SimT.bind (P := MuxIn a A) (SimT.pure { h with }) fun T2 s2 _ h2 => ?_
    exact SimT.bind h2.tick fun _ _ _ h => SimT.pure { h with }

theorem MuxIn.startRampingButton (h : MuxIn a A T s) (b : Button) (e : BState) (pre : Bool) (r : RampHandler) :
    SimT (startRampingButtonT s b e pre r) T (MuxIn a A) :=
  SimT.ite (fun _ => SimT.ite (fun _ => h.startRamping _ _ _) fun _ => SimT.ite (fun _ => h.startRamping _ _ _) fun _ =>
    SimT.pure h) fun _ => SimT.pure h

theorem MuxIn.stop (h : MuxIn a A T s) : MuxIn a A T (stopRamping s) := { h with }

theorem MuxIn.menuButtonScreen (h : MuxIn a A T s) (c : Conf) (b : Button) (e : BState) :
    SimT (menuButtonScreenT c s b e) T (MuxIn a A) := by
  unfold menuButtonScreenT
  split
  · exact SimT.bind (h.startRampingButton b e _ _) fun _ _ _ h2 =>
      SimT.ite (fun _ => h2.menuSetState c _) fun _ => SimT.pure h2
  · refine SimT.bind (h.arm _) fun T2 s2 _ h2 => ?_
    cases e
    · simp only [reduceCtorEq, if_false, pure_bind]; exact h2.startRampingButton b _ _ _
    · simp only [if_true]
      cases b <;> simp only [reduceCtorEq, if_false, if_true, pure_bind]
      · exact h2.startRampingButton _ _ _ _
      · exact SimT.bind (h2.setCache _).presetsStore fun _ _ _ h3 => h3.startRampingButton _ _ _ _
      · exact SimT.bind (h2.setCache _).presetsStore fun _ _ _ h3 => h3.startRampingButton _ _ _ _
      · exact h2.startRampingButton _ _ _ _
    · simp only [reduceCtorEq, if_false, pure_bind]; exact h2.startRampingButton b _ _ _
  · exact SimT.bind (h.arm _) fun _ _ _ h2 => h2.startRampingButton b e _ _
  · exact SimT.ite (fun _ => SimT.pure h) fun _ => SimT.bind (h.arm _) fun _ _ _ h2 => h2.startRampingButton b e _ _
  · refine SimT.ite (fun _ => SimT.pure h) fun _ => SimT.ite (fun _ => ?_) fun _ => SimT.pure h
    cases b <;> simp only [reduceCtorEq, if_false, if_true, pure_bind]
    · exact SimT.pure h
    · exact SimT.bind (h.debugEnable c _) fun _ _ _ h3 => SimT.pure h3.update
    · exact SimT.bind (h.debugEnable c _) fun _ _ _ h3 => SimT.pure h3
    · exact SimT.pure h
  all_goals first
    | exact SimT.pure h
    | exact SimT.ite (fun _ => SimT.pure h) fun _ => h.startRampingButton b e _ _

theorem MuxIn.menuButton (h : MuxIn a A T s) (c : Conf) (b : Button) (e : BState) :
    SimT (menuButtonT c s b e) T (MuxIn a A) := by
  refine SimT.ite (fun _ => SimT.pure h) fun _ => SimT.bind (h.menuButtonScreen c b e) fun _ s2 _ h2 => ?_
  refine SimT.ite (fun _ => ?_) fun _ => SimT.pure h2
  simp only []
  exact SimT.ite (fun _ => SimT.ite (fun _ => h2.stop.menuSetState c _) fun _ => SimT.pure h2.stop) fun _ => SimT.pure h2.stop

theorem MuxIn.menuTimeouts (h : MuxIn a A T s) (c : Conf) : SimT (menuTimeoutsT c s) T (MuxIn a A) := by
  unfold menuTimeoutsT
  split
  all_goals first
    | exact SimT.pure h
    | exact SimT.bind h.tick fun _ _ _ h => SimT.ite (fun _ => SimT.ite (fun _ => SimT.bind (h.menuSetState c _)
        fun _ _ _ h2 => SimT.pure h2.stop) fun _ => SimT.bind (h.menuSetState c _) fun _ _ _ h2 => SimT.pure h2.stop)
        fun _ => SimT.pure h

theorem MuxIn.menuRamp (h : MuxIn a A T s) (c : Conf) : SimT (menuRampT c s) T (MuxIn a A) := by
  unfold menuRampT
  split
  · exact SimT.pure h
  all_goals
    refine SimT.bind h.tick fun _ _ _ h => SimT.ite (fun _ => ?_) fun _ => SimT.pure h
    first
      | exact h.startRamping _ _ _
      | exact SimT.bindV fun r _ => SimT.bind (h.rampHandler c r _) fun _ _ _ h2 =>
          SimT.bindV fun t _ => SimT.pure { h2 with }

theorem MuxIn.menuWork (h : s.now = nowAt T) (c : Conf) : SimT (menuWorkT c s) T (MuxIn s T) := by
  refine SimT.bind ((MuxIn.refl h).menuTimeouts c) fun T1 s1 _ h1 => ?_
  simp only []
  refine SimT.bind ((h1.eff still_menuIndicate).menuRamp c) fun T2 s2 _ h2 => SimT.lift fun s3 e3 => ?_
  unfold menuRefresh at e3
  split at e3
  · obtain ⟨k5, k2, k3⟩ := menuUpdateDisplay_lit _ e3
    refine ⟨k5.trans h2.now, h2.since, ?_, ?_⟩
    · rw [k2.ports]; exact h2.log
    · rw [k2.ports, k2.timer, k3]; exact h2.timer
  · cases e3; exact h2

theorem MuxIn.buttonsWork (h : s.now = nowAt T) (c : Conf) (pinb : BitVec 8) : SimT (buttonsWorkT c s pinb) T (MuxIn s T) := by
  have key : ∀ (l : List (Button × BState)) {T1 : Nat} {s1 : Sys}, MuxIn s T T1 s1 →
      SimT (l.foldlM (callButtonHandlersT c) s1) T1 (MuxIn s T) := by
    intro l
    induction l with
    | nil => intro T1 s1 h; exact SimT.pure h
    | cons x l ih =>
      intro T1 s1 h
      rw [List.foldlM_cons]
      refine SimT.bind ?_ fun _ s2 _ h2 => ih h2
      exact SimT.bind (h.iron c x.1 x.2) fun _ s1 _ h1 => h1.menuButton c x.1 x.2
  refine SimT.bind (MuxIn.refl h).tick fun T1 s1 _ h1 => SimT.bindV fun x _ => ?_
  exact key _ { h1 with }

/-- What a work function other than `display_work` does to the display. -/
theorem workT_lit {e : Ev} {g : List Nat} {s' : Sys} (hi : Inv c s) (h : s.now = nowAt T) (hg : g.sum < 1000)
    (he : IsWork e = true) (hw : workT c s e g = some (s', [])) (hn : e ≠ .displayWork) :
    Lit s s' ∨ s'.debugEn = true ∨ (s.debugEn = true ∧ s'.debugEn = false ∧ AllOff s'.ports.v ∧
      ∃ t, T ≤ t ∧ t ≤ T + g.sum ∧ s'.disp.muxTimer = nowAt t) := by
  have key : SimT (workT c s e) T (MuxIn s T) → Lit s s' ∨ s'.debugEn = true ∨
      (s.debugEn = true ∧ s'.debugEn = false ∧ AllOff s'.ports.v ∧
        ∃ t, T ≤ t ∧ t ≤ T + g.sum ∧ s'.disp.muxTimer = nowAt t) := by
    intro fin
    obtain ⟨T', -, k2, k3⟩ := fin _ _ _ hw
    have k2 : T' = T + g.sum := by simpa using k2
    subst k2
    obtain ⟨t, t', it, is', hs, -, es, hs', -, -⟩ := work_at hi he hg hw
    have d1 : t.debugEn = s.debugEn := (congrArg (·.debugEn) hs.rest :)
    have p1 : t.ports = s.ports := (congrArg (·.ports) hs.rest :)
    have m1 : t.disp.mux = s.disp.mux := (congrArg (·.disp.mux) hs.rest :)
    have d2 : t'.debugEn = s'.debugEn := (congrArg (·.debugEn) hs'.rest :)
    have p2 : t'.ports = s'.ports := (congrArg (·.ports) hs'.rest :)
    have m2 : t'.disp.mux = s'.disp.mux := (congrArg (·.disp.mux) hs'.rest :)
    rcases step_lit it es hn with hl | ⟨pinb, -, hh | ⟨h1, h2, h3⟩⟩
    · have hp : s'.ports = s.ports := by rw [← p2, hl.ports, p1]
      refine Or.inl ⟨by rw [← d2, hl.debugEn, d1], hp, by rw [← m2, hl.mux, m1], ?_⟩
      rcases k3.timer with ⟨k, -⟩ | ⟨_, -, -, -, k⟩
      · exact k
      · rw [hp] at k; omega
    · exact Or.inr (Or.inl (d2 ▸ hh))
    · refine Or.inr (Or.inr ⟨d1 ▸ h1, d2 ▸ h2, p2 ▸ h3.off, ?_⟩)
      rcases k3.timer with ⟨-, k⟩ | ⟨t, q1, q2, q3, -⟩
      · have e1 := hi.disp.en
        have e2 := is'.disp.en
        rw [← d1, h1] at e1
        rw [← d2, h2] at e2
        have := k e2
        rw [e1] at this
        cases this
      · exact ⟨t, q1, q2, q3⟩
  cases e with
  | menuWork => exact key (MuxIn.menuWork h c)
  | buttonsWork pinb => exact key (MuxIn.buttonsWork h c pinb)
  | settingsWork =>
    refine key (SimT.bind (MuxIn.refl h).tick fun T1 s1 _ h1 => SimT.lift fun s2 e2 => ?_)
    cases e2
    exact { h1 with }
  | displayWork => exact absurd rfl hn
  | measureWork =>
    obtain ⟨-, k1, -, k2, k3, -⟩ := measureWorkT_alone s _ _ _ hw
    exact Or.inl ⟨k1, k3, by rw [k2], by rw [k2]⟩
  | _ => cases he

/-! ### in the loop -/

/-- the digits of the display in the main loop; the display came on at the time `b` -/
structure MuxIInv (v : Speed) (c : Conf) (x : LoopI) (b : Nat) (l : List (Nat × Nat)) : Prop where
  inv : LoopIInv v c x
  small : ∀ p ∈ l, p.2 < 4
  timer : x.s.debugEn = false → x.s.disp.muxTimer = nowAt (b + l.length)
  ahead : x.s.debugEn = false → b + l.length ≤ x.T + 1
  late : x.s.debugEn = false → BehindI v .display x (b + l.length)
  lit : x.s.debugEn = false → ∀ j, DriverOn x.s.ports.v j = true ↔ ∃ t, l.head? = some (t, j)
  times : x.s.debugEn = false → ∀ k p, l.reverse[k]? = some p → b + k ≤ p.1 ∧ p.1 ≤ b + k + 2 * v.W
  order : x.s.debugEn = false → ∀ k p q, l.reverse[k]? = some p → l.reverse[k + 1]? = some q → q.2 = (p.2 + 1) % 4

/-- a step that keeps the lit digit -/
theorem MuxIInv.keep {x y : LoopI} {e : Option Ev} {b : Nat} {l : List (Nat × Nat)} (h : MuxIInv v c x b l)
    (hy : LoopIInv v c y) (hs : LoopIStep c x e y)
    (hk : y.s.debugEn = false → x.s.debugEn = false ∧ y.s.disp.muxTimer = x.s.disp.muxTimer ∧ y.s.ports = x.s.ports ∧
      BehindI v .display y (b + l.length)) : MuxIInv v c y b l where
  inv := hy
  small := h.small
  timer hd := (hk hd).2.1.trans (h.timer (hk hd).1)
  ahead hd := by have := h.ahead (hk hd).1; have := hs.time; omega
  late hd := (hk hd).2.2.2
  lit hd := by rw [(hk hd).2.2.1]; exact h.lit (hk hd).1
  times hd := h.times (hk hd).1
  order hd := h.order (hk hd).1

/-- steps other than calls leave the display alone -/
theorem LoopIStep.lit {x y : LoopI} {e : Option Ev} (hs : LoopIStep c x e y) :
    (Lit x.s y.s ∧ ∀ f pinb, e = some f → x.pc.call pinb ≠ some f) ∨
    ∃ f g pinb, e = some f ∧ x.pc.call pinb = some f ∧ workT c x.s f g = some (y.s, []) ∧ y.T = x.T + g.sum ∧
      y.reset = x.reset := by
  have no : ∀ {q : Pc} {f : Ev} {pinb : BitVec 8}, IsWork f = false → q.call pinb ≠ some f := by
    intro q f pinb hf hh
    rw [call_work hh] at hf
    cases hf
  cases hs with
  | reset _ h => exact Or.inl ⟨⟨rfl, rfl, rfl, rfl⟩, fun f p hh => by cases hh⟩
  | pass => exact Or.inl ⟨⟨rfl, rfl, rfl, rfl⟩, fun f p hh => by cases hh⟩
  | tick hD es => cases es; exact Or.inl ⟨⟨rfl, rfl, rfl, rfl⟩, fun f p hh => by cases hh; exact no rfl⟩
  | @ee e s' he hp es =>
    refine Or.inl ⟨?_, fun f p hh => by cases hh; exact no (by rcases he with rfl | rfl <;> rfl)⟩
    rcases he with rfl | rfl
    · obtain ⟨st, -, es⟩ := Option.bind_eq_some_iff.mp es
      cases es
      exact ⟨rfl, rfl, rfl, rfl⟩
    · cases es; exact ⟨rfl, rfl, rfl, rfl⟩
  | adc hp => exact Or.inl ⟨⟨rfl, rfl, rfl, rfl⟩, fun f p hh => by cases hh; exact no rfl⟩
  | @call e g s' pinb hD hp hw => exact Or.inr ⟨e, g, pinb, rfl, hp, hw, rfl, rfl⟩

/-- the step is a lighting, switches the display on, or leaves the lit digit alone -/
theorem MuxIInv.cases {x y : LoopI} {e : Option Ev} {b : Nat} {l : List (Nat × Nat)} (hv : v.SaneI) (hW : v.W ≤ 1)
    (h : MuxIInv v c x b l) (hs : LoopIStep c x e y) (ht : InTimeI v y) :
    (x.s.debugEn = false ∧ y.s.debugEn = false ∧ ∃ j, DriverOn x.s.ports.v j = false ∧
      (∀ k, DriverOn y.s.ports.v k = true ↔ k = j) ∧ MuxIInv v c y b ((y.T, j) :: l)) ∨
    (x.s.debugEn = true ∧ y.s.debugEn = false ∧ AllOff y.s.ports.v ∧
      ∃ b', x.T ≤ b' ∧ b' ≤ x.T + v.W ∧ MuxIInv v c y b' []) ∨
    (¬ (x.s.debugEn = true ∧ y.s.debugEn = false) ∧ (y.s.ports = x.s.ports ∨ y.s.debugEn = true) ∧
      MuxIInv v c y b l) := by
  have hy := h.inv.step hv hs ht
  have hdog := h.inv.dog
  have hres := h.inv.reset
  have hnow : x.s.now = nowAt x.T := h.inv.now
  have kept : Lit x.s y.s → ¬ CallsI .display x e y → ¬ (x.s.debugEn = true ∧ y.s.debugEn = false) ∧
      (y.s.ports = x.s.ports ∨ y.s.debugEn = true) ∧ MuxIInv v c y b l := fun hl hnc =>
    ⟨(by rw [hl.debugEn]; rintro ⟨h1, h2⟩; rw [h1] at h2; cases h2), Or.inl hl.ports, h.keep hy hs fun hd =>
      ⟨hl.debugEn.symm.trans hd, hl.timer, hl.ports, (h.late (hl.debugEn.symm.trans hd)).step (by decide) hdog hs hnc⟩⟩
  rcases hs.lit with ⟨hl, hno⟩ | ⟨f, g, pinb, rfl, hp, hw, hT, hr⟩
  · by_cases hfd : e = some .displayWork
    · subst hfd
      exfalso
      cases hs with
      | ee he => rcases he with he | he <;> cases he
      | call _ hp _ => exact hno _ _ rfl hp
    · refine Or.inr (Or.inr (kept hl ?_))
      rintro ⟨f, p, rfl, h2⟩
      cases h2
      exact hfd rfl
  have hdy : y.T ≤ y.reset + v.W := ht.1
  have hgs : g.sum < 1000 := by have := hv.1; omega
  by_cases hfd : f = .displayWork
  · subst hfd
    have hf : step c { x.s with now := nowAt y.T } .displayWork = some y.s := by
      have hw : (step c { x.s with now := toU16 (x.s.now + g.headD 0) } .displayWork).map (fun s => (s, g.tail)) =
          some (y.s, []) := by
        rw [← hw]
        show _ = (liftM (step c { x.s with now := toU16 (x.s.now + g.headD 0) } .displayWork) : TM Sys) g.tail
        cases step c { x.s with now := toU16 (x.s.now + g.headD 0) } .displayWork <;> rfl
      obtain ⟨s1, e1, e2⟩ := Option.map_eq_some_iff.mp hw
      have e3 : s1 = y.s := congrArg Prod.fst e2
      have e4 : g.tail = [] := congrArg Prod.snd e2
      have e5 : toU16 (x.s.now + g.headD 0) = nowAt y.T := by
        rw [hnow, nowAt_add, hT]
        match g, e4 with
        | [], _ => rfl
        | [_], _ => rfl
      rw [← e3, ← e1, e5]
    have hrng : 0 ≤ nowAt y.T ∧ nowAt y.T ≤ 65535 := by unfold nowAt; omega
    have hin : Inv c { x.s with now := nowAt y.T } := { h.inv.inv with now := hrng }
    obtain ⟨hdbg, htm⟩ := displayWork_timer hin.disp hf
    have hdbg : y.s.debugEn = x.s.debugEn := hdbg
    have hno : ¬ (x.s.debugEn = true ∧ y.s.debugEn = false) := by
      rw [hdbg]; rintro ⟨h1, h2⟩; rw [h1] at h2; cases h2
    rcases displayWork_round hin.disp hf with ⟨hd, hx, j, hj4, hj, hnext⟩ | ⟨hor, es⟩
    · have hd : x.s.debugEn = false := hd
      have hx : timerExpired (nowAt y.T) x.s.disp.muxTimer = true := hx
      have hnext : ∀ i, DriverOn x.s.ports.v i = true → j = (i + 1) % 4 := hnext
      have hlate := (h.late hd).le
      have hah := h.ahead hd
      have htim := h.timer hd
      rw [htim, expired_at (by omega) (by omega)] at hx
      have hoff : DriverOn x.s.ports.v j = false := by
        cases hjx : DriverOn x.s.ports.v j with
        | false => rfl
        | true => have := hnext j hjx; omega
      have htm' : y.s.disp.muxTimer = toU16 (x.s.disp.muxTimer + toU16 1) := by
        rcases htm with hsame | hh
        · have := (hj j).mpr rfl
          rw [hsame] at this
          have this : DriverOn x.s.ports.v j = true := this
          rw [hoff] at this
          cases this
        · exact hh
      refine Or.inl ⟨hd, hdbg.trans hd, j, hoff, hj, ?_⟩
      refine ⟨hy, ?_, fun _ => ?_, fun _ => ?_, fun _ => .of ?_, fun _ k => ?_, fun _ k p hk => ?_, fun _ k p q hp hq => ?_⟩
      · intro p hp
        rcases List.mem_cons.mp hp with rfl | hp
        · exact hj4
        · exact h.small p hp
      · rw [htm', htim, List.length_cons]
        unfold nowAt toU16
        omega
      · rw [List.length_cons]; omega
      · rw [List.length_cons]; omega
      · rw [hj k, List.head?_cons]
        constructor
        · rintro rfl; exact ⟨_, rfl⟩
        · rintro ⟨t, ht⟩; cases ht; rfl
      · rcases reverse_cons_get hk with hk | ⟨rfl, rfl⟩
        · exact h.times hd k p hk
        · exact ⟨hx, by show y.T ≤ _; omega⟩
      · rcases reverse_cons_get hp with hp | ⟨rfl, rfl⟩
        · rcases reverse_cons_get hq with hq | ⟨hk, rfl⟩
          · exact h.order hd k p q hp hq
          · refine hnext p.2 ((h.lit hd p.2).mpr ⟨p.1, ?_⟩)
            rw [List.getElem?_reverse (by omega)] at hp
            rw [List.head?_eq_getElem?]
            rw [show l.length - 1 - k = 0 by omega] at hp
            exact hp
        · rw [List.getElem?_eq_none (by simp)] at hq
          cases hq
    · refine Or.inr (Or.inr ⟨hno, Or.inl (by rw [es]), h.keep hy hs fun hd => ?_⟩)
      have hd' := hdbg.symm.trans hd
      refine ⟨hd', by rw [es], by rw [es], .of ?_⟩
      rcases hor with hor | hor
      · have hor : x.s.debugEn = true := hor
        rw [hd'] at hor; cases hor
      · have hor : timerExpired (nowAt y.T) x.s.disp.muxTimer = false := hor
        have hlate := (h.late hd').le
        have hah := h.ahead hd'
        have hx := expired_at (T := y.T) (B := b + l.length) (by omega) (by omega)
        rw [← h.timer hd', hor] at hx
        simp only [Bool.false_eq_true, false_iff] at hx
        omega
  · have hnc : ¬ CallsI .display x (some f) y := by
      rintro ⟨_, p, h1, h2⟩
      cases h1
      cases h2
      exact hfd rfl
    rcases workT_lit h.inv.inv hnow hgs (call_work hp) hw hfd with hl | hh | ⟨h1, h2, h3, t, q1, q2, q3⟩
    · exact Or.inr (Or.inr (kept hl hnc))
    · exact Or.inr (Or.inr ⟨(by rw [hh]; rintro ⟨-, h⟩; cases h), Or.inr hh,
        h.keep hy hs fun hd => (by rw [hh] at hd; cases hd)⟩)
    · refine Or.inr (Or.inl ⟨h1, h2, h3, t, q1, by omega, hy, fun p hp => (by cases hp), fun _ => q3, fun _ => ?_,
        fun _ => .of ?_, fun _ j => ?_, fun _ k p hk => (by simp at hk), fun _ k p q hp => (by simp at hp)⟩)
      · show t + 0 ≤ _; omega
      · show _ ≤ t + 0; omega
      · rw [h3 j]; simp

theorem Spec.LoopIMux.inv {x : LoopI} {t0 : Nat} {l : List (Nat × Nat)} (hv : v.SaneI) (hW : v.W ≤ 1)
    (h : LoopIMux v c x t0 l) : ∃ b, t0 ≤ b ∧ b ≤ t0 + v.W ∧ MuxIInv v c x b l := by
  induction h with
  | boot hv e =>
    refine ⟨0, Nat.le_refl _, by omega, LoopIInv.boot hv e, fun p hp => (by cases hp), fun hd => ?_,
      fun _ => Nat.zero_le _, fun _ => .of (Nat.le_refl _), fun hd j => ?_, fun _ k p hk => (by simp at hk),
      fun _ k p q hp => (by simp at hp)⟩
    · exact (boot_mux e hd).1
    · have := (boot_mux e hd).2 j
      show DriverOn _ j = true ↔ _
      rw [this]
      simp
  | @light x e y t0 l j _ hs ht hx hy ih =>
    obtain ⟨b, b1, b2, ih⟩ := ih
    refine ⟨b, b1, b2, ?_⟩
    rcases ih.cases hv hW hs ht with ⟨-, -, j', -, h2, h3⟩ | ⟨-, -, h1, -⟩ | ⟨-, h1 | h1, h2⟩
    · rw [h2] at hy
      rw [hy]
      exact h3
    · rw [h1] at hy; cases hy
    · rw [h1, hx] at hy; cases hy
    · exact {
        inv := h2.inv
        small := fun p hp => (by
          rcases List.mem_cons.mp hp with rfl | hp
          · have := h2.inv.inv.disp
            rw [(this.drv j hy).2]
            exact this.mux
          · exact h2.small p hp)
        timer := fun hd => (by rw [h1] at hd; cases hd)
        ahead := fun hd => (by rw [h1] at hd; cases hd)
        late := fun hd => (by rw [h1] at hd; cases hd)
        lit := fun hd => (by rw [h1] at hd; cases hd)
        times := fun hd => (by rw [h1] at hd; cases hd)
        order := fun hd => (by rw [h1] at hd; cases hd) }
  | @on x e y t0 l _ hs ht hx hy ih =>
    obtain ⟨b, -, -, ih⟩ := ih
    rcases ih.cases hv hW hs ht with ⟨h1, -⟩ | ⟨-, -, -, h1⟩ | ⟨h1, -⟩
    · rw [hx] at h1; cases h1
    · exact h1
    · exact absurd ⟨hx, hy⟩ h1
  | @other x e y t0 l _ hs ht hx hn ih =>
    obtain ⟨b, b1, b2, ih⟩ := ih
    refine ⟨b, b1, b2, ?_⟩
    rcases ih.cases hv hW hs ht with ⟨-, -, j, h1, h2, -⟩ | ⟨h1, h2, -⟩ | ⟨-, -, h1⟩
    · have := hx j ((h2 j).mpr rfl)
      rw [h1] at this
      cases this
    · exact absurd ⟨h1, h2⟩ hn
    · exact h1

/-! ### concrete runs -/

/-- a command, with the digits lit since the display is on -/
def muxCmdI (v : Speed) (c : Conf) (x : LoopI × Nat × List (Nat × Nat)) (a : CmdI) : Option (LoopI × Nat × List (Nat × Nat)) :=
  (loopCmdI v c NeverI x.1 a).bind fun y =>
    match [0, 1, 2, 3].find? fun j => !DriverOn x.1.s.ports.v j && DriverOn y.s.ports.v j with
    | some j => some (y, x.2.1, (y.T, j) :: x.2.2)
    | none => if x.1.s.debugEn = true ∧ y.s.debugEn = false then some (y, x.1.T, []) else some (y, x.2)

theorem muxCmdI_mux {x y : LoopI × Nat × List (Nat × Nat)} {a : CmdI} (hx : LoopIMux v c x.1 x.2.1 x.2.2)
    (h : muxCmdI v c x a = some y) : LoopIMux v c y.1 y.2.1 y.2.2 := by
  obtain ⟨z, h1, h⟩ := Option.bind_eq_some_iff.mp h
  obtain ⟨e, hs, ht, -⟩ := loopCmdI_stretch h1
  split at h
  · rename_i j hj
    cases h
    have := List.find?_some hj
    simp only [Bool.and_eq_true, Bool.not_eq_true'] at this
    exact hx.light hs ht this.1 this.2
  · rename_i hj
    split at h
    · rename_i hh
      cases h
      exact hx.on hs ht hh.1 hh.2
    · rename_i hh
      cases h
      refine hx.other hs ht (fun j hz => ?_) hh
      rw [List.find?_eq_none] at hj
      have key : j ∈ [0, 1, 2, 3] → DriverOn x.1.s.ports.v j = true := fun hm => by
        have := hj j hm
        rw [hz] at this
        simpa using this
      match j with
      | 0 | 1 | 2 | 3 => exact key (by decide)
      | _ + 4 => cases hz

def muxCmdsI (v : Speed) (c : Conf) (pinb : BitVec 8) (l : List CmdI) : Option (LoopI × Nat × List (Nat × Nat)) :=
  (loopBootI c pinb).bind fun x => l.foldlM (muxCmdI v c) (x, 0, [])

theorem muxCmdsI_mux {pinb : BitVec 8} {l : List CmdI} {y : LoopI × Nat × List (Nat × Nat)}
    (hv : ValidEeprom c (shippedEeprom c)) (h : muxCmdsI v c pinb l = some y) : LoopIMux v c y.1 y.2.1 y.2.2 := by
  obtain ⟨x, h1, h2⟩ := Option.bind_eq_some_iff.mp h
  obtain ⟨s, h3, rfl⟩ := Option.map_eq_some_iff.mp h1
  exact foldlM_inv (P := fun x => LoopIMux v c x.1 x.2.1 x.2.2) (fun x a y hx h => muxCmdI_mux hx h) l
    (LoopIMux.boot hv h3) h2

end Verif
