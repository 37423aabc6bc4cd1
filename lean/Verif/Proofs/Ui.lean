import Verif.Spec.Ui
import Verif.Proofs.LoopPanel
import Verif.Props.Press
/-
The firmware beside the user interface as a machine of its own.
-/
namespace Verif
open Spec Props

variable {c : Conf} {s : Sys} {u : Ui} {T : Nat}

/-! ### what a call of the button handler does to the timers of the ramp -/

/-- the displayed error stays, and a press that starts a ramp starts its timer -/
structure RestEff (s s' : Sys) (e : BState) (starts : Bool) : Prop where
  err : s'.menu.dispErr = s.menu.dispErr
  timer : e = .posedge → s'.menu.rampTimer = if starts then s.now else s.menu.rampTimer
  period : e = .posedge → s'.menu.period = if starts then 400 else s.menu.period

theorem RestEff.same (e : BState) : RestEff s s e false := ⟨rfl, fun _ => rfl, fun _ => rfl⟩

theorem MenuKept.rest {s' : Sys} (h : MenuKept s s') (e : BState) : RestEff s s' e false := by
  obtain ⟨u, hm⟩ := h.menu
  exact ⟨by rw [hm], fun _ => by rw [hm]; rfl, fun _ => by rw [hm]; rfl⟩

theorem startRampingButton_rest {b : Button} (hb : b ≠ .iron) (e : BState) (pre : Bool) (r : RampHandler) :
    Post (startRampingButton s b e pre r) fun s' => RestEff s s' e (b ≠ .set) := by
  unfold startRampingButton
  split
  · split
    · obtain ⟨pt, e1, -⟩ := startRamping_eff (s := s) false pre (some r)
      rw [e1]
      exact Post.pure ⟨rfl, fun _ => by simp [*], fun _ => by simp [*]⟩
    · split
      · obtain ⟨pt, e1, -⟩ := startRamping_eff (s := s) true pre (some r)
        rw [e1]
        exact Post.pure ⟨rfl, fun _ => by simp [*], fun _ => by simp [*]⟩
      · have : b = .set := by cases b <;> simp_all
        subst this
        exact Post.pure (RestEff.same e)
  · exact Post.pure ⟨rfl, fun h => absurd h ‹_›, fun h => absurd h ‹_›⟩

theorem menuButtonScreen_rest (hi : Inv c s) {b : Button} (hb : b ≠ .iron) (e : BState) :
    Post (menuButtonScreen c s b e) fun s' =>
      RestEff s s' e (b ≠ .set && (startsRamp s.menu.state true).isSome) := by
  have hsc := hi.menu.screen
  have start : ∀ {s1 : Sys} (pre : Bool) (r : RampHandler), s1.now = s.now → s1.menu.rampTimer = s.menu.rampTimer →
      s1.menu.period = s.menu.period → s1.menu.dispErr = s.menu.dispErr →
      Post (startRampingButton s1 b e pre r) fun s' => RestEff s s' e (b ≠ .set && true) := by
    intro s1 pre r h1 h2 h3 h4
    refine (startRampingButton_rest hb e pre r).mono fun s2 h => ⟨h.err.trans h4, fun he => ?_, fun he => ?_⟩
    · rw [h.timer he, h1, h2]; simp
    · rw [h.period he, h3]; simp
  have none' : ∀ {s' : Sys}, MenuKept s s' → RestEff s s' e (b ≠ .set && false) := by
    intro s' h
    rw [Bool.and_false]
    exact h.rest e
  unfold menuButtonScreen
  cases hst : s.menu.state <;> simp only [hst, ScreenExists] at hsc <;>
    simp only [hsc, Bool.not_true, Bool.false_eq_true, if_false, startsRamp, Option.isSome_some, Option.isSome_none]
  case curtemp =>
    refine Post.bind (start true .settemp rfl rfl rfl rfl) fun s2 h2 => ?_
    split
    · rename_i hh
      refine (menuSetState_eff (t := .selpreset) rfl).mono fun s3 h3 => ?_
      rcases h3 with ⟨-, rfl⟩ | ⟨-, k, -⟩
      · exact h2
      · obtain ⟨u, hm⟩ := k.menu
        exact ⟨by rw [hm]; exact h2.err, fun he => absurd (hh.1.symm.trans he) (by decide),
          fun he => absurd (hh.1.symm.trans he) (by decide)⟩
    · exact Post.pure h2
  case selpreset =>
    rw [menuArm_hold s (by decide)]
    simp only [Option.bind_eq_bind, Option.bind_some]
    have pst : ∀ x, Post (presetsStore (setCache { s with menu := { s.menu with timeout := toU16 (s.now + 3000) } } x))
        fun s' => s'.now = s.now ∧ s'.menu.rampTimer = s.menu.rampTimer ∧ s'.menu.period = s.menu.period ∧
          s'.menu.dispErr = s.menu.dispErr := by
      intro x
      refine (MenuKept.refl _).presetsStore.mono fun s2 h2 => ?_
      obtain ⟨u, hm⟩ := h2.1.menu
      exact ⟨h2.1.now, by rw [hm]; rfl, by rw [hm]; rfl, by rw [hm]; rfl⟩
    cases e
    · simp only [reduceCtorEq, if_false, Option.bind_some, pure]
      exact start true .settemp rfl rfl rfl rfl
    · cases b <;> simp only [reduceCtorEq, if_false, if_true, Option.bind_some, pure]
      · exact start true .settemp rfl rfl rfl rfl
      · exact Post.bind (pst _) fun s2 ⟨h1, h2, h3, h4⟩ => start true .settemp h1 h2 h3 h4
      · exact Post.bind (pst _) fun s2 ⟨h1, h2, h3, h4⟩ => start true .settemp h1 h2 h3 h4
      · exact absurd rfl hb
    · simp only [reduceCtorEq, if_false, Option.bind_some, pure]
      exact start true .settemp rfl rfl rfl rfl
  case debug =>
    have deb : ∀ {s1 : Sys} en, s1.menu = s.menu → Post (debugEnable c s1 en) fun s' => s'.menu = s.menu := by
      intro s1 en h
      unfold debugEnable
      rw [if_pos hsc]
      exact Post.bindAny fun pd => Post.pure h
    have fin : ∀ {s' : Sys}, s'.menu = s.menu → RestEff s s' e (b ≠ .set && false) := by
      intro s' h
      rw [Bool.and_false]
      exact ⟨by rw [h], fun _ => by rw [h]; rfl, fun _ => by rw [h]; rfl⟩
    cases e
    · cases b
      · exact Post.pure (fin rfl)
      · exact Post.bind (P := fun s' => s' = s) (Post.pure rfl) fun s1 h1 => by
          subst h1
          exact Post.bind (deb _ rfl) fun s2 h2 => Post.pure (by
            have := fin h2
            exact ⟨this.err, this.timer, this.period⟩)
      · exact Post.bind (deb _ rfl) fun s2 h2 => Post.pure (fin h2)
      · exact absurd rfl hb
    · exact Post.pure (fin rfl)
    · exact Post.pure (fin rfl)
  case chgpreset =>
    rw [menuArm_hold s (by decide)]
    exact start _ _ rfl rfl rfl rfl
  case idletemp =>
    rw [menuArm_hold s (by decide)]
    exact start _ _ rfl rfl rfl rfl
  all_goals first
    | exact start _ _ rfl rfl rfl rfl
    | exact Post.pure (none' (MenuKept.refl s))

theorem menuButton_rest (hi : Inv c s) {b : Button} (hb : b ≠ .iron) (e : BState) :
    Post (menuButton c s b e) fun s' =>
      RestEff s s' e (b ≠ .set && (startsRamp s.menu.state true).isSome) := by
  unfold menuButton
  rw [if_neg hb]
  refine Post.bind (menuButtonScreen_rest hi hb e) fun s1 h1 => ?_
  split
  · rename_i he
    have no : ∀ {s' : Sys}, s'.menu.dispErr = s1.menu.dispErr →
        RestEff s s' e (b ≠ .set && (startsRamp s.menu.state true).isSome) := fun h =>
      ⟨h.trans h1.err, fun hh => absurd (he.symm.trans hh) (by decide), fun hh => absurd (he.symm.trans hh) (by decide)⟩
    simp only []
    split
    · split
      · refine (menuSetState_eff (s := stopRamping s1) (nextMenuState_ok c _).1).mono fun s2 h2 => no ?_
        rcases h2 with ⟨-, rfl⟩ | ⟨-, k, -⟩
        · rfl
        · obtain ⟨u, hm⟩ := k.menu
          rw [hm]; rfl
      · exact Post.pure (no rfl)
    · exact Post.pure (no rfl)
  · exact Post.pure h1

/-! ### the relation -/

/-- the number displayed for the failures -/
def errNo (f : Bool × Bool) : Nat := (if f.1 then 1 else 0) ||| (if f.2 then 2 else 0)

theorem errNo_inj {f g : Bool × Bool} : errNo f = errNo g ↔ f = g := by
  obtain ⟨a, b⟩ := f
  obtain ⟨a', b'⟩ := g
  cases a <;> cases b <;> cases a' <;> cases b' <;> decide

theorem menuError_no (s : Sys) : menuError s = errNo (failures s) := by
  unfold menuError errNo failures
  simp only []
  have : ∀ e : BitVec 8, (e &&& 1#8 ≠ 0) ↔ e.getLsbD 0 = true := by decide
  simp only [this]

/-- the distances between the steps of a ramp -/
def Period (p : Nat) : Prop := p = 400 ∨ p = 200 ∨ p = 100 ∨ p = 50 ∨ p = 25

/-- the firmware is where the user interface is -/
structure UiRel (s : Sys) (u : Ui) : Prop where
  agrees : Agrees s u
  err : s.menu.dispErr = errNo u.failed
  hold : ∀ L, holdTime u.screen = some L → s.menu.timeout = nowAt (u.since + L)
  wait : u.ramp = .preUp ∨ u.ramp = .preDown → s.menu.rampPreTimer = nowAt (u.rampAt + 1000)
  going : Ramping u.ramp = true → s.menu.rampTimer = nowAt u.rampAt ∧ s.menu.period = u.period ∧ Period u.period

/-- one call of the button handler, in the user interface -/
def Spec.Ui.event (u : Ui) (c : Conf) (T : Nat) (b : Button) : BState → Ui
  | .posedge => (u.touch T).press T b
  | .pressed => u.touch T
  | .negedge => (u.touch T).release c T b

theorem touch_same (u : Ui) (T : Nat) : (u.touch T).screen = u.screen ∧ (u.touch T).ramp = u.ramp ∧
    (u.touch T).rampAt = u.rampAt ∧ (u.touch T).period = u.period ∧ (u.touch T).vals = u.vals ∧
    (u.touch T).debug = u.debug ∧ (u.touch T).failed = u.failed ∧ (u.touch T).pins = u.pins ∧
    (u.touch T).since = if holdTime u.screen = some 3000 then T else u.since := by
  unfold Ui.touch
  split <;> simp [*]

theorem nextScreen_ne {m : MenuState} (h : (holdTime m).isSome) : nextScreen c m ≠ m := by
  rw [nextScreen_eq]
  cases m <;> simp only [holdTime] at h <;> first
    | (cases h; done)
    | (simp only [nextMenuState]; first | decide | (repeat' split) <;> decide)

theorem sameVals_active {a b : Settings} (h : SameVals a b) : a.active = b.active := by
  have : ({ a with serial := 0 } : Settings).active = ({ b with serial := 0 } : Settings).active :=
    congrArg Settings.active h
  exact this

theorem sameVals_with {a b : Settings} (h : SameVals a b) (n : Nat) :
    SameVals { a with active := n } { b with active := n } := by
  unfold SameVals at h ⊢
  obtain ⟨a1, a2, a3, a4, a5, a6⟩ := a
  obtain ⟨b1, b2, b3, b4, b5, b6⟩ := b
  simp only [Settings.mk.injEq] at h ⊢
  simp [h]

/-- the panel and the user interface -/
structure PanelRel (p : Panel) (u : Ui) : Prop where
  screen : p.state = u.screen
  ramp : p.ramp = u.ramp
  vals : SameVals p.cache u.vals
  debug : p.debugEn = u.debug

theorem panelRel_iff {s : Sys} : Agrees s u ↔ PanelRel s.panel u :=
  ⟨fun h => ⟨h.screen, h.ramp, h.vals, h.debug⟩, fun h => ⟨h.screen, h.ramp, h.vals, h.debug⟩⟩

theorem PanelRel.touch {p : Panel} (h : PanelRel p u) (T : Nat) : PanelRel p (u.touch T) := by
  obtain ⟨h1, h2, -, -, h5, h6, -⟩ := touch_same u T
  exact ⟨h.screen.trans h1.symm, h.ramp.trans h2.symm, by rw [h5]; exact h.vals, h.debug.trans h6.symm⟩

theorem PanelRel.press {p : Panel} (h : PanelRel p u) (hd : u.screen = .debug → c.debug = true) (now : Int) {b : Button}
    (hb : b ≠ .iron) : PanelRel (p.press c now b) (u.press T b) := by
  obtain ⟨st, r, pr, ca, de⟩ := p
  obtain ⟨m, a, r', ra, pe, va, de', fa, pi⟩ := u
  obtain ⟨h1, h2, h3, h4⟩ := h
  dsimp only at h1 h2 h3 h4 hd
  subst h1 h2 h4
  cases b
  · exact ⟨rfl, rfl, h3, rfl⟩
  · cases st <;> first
      | exact ⟨rfl, rfl, h3, rfl⟩
      | (simp only [Panel.press, Ui.press, hd, reduceCtorEq, if_true, if_false, or_self]; exact ⟨rfl, rfl, h3, rfl⟩)
  · cases st <;> first
      | exact ⟨rfl, rfl, h3, rfl⟩
      | (simp only [Panel.press, Ui.press, hd, reduceCtorEq, if_true, if_false, or_self]; exact ⟨rfl, rfl, h3, rfl⟩)
  · exact absurd rfl hb

theorem PanelRel.release {p : Panel} (h : PanelRel p u) (ha : p.cache.active < 6) {b : Button}
    (hb : b ≠ .iron) : PanelRel (p.release c b) (u.release c T b) := by
  obtain ⟨st, r, pr, ca, de⟩ := p
  obtain ⟨m, a, r', ra, pe, va, de', fa, pi⟩ := u
  obtain ⟨h1, h2, h3, h4⟩ := h
  dsimp only at h1 h2 h3 h4 ha
  subst h1 h2 h4
  have hact := sameVals_active h3
  have hnext : SameVals ca.presetsNext { va with active := (va.active + 1) % 6 } := by
    have : ca.presetsNext = { ca with active := (va.active + 1) % 6 } := by
      unfold Settings.presetsNext ringNext
      congr 1
      simp only []
      split <;> omega
    rw [this]
    exact sameVals_with h3 _
  have hprev : SameVals ca.presetsPrev { va with active := (va.active + 5) % 6 } := by
    have : ca.presetsPrev = { ca with active := (va.active + 5) % 6 } := by
      unfold Settings.presetsPrev ringPrev
      congr 1
      simp only []
      split <;> omega
    rw [this]
    exact sameVals_with h3 _
  cases b
  · simp only [Panel.release, Ui.release, Ui.enter, nextScreen_eq, if_true]
    cases de <;> exact ⟨rfl, rfl, h3, rfl⟩
  · cases st <;> first
      | exact ⟨rfl, rfl, h3, rfl⟩
      | exact ⟨rfl, rfl, hprev, rfl⟩
  · cases st <;> first
      | exact ⟨rfl, rfl, h3, rfl⟩
      | exact ⟨rfl, rfl, hnext, rfl⟩
  · exact absurd rfl hb

theorem PanelRel.event {p : Panel} (h : PanelRel p u) (hd : u.screen = .debug → c.debug = true) (ha : p.cache.active < 6)
    (now : Int) {b : Button} (hb : b ≠ .iron) (e : BState) : PanelRel (p.call c now b e) (u.event c T b e) := by
  cases e
  · exact (h.touch T).press (by rw [(touch_same u T).1]; exact hd) now hb
  · exact (h.touch T).release ha hb
  · exact h.touch T

/-! ### the times of the user interface -/

theorem press_same (u : Ui) (T : Nat) (b : Button) : (u.press T b).screen = u.screen ∧ (u.press T b).since = u.since ∧
    (u.press T b).failed = u.failed := by
  unfold Ui.press
  repeat' split
  all_goals exact ⟨rfl, rfl, rfl⟩

theorem release_failed (u : Ui) (c : Conf) (T : Nat) (b : Button) : (u.release c T b).failed = u.failed := by
  unfold Ui.release
  simp only []
  repeat' split
  all_goals rfl

theorem event_failed (u : Ui) (c : Conf) (T : Nat) (b : Button) (e : BState) : (u.event c T b e).failed = u.failed := by
  cases e
  · exact ((press_same _ T b).2.2).trans (touch_same u T).2.2.2.2.2.2.1
  · exact (release_failed _ c T b).trans (touch_same u T).2.2.2.2.2.2.1
  · exact (touch_same u T).2.2.2.2.2.2.1

/-- since when the screen counts after a release -/
theorem release_since (u : Ui) (c : Conf) (T : Nat) {b : Button} (hb : b ≠ .iron) {L : Nat}
    (hL : holdTime (u.release c T b).screen = some L) : ((u.release c T b).screen ≠ u.screen → (u.release c T b).since = T) ∧
    ((u.release c T b).screen = u.screen → (u.release c T b).since = u.since) := by
  obtain ⟨m, a, r', ra, pe, va, de, fa, pi⟩ := u
  cases b
  · revert hL
    simp only [Ui.release, Ui.enter, if_true]
    cases de
    · simp only [Bool.false_eq_true, if_false]
      intro hL
      refine ⟨fun _ => by trivial, fun h => ?_⟩
      exact absurd h (nextScreen_ne (by rw [← h, hL]; rfl))
    · simp only [if_true]
      exact fun _ => ⟨fun h => absurd rfl h, fun _ => by trivial⟩
  · cases m <;> first
      | exact ⟨fun h => absurd rfl h, fun _ => rfl⟩
      | exact ⟨fun _ => rfl, fun h => by cases h⟩
  · cases m <;> first
      | exact ⟨fun h => absurd rfl h, fun _ => rfl⟩
      | exact ⟨fun _ => rfl, fun h => by cases h⟩
  · exact absurd rfl hb

/-- since when the screen counts after an event -/
theorem event_since (u : Ui) (c : Conf) (T : Nat) {b : Button} (hb : b ≠ .iron) (e : BState) {L : Nat}
    (hL : holdTime (u.event c T b e).screen = some L) :
    ((u.event c T b e).screen ≠ u.screen ∨ holdTime u.screen = some 3000 → (u.event c T b e).since = T) ∧
    ((u.event c T b e).screen = u.screen → holdTime u.screen ≠ some 3000 → (u.event c T b e).since = u.since) := by
  obtain ⟨t1, -, -, -, -, -, -, -, t9⟩ := touch_same u T
  cases e
  · obtain ⟨p1, p2, -⟩ := press_same (u.touch T) T b
    show (((u.touch T).press T b).screen ≠ _ ∨ _ → ((u.touch T).press T b).since = T) ∧
      (((u.touch T).press T b).screen = _ → _ → ((u.touch T).press T b).since = _)
    rw [p1, p2, t1, t9]
    exact ⟨fun h => by rw [if_pos (h.resolve_left fun h => h rfl)], fun _ h => by rw [if_neg h]⟩
  · obtain ⟨r1, r2⟩ := release_since (u.touch T) c T hb hL
    rw [t1] at r1 r2
    rw [t9] at r2
    show (((u.touch T).release c T b).screen ≠ _ ∨ _ → ((u.touch T).release c T b).since = T) ∧
      (((u.touch T).release c T b).screen = _ → _ → ((u.touch T).release c T b).since = _)
    refine ⟨fun h => ?_, fun h1 h2 => by rw [r2 h1, if_neg h2]⟩
    by_cases hs : ((u.touch T).release c T b).screen = u.screen
    · rw [r2 hs, if_pos (h.resolve_left fun h => h hs)]
    · exact r1 hs
  · show ((u.touch T).screen ≠ _ ∨ _ → (u.touch T).since = T) ∧ ((u.touch T).screen = _ → _ → (u.touch T).since = _)
    rw [t1, t9]
    exact ⟨fun h => by rw [if_pos (h.resolve_left fun h => h rfl)], fun _ h => by rw [if_neg h]⟩

/-! ### the samples -/

theorem hold_cases {m : MenuState} {L : Nat} (h : holdTime m = some L) : L = 3000 ∨ L = 1500 := by
  revert h; cases m <;> simp [holdTime] <;> omega

theorem entry_hold {m : MenuState} {x : Int} {L : Nat} (hL : holdTime m = some L) :
    entryTimeout (nowAt T) m x = nowAt (T + L) := by
  unfold entryTimeout
  rw [hL]
  simp only []
  unfold toU16 nowAt
  omega

/-- what a press does to the ramp -/
theorem press_ramp (u : Ui) (T : Nat) {b : Button} (hb : b ≠ .iron) :
    if (b ≠ .set && (startsRamp u.screen true).isSome) = true then
      (u.press T b).rampAt = T ∧ (u.press T b).period = 400
    else (u.press T b).rampAt = u.rampAt ∧ (u.press T b).period = u.period ∧ (u.press T b).ramp = u.ramp := by
  obtain ⟨m, a, r', ra, pe, va, de, fa, pi⟩ := u
  cases b
  · exact ⟨rfl, rfl, rfl⟩
  · cases m <;> first | exact ⟨rfl, rfl⟩ | exact ⟨rfl, rfl, rfl⟩
  · cases m <;> first | exact ⟨rfl, rfl⟩ | exact ⟨rfl, rfl, rfl⟩
  · exact absurd rfl hb

theorem release_ramp (u : Ui) (c : Conf) (T : Nat) (b : Button) : (u.release c T b).ramp = .none := by
  unfold Ui.release
  simp only []
  repeat' split
  all_goals rfl

theorem press_pre (p : Panel) (c : Conf) (now : Int) {b : Button} (hb : b ≠ .iron)
    (h : (p.press c now b).ramp = .preUp ∨ (p.press c now b).ramp = .preDown) :
    (p.press c now b).pre = if (b ≠ .set && (startsRamp p.state true).isSome) = true then toU16 (now + 1000) else p.pre := by
  obtain ⟨st, r, pr, ca, de⟩ := p
  revert h
  cases b
  · exact fun _ => rfl
  · cases st <;> simp only [Panel.press, reduceCtorEq, if_false, or_self] <;> intro h <;> first
      | rfl
      | (rcases h with h | h <;> cases h)
      | (split <;> rfl)
  · cases st <;> simp only [Panel.press, reduceCtorEq, if_false, if_true, or_self] <;> intro h <;> first
      | rfl
      | (rcases h with h | h <;> cases h)
      | (split <;> rfl)
  · exact absurd rfl hb

theorem UiRel.event (hi : Inv c s) (hnow : s.now = nowAt T) (h : UiRel s u) {b : Button} (hb : b ≠ .iron) (e : BState) :
    Post (menuButton c s b e) fun s' => UiRel s' (u.event c T b e) := by
  intro s' es
  obtain ⟨-, -, r, sc, -⟩ := menuButton_eff hi hb e s' es
  obtain ⟨-, p⟩ := menuButton_panel hi hb e s' es
  have rest := menuButton_rest hi hb e s' es
  have hd : u.screen = .debug → c.debug = true := by
    intro hh
    have := hi.menu.screen
    rw [h.agrees.screen, hh] at this
    exact this
  have ag : PanelRel s'.panel (u.event c T b e) := by
    rw [p]
    exact (panelRel_iff.mp h.agrees).event hd hi.set.lim.active s.now hb e
  have ag' := panelRel_iff.mpr ag
  obtain ⟨t1, t2, t3, t4, t5, t6, t7, t8, t9⟩ := touch_same u T
  have hst := h.agrees.screen
  refine ⟨ag', ?_, ?_, ?_, ?_⟩
  · rw [rest.err, event_failed]
    exact h.err
  · intro L hL
    obtain ⟨e1, e2⟩ := event_since u c T hb e hL
    rcases sc with ⟨k1, k2, k3⟩ | ⟨k1, k2⟩
    · rw [hst] at k3
      have hs : (u.event c T b e).screen = u.screen := by rw [← ag'.screen, k1, hst]
      rw [k2, e2 hs k3]
      exact h.hold L (hs ▸ hL)
    · rw [ag'.screen, hnow, entry_hold hL] at k1
      rw [k1, e1]
      by_cases hs : (u.event c T b e).screen = u.screen
      · right
        rcases hold_cases hL with h3 | h3
        · rw [← hs, hL, h3]
        · rw [ag'.screen, hL, h3] at k2
          obtain ⟨-, k2⟩ := k2 rfl
          rw [hst] at k2
          exact absurd hs k2
      · exact Or.inl hs
  · intro hr
    cases e
    · have hr : ((u.touch T).press T b).ramp = .preUp ∨ ((u.touch T).press T b).ramp = .preDown := hr
      have pr := press_ramp (u.touch T) T hb
      have hp : s'.panel = s.panel.press c s.now b := p
      have agr : s'.panel.ramp = ((u.touch T).press T b).ramp := ag.ramp
      have pp := press_pre s.panel c s.now hb (by rw [← hp, agr]; exact hr)
      rw [← hp] at pp
      show s'.panel.pre = nowAt (((u.touch T).press T b).rampAt + 1000)
      rw [pp]
      rw [t1] at pr
      rw [show s.panel.state = u.screen from hst]
      by_cases hh : (b ≠ .set && (startsRamp u.screen true).isSome) = true
      · rw [if_pos hh] at pr ⊢
        rw [pr.1, hnow]
        unfold toU16 nowAt
        omega
      · rw [if_neg hh] at pr ⊢
        rw [pr.1, t3]
        rw [pr.2.2, t2] at hr
        exact h.wait hr
    · exfalso
      have : (u.event c T b .negedge).ramp = .none := release_ramp _ c T b
      rw [this] at hr
      rcases hr with hr | hr <;> cases hr
    · have hr : (u.touch T).ramp = .preUp ∨ (u.touch T).ramp = .preDown := hr
      rw [t2] at hr
      show s'.menu.rampPreTimer = nowAt ((u.touch T).rampAt + 1000)
      have : s'.menu.rampPreTimer = s.menu.rampPreTimer := congrArg Panel.pre p
      rw [this, t3]
      exact h.wait hr
  · intro hr
    cases e
    · have pr := press_ramp (u.touch T) T hb
      have hr : Ramping ((u.touch T).press T b).ramp = true := hr
      show s'.menu.rampTimer = nowAt ((u.touch T).press T b).rampAt ∧
        s'.menu.period = (((u.touch T).press T b).period : Nat) ∧ Period ((u.touch T).press T b).period
      rw [rest.timer rfl, rest.period rfl, hst]
      rw [t1] at pr
      by_cases hh : (b ≠ .set && (startsRamp u.screen true).isSome) = true
      · rw [if_pos hh] at pr ⊢
        rw [pr.1, pr.2, if_pos hh]
        exact ⟨hnow, rfl, Or.inl rfl⟩
      · rw [if_neg hh] at pr ⊢
        rw [pr.1, pr.2.1, if_neg hh, t3, t4]
        rw [pr.2.2, t2] at hr
        exact h.going hr
    · exfalso
      have : (u.event c T b .negedge).ramp = .none := release_ramp _ c T b
      rw [this] at hr
      cases hr
    · have hr : Ramping (u.touch T).ramp = true := hr
      rw [t2] at hr
      obtain ⟨-, k2, k3⟩ := r.hold rfl
      show s'.menu.rampTimer = nowAt (u.touch T).rampAt ∧ s'.menu.period = ((u.touch T).period : Nat) ∧
        Period (u.touch T).period
      rw [k2, k3, t3, t4]
      exact h.going hr

theorem press_touch (u : Ui) (T : Nat) (b : Button) : ((u.touch T).press T b).touch T = (u.touch T).press T b := by
  have hs : ∀ w : Ui, (w.press T b).screen = w.screen ∧ (w.press T b).since = w.since := by
    intro w
    unfold Ui.press
    repeat' split
    all_goals exact ⟨rfl, rfl⟩
  obtain ⟨h1, h2⟩ := hs (u.touch T)
  obtain ⟨t1, -, -, -, -, -, -, -, t9⟩ := touch_same u T
  rw [t1] at h1
  rw [t9] at h2
  generalize (u.touch T).press T b = w at h1 h2 ⊢
  unfold Ui.touch
  rw [h1]
  split
  · rw [if_pos ‹_›] at h2
    obtain ⟨m, a, r', ra, pe, va, de, fa, pi⟩ := w
    simp only at h1 h2
    rw [h2, h1]
  · rfl

theorem UiRel.block (hi : Inv c s) (hnow : s.now = nowAt T) (h : UiRel s u) {b : Button} (hb : b ≠ .iron)
    (was down : Bool) : Post ((blockCalls b was down).foldlM (callButtonHandlers c) s) fun s' =>
      s'.now = nowAt T ∧ UiRel s' (u.button c T b was down) := by
  have one : ∀ {s : Sys} {u : Ui} e, Inv c s → s.now = nowAt T → UiRel s u → Post (callButtonHandlers c s (b, e)) fun s' =>
      Inv c s' ∧ s'.now = nowAt T ∧ UiRel s' (u.event c T b e) := by
    intro s u e hi hn h
    rw [callPanel hb]
    intro s' es
    obtain ⟨h1, -⟩ := menuButton_eff hi hb e s' es
    exact ⟨(hi.menuButton b e).elim es, h1.trans hn, h.event hi hn hb e s' es⟩
  cases was <;> cases down
  · exact Post.pure ⟨hnow, h⟩
  · show Post ([(b, BState.posedge), (b, BState.pressed)].foldlM (callButtonHandlers c) s) _
    simp only [List.foldlM_cons, List.foldlM_nil]
    refine Post.bind (one _ hi hnow h) fun s1 ⟨i1, n1, r1⟩ => Post.bind (one _ i1 n1 r1) fun s2 ⟨i2, n2, r2⟩ =>
      Post.pure ⟨n2, ?_⟩
    have r2 : UiRel s2 (((u.touch T).press T b).touch T) := r2
    rw [press_touch] at r2
    exact r2
  · show Post ([(b, BState.negedge)].foldlM (callButtonHandlers c) s) _
    simp only [List.foldlM_cons, List.foldlM_nil]
    exact Post.bind (one _ hi hnow h) fun s1 ⟨i1, n1, r1⟩ => Post.pure ⟨n1, r1⟩
  · show Post ([(b, BState.pressed)].foldlM (callButtonHandlers c) s) _
    simp only [List.foldlM_cons, List.foldlM_nil]
    exact Post.bind (one _ hi hnow h) fun s1 ⟨i1, n1, r1⟩ => Post.pure ⟨n1, r1⟩

/-- the relation depends on the menu up to its update request, the settings up to their serial number and the debug
    switch -/
theorem UiRel.kept {s' : Sys} (h : UiRel s u) (hm : ∃ w, s'.menu = { s.menu with updReq := w })
    (hv : SameVals s'.set.cache s.set.cache) (hd : s'.debugEn = s.debugEn) : UiRel s' u := by
  obtain ⟨w, hm⟩ := hm
  obtain ⟨a, b, d, e, f⟩ := h
  refine ⟨⟨by rw [hm]; exact a.screen, by rw [hm]; exact a.ramp, hv.trans a.vals, hd.trans a.debug⟩, ?_, ?_, ?_, ?_⟩
  all_goals (rw [hm]; assumption)

theorem UiRel.sample (hi : Inv c s) (hnow : s.now = nowAt T) (h : UiRel s u) {pinb : BitVec 8} {s' : Sys}
    (hp : ∀ b, s.btn.prev.getLsbD (buttonPin b) = Down u.pins b) (hx : timerExpired s.now s.btn.debounce = true)
    (e : buttonsWork c s pinb = some s') : UiRel s' (u.sample c T pinb) ∧
      ∀ b, s'.btn.prev.getLsbD (buttonPin b) = Down pinb b := by
  obtain ⟨b, s1, s2, s3, eb, h0, e1, h1, e2, h2, e3, h3, k⟩ := sample_blocks hi hx e
  have hs := sample_panel hi hx e
  obtain ⟨n1, p1⟩ := block_panel h0 (by decide) _ _ s1 e1
  obtain ⟨n2, p2⟩ := block_panel h1 (by decide) _ _ s2 e2
  obtain ⟨n3, p3⟩ := block_panel h2 (by decide) _ _ s3 e3
  obtain ⟨-, b1, -⟩ := block_ramp h0 (by decide) _ _ s1 e1
  obtain ⟨-, b2, -⟩ := block_ramp h1 (by decide) _ _ s2 e2
  obtain ⟨-, b3, -⟩ := block_ramp h2 (by decide) _ _ s3 e3
  have r0 : UiRel { s with btn := b } u := { h with agrees := { h.agrees with } }
  obtain ⟨m1, r1⟩ := r0.block h0 hnow (by decide) _ _ s1 e1
  obtain ⟨m2, r2⟩ := r1.block h1 m1 (by decide) _ _ s2 e2
  obtain ⟨m3, r3⟩ := r2.block h2 m2 (by decide) _ _ s3 e3
  have hsame : s'.panel = s3.panel := by
    rw [hs, p3, p2, p1, n2, n1]
    rfl
  have r := r3.kept k.menu (by rw [show s'.set.cache = s3.set.cache from congrArg Panel.cache hsame]; rfl) k.debugEn
  have q2 : s.btn.prev.getLsbD 2 = Down u.pins .set := hp .set
  have q3 : s.btn.prev.getLsbD 3 = Down u.pins .minus := hp .minus
  have q4 : s.btn.prev.getLsbD 4 = Down u.pins .plus := hp .plus
  rw [q2, q3, q4] at r
  refine ⟨{ r with agrees := { r.agrees with } }, fun b' => ?_⟩
  rw [k.btn, b3, b2, b1]
  show b.prev.getLsbD _ = _
  rw [eb]
  unfold buttonsRaw
  cases b' <;> simp [Down, buttonPin, BUTTONS_MASK]

/-! ### the menu's work function -/

/-- the menu and the user interface -/
structure MenuRel (m : Menu) (u : Ui) : Prop where
  screen : m.state = u.screen
  ramp : m.ramp = u.ramp
  err : m.dispErr = errNo u.failed
  hold : ∀ L, holdTime u.screen = some L → m.timeout = nowAt (u.since + L)
  wait : u.ramp = .preUp ∨ u.ramp = .preDown → m.rampPreTimer = nowAt (u.rampAt + 1000)
  going : Ramping u.ramp = true → m.rampTimer = nowAt u.rampAt ∧ m.period = u.period ∧ Period u.period

/-- the times of the user interface can be told by the 16-bit timers -/
structure InReach (u : Ui) (T : Nat) : Prop where
  since : u.since ≤ T
  hold : ∀ L, holdTime u.screen = some L → T < u.since + L + 32768
  wait : u.ramp = .preUp ∨ u.ramp = .preDown → u.rampAt ≤ T ∧ T < u.rampAt + 1000 + 32768
  going : Ramping u.ramp = true → u.rampAt ≤ T + 400 ∧ T < u.rampAt + 32768

theorem reach_expired {T d : Nat} (h1 : d ≤ T + 3000) (h2 : T < d + 32768) :
    timerExpired (nowAt T) (nowAt d) = decide (d ≤ T) := by
  unfold timerExpired timerCountSince toU16 toS16 nowAt
  rw [decide_eq_decide]
  omega

theorem MenuRel.leave {m : Menu} (h : MenuRel m u) (t : InReach u T) : MenuRel (afterTimeout (nowAt T) m) (u.leave T) := by
  unfold afterTimeout Ui.leave
  rw [h.screen]
  cases hL : holdTime u.screen with
  | none => exact h
  | some L =>
    have h3 := hold_le hL
    have := t.since
    have hx := reach_expired (T := T) (d := u.since + L) (by omega) (t.hold L hL)
    rw [← h.hold L hL] at hx
    rw [hx]
    simp only [Option.isSome_some, true_and, decide_eq_true_eq]
    split
    · refine ⟨rfl, rfl, h.err, fun L' hL' => ?_, fun hr => ?_, fun hr => ?_⟩
      · exact entry_hold hL'
      · rcases hr with hr | hr <;> cases hr
      · cases hr
    · exact h

theorem MenuRel.fail {m : Menu} (h : MenuRel m u) (f : Bool × Bool) : MenuRel (afterError (errNo f) m) (u.fail f) := by
  unfold afterError Ui.fail
  simp only [h.err, errNo_inj]
  split
  · rename_i hf
    exact ⟨h.screen, h.ramp, by rw [hf], h.hold, h.wait, h.going⟩
  · refine ⟨h.screen, rfl, rfl, h.hold, fun hr => ?_, fun hr => ?_⟩
    · rcases hr with hr | hr <;> cases hr
    · cases hr

theorem InReach.leave (t : InReach u T) : InReach (u.leave T) T := by
  unfold Ui.leave
  split
  · split
    · refine ⟨Nat.le_refl _, fun L hL => ?_, fun hr => ?_, fun hr => ?_⟩
      · show T < T + L + 32768
        omega
      · rcases hr with hr | hr <;> cases hr
      · cases hr
    · exact t
  · exact t

theorem InReach.fail (t : InReach u T) (f : Bool × Bool) : InReach (u.fail f) T := by
  unfold Ui.fail
  split
  · exact t
  · refine ⟨t.since, t.hold, fun hr => ?_, fun hr => ?_⟩
    · rcases hr with hr | hr <;> cases hr
    · cases hr

theorem work_rest (u : Ui) (T : Nat) (f : Bool × Bool) : ((u.leave T).fail f).vals = u.vals ∧
    ((u.leave T).fail f).debug = u.debug ∧ ((u.leave T).fail f).failed = f ∧ ((u.leave T).fail f).pins = u.pins := by
  have h1 : (u.leave T).vals = u.vals ∧ (u.leave T).debug = u.debug ∧ (u.leave T).pins = u.pins := by
    unfold Ui.leave
    repeat' split
    all_goals exact ⟨rfl, rfl, rfl⟩
  unfold Ui.fail
  split
  · rename_i hf
    exact ⟨h1.1, h1.2.1, hf.symm, h1.2.2⟩
  · exact ⟨h1.1, h1.2.1, rfl, h1.2.2⟩

theorem advance_rest (u : Ui) (T boost : Nat) : (u.advance T boost).debug = u.debug ∧
    (u.advance T boost).failed = u.failed ∧ (u.advance T boost).pins = u.pins := by
  unfold Ui.advance
  simp only []
  repeat' split
  all_goals exact ⟨rfl, rfl, rfl⟩

theorem valueIn_same {a b : Settings} (h : SameVals a b) (n : Nat) (m : MenuState) : valueIn a n m = valueIn b n m := by
  unfold SameVals at h
  obtain ⟨a1, a2, a3, a4, a5, a6⟩ := a
  obtain ⟨b1, b2, b3, b4, b5, b6⟩ := b
  simp only [Settings.mk.injEq] at h
  cases m <;> simp [valueIn, h]

theorem withValue_same {a b : Settings} (h : SameVals a b) (n : Nat) (z : Int) (m : MenuState) :
    SameVals (withValue a n z m) (withValue b n z m) := by
  unfold SameVals at h ⊢
  obtain ⟨a1, a2, a3, a4, a5, a6⟩ := a
  obtain ⟨b1, b2, b3, b4, b5, b6⟩ := b
  simp only [Settings.mk.injEq] at h
  obtain ⟨rfl, rfl, rfl, rfl, rfl, rfl, rfl, -⟩ := h
  cases m <;> rfl

theorem Period.half {p : Nat} (h : Period p) : Period (if p > 25 then p / 2 else p) ∧ 25 ≤ p ∧ p ≤ 400 := by
  unfold Period at h ⊢
  rcases h with rfl | rfl | rfl | rfl | rfl <;> decide

theorem UiRel.work (hi : Inv c s) (hnow : s.now = nowAt T) (h : UiRel s u) (t : InReach u T) {s' : Sys}
    (e : menuWork c s = some s') : UiRel s' (u.work T (failures s) s.ct.boost) := by
  obtain ⟨-, -, kd, -, ke, w⟩ := menuWork_eff hi s' e
  have m0 : MenuRel s.menu u := ⟨h.agrees.screen, h.agrees.ramp, h.err, h.hold, h.wait, h.going⟩
  have m2 := (m0.leave t).fail (failures s)
  have t2 := t.leave.fail (failures s)
  obtain ⟨v1, v2, v3, v4⟩ := work_rest u T (failures s)
  rw [menuError_no, hnow] at w
  rw [menuError_no] at ke
  have hvals : SameVals s.set.cache ((u.leave T).fail (failures s)).vals := by rw [v1]; exact h.agrees.vals
  have hdeb : s'.debugEn = ((u.leave T).fail (failures s)).debug := by rw [v2, kd]; exact h.agrees.debug
  rw [← v3] at ke
  unfold Ui.work
  generalize (u.leave T).fail (failures s) = u2 at m2 t2 hvals hdeb ke ⊢
  generalize afterError (errNo (failures s)) (afterTimeout (nowAt T) s.menu) = m at w m2
  obtain ⟨g1, g2, g3, g4, g5, g6⟩ := m2
  have r1 : ∀ hr : u2.ramp = .preUp ∨ u2.ramp = .preDown,
      timerExpired s.now m.rampPreTimer = decide (u2.rampAt + 1000 ≤ T) := by
    intro hr
    obtain ⟨q1, q2⟩ := t2.wait hr
    rw [g5 hr, hnow]
    exact reach_expired (by omega) q2
  have r2 : ∀ hr : Ramping u2.ramp = true, timerExpired s.now m.rampTimer = decide (u2.rampAt ≤ T) := by
    intro hr
    obtain ⟨q1, q2⟩ := t2.going hr
    rw [(g6 hr).1, hnow]
    exact reach_expired (by omega) q2
  cases w with
  | same a1 a2 a3 a4 a5 a6 a7 a8 a9 =>
    have hu : u2.advance T s.ct.boost = u2 := by
      rw [g2] at a8 a9
      unfold Ui.advance
      cases hr : u2.ramp <;> simp only []
      case preUp =>
        rw [if_neg]
        have := a9 (Or.inl hr)
        rw [r1 (Or.inl hr)] at this
        simpa using this
      case preDown =>
        rw [if_neg]
        have := a9 (Or.inr hr)
        rw [r1 (Or.inr hr)] at this
        simpa using this
      all_goals
        rw [if_neg]
        have := a8 (by rw [hr]; rfl)
        rw [r2 (by rw [hr]; rfl)] at this
        simpa using this
    rw [hu]
    refine ⟨⟨a1.trans g1, a3.trans g2, by rw [a7]; exact hvals, hdeb⟩, ke, fun L hL => ?_, fun hr => ?_, fun hr => ?_⟩
    · rw [a2]; exact g4 L hL
    · rw [a6]; exact g5 hr
    · rw [a4, a5]; exact g6 hr
  | start a1 a2 a3 a4 a5 a6 a7 =>
    rw [g2] at a3
    have key : ∀ r, s'.menu.ramp = r → Ramping r = true →
        UiRel s' { u2 with ramp := r, rampAt := T, period := 400 } := by
      intro r h1 h2
      refine ⟨⟨a1.trans g1, h1, by rw [a7]; exact hvals, hdeb⟩, ke, fun L hL => ?_, fun hr => ?_, fun hr => ?_⟩
      · rw [a2]; exact g4 L hL
      · have hr : r = .preUp ∨ r = .preDown := hr
        rcases hr with rfl | rfl <;> cases h2
      · rw [a5, a6, hnow]
        exact ⟨rfl, rfl, Or.inl rfl⟩
    unfold Ui.advance
    rcases a3 with ⟨k1, k2⟩ | ⟨k1, k2⟩
    · rw [r1 (Or.inl k1)] at a4
      simp only [k1]
      rw [if_pos (by simpa using a4)]
      exact key _ k2 rfl
    · rw [r1 (Or.inr k1)] at a4
      simp only [k1]
      rw [if_pos (by simpa using a4)]
      exact key _ k2 rfl
  | step a1 a2 a3 a4 a5 a6 a7 a8 a9 =>
    rw [g2] at a3 a4 a9
    rw [r2 a4] at a5
    obtain ⟨g61, g62, g63⟩ := g6 a4
    rw [g1] at a8
    obtain ⟨hp1, hp2, hp3⟩ := g63.half
    obtain ⟨w, inc, lo, hi', b1, b2, b3⟩ := a9
    rw [a8] at b1 b2 b3
    rw [valueIn_same hvals] at b2
    have hval : SameVals s'.set.cache (stepValue u2.vals s.ct.boost u2.screen (decide (u2.ramp = .up))) := by
      rw [b3]
      unfold stepValue
      simp only [b1, b2]
      exact withValue_same hvals _ _ _
    have htim : s'.menu.rampTimer = nowAt (u2.rampAt + u2.period) := by
      rw [a6, g61, g62]
      unfold toU16 nowAt
      omega
    have hper : s'.menu.period = ((if u2.period > 25 then u2.period / 2 else u2.period : Nat) : Int) := by
      rw [a7, g62]
      split <;> split <;> omega
    have hu : u2.advance T s.ct.boost =
        if u2.screen = .curtemp ∨ u2.screen = .selpreset then Ui.enter { u2 with
          vals := stepValue u2.vals s.ct.boost u2.screen (decide (u2.ramp = .up))
          rampAt := u2.rampAt + u2.period
          period := if u2.period > 25 then u2.period / 2 else u2.period } T .chgpreset
        else { u2 with
          vals := stepValue u2.vals s.ct.boost u2.screen (decide (u2.ramp = .up))
          rampAt := u2.rampAt + u2.period
          period := if u2.period > 25 then u2.period / 2 else u2.period } := by
      unfold Ui.advance
      simp only [decide_eq_true_eq] at a5
      revert a4
      cases hr : u2.ramp <;> intro a4 <;> first | (cases a4; done) | (simp only []; rw [if_pos a5])
    rw [hu]
    rw [hnow] at a1 a2
    unfold stepMenu at a1 a2
    rw [g1] at a1 a2
    have nw : ¬ (u2.ramp = .preUp ∨ u2.ramp = .preDown) := by
      rintro (hr | hr) <;> rw [hr] at a4 <;> cases a4
    split
    · rename_i hsc
      have e1 : s'.menu.state = .chgpreset := by rcases hsc with hsc | hsc <;> rw [a1, hsc]
      have e2 : s'.menu.timeout = toU16 (nowAt T + 3000) := by rcases hsc with hsc | hsc <;> rw [a2, hsc]
      refine ⟨⟨e1, a3, hval, hdeb⟩, ke, fun L hL => ?_, fun hr => absurd hr nw, fun hr => ?_⟩
      · cases hL
        rw [e2]
        show _ = nowAt (T + 3000)
        unfold toU16 nowAt
        omega
      · exact ⟨htim, hper, hp1⟩
    · rename_i hsc
      have e1 : s'.menu.state = u2.screen ∧ s'.menu.timeout = m.timeout := by
        split at a1
        · exact absurd (Or.inl ‹_›) hsc
        · exact absurd (Or.inr ‹_›) hsc
        · split at a2
          · exact absurd (Or.inl ‹_›) hsc
          · exact absurd (Or.inr ‹_›) hsc
          · exact ⟨a1.trans g1, a2⟩
      refine ⟨⟨e1.1, a3, hval, hdeb⟩, ke, fun L hL => ?_, fun hr => absurd hr nw, fun hr => ?_⟩
      · rw [e1.2]; exact g4 L hL
      · exact ⟨htim, hper, hp1⟩

/-! ### the main loop -/

/-- the times of `u'` are those of `u` or `T` -/
def KeepsTimes (T : Nat) (u u' : Ui) : Prop :=
  ((u'.screen = u.screen ∧ u'.since = u.since) ∨ u'.since = T) ∧
  ((u'.ramp = u.ramp ∧ u'.rampAt = u.rampAt) ∨ u'.ramp = .none ∨ u'.rampAt = T)

theorem KeepsTimes.refl (T : Nat) (u : Ui) : KeepsTimes T u u := ⟨Or.inl ⟨rfl, rfl⟩, Or.inl ⟨rfl, rfl⟩⟩

theorem KeepsTimes.trans {u1 u2 u3 : Ui} (h : KeepsTimes T u1 u2) (h' : KeepsTimes T u2 u3) : KeepsTimes T u1 u3 := by
  obtain ⟨a, b⟩ := h
  obtain ⟨a', b'⟩ := h'
  constructor
  · rcases a' with ⟨p, q⟩ | p
    · rw [p, q]; exact a
    · exact Or.inr p
  · rcases b' with ⟨p, q⟩ | p
    · rw [p, q]; exact b
    · exact Or.inr p

theorem KeepsTimes.touch (u : Ui) (T : Nat) : KeepsTimes T u (u.touch T) := by
  unfold Ui.touch
  split
  · exact ⟨Or.inr rfl, Or.inl ⟨rfl, rfl⟩⟩
  · exact KeepsTimes.refl T u

theorem KeepsTimes.press (u : Ui) (T : Nat) (b : Button) : KeepsTimes T u (u.press T b) := by
  unfold Ui.press
  repeat' split
  · exact KeepsTimes.refl T u
  · exact ⟨Or.inl ⟨rfl, rfl⟩, Or.inl ⟨rfl, rfl⟩⟩
  · exact ⟨Or.inl ⟨rfl, rfl⟩, Or.inr (Or.inr rfl)⟩
  · exact KeepsTimes.refl T u

theorem KeepsTimes.release (u : Ui) (c : Conf) (T : Nat) (b : Button) : KeepsTimes T u (u.release c T b) := by
  unfold Ui.release
  simp only []
  repeat' split
  all_goals first
    | exact ⟨Or.inl ⟨rfl, rfl⟩, Or.inr (Or.inl rfl)⟩
    | exact ⟨Or.inr rfl, Or.inr (Or.inl rfl)⟩

theorem KeepsTimes.button (u : Ui) (c : Conf) (T : Nat) (b : Button) (was down : Bool) : KeepsTimes T u (u.button c T b was down) := by
  cases was <;> cases down
  · exact KeepsTimes.refl T u
  · exact (KeepsTimes.touch u T).trans (KeepsTimes.press _ T b)
  · exact (KeepsTimes.touch u T).trans (KeepsTimes.release _ c T b)
  · exact KeepsTimes.touch u T

theorem KeepsTimes.sample (u : Ui) (c : Conf) (T : Nat) (pinb : BitVec 8) : KeepsTimes T u (u.sample c T pinb) :=
  ((KeepsTimes.button u c T .set _ _).trans (KeepsTimes.button _ c T .minus _ _)).trans (KeepsTimes.button _ c T .plus _ _)

theorem KeepsTimes.leave (u : Ui) (T : Nat) : KeepsTimes T u (u.leave T) := by
  unfold Ui.leave
  repeat' split
  · exact ⟨Or.inr rfl, Or.inr (Or.inl rfl)⟩
  · exact KeepsTimes.refl T u
  · exact KeepsTimes.refl T u

theorem KeepsTimes.fail (u : Ui) (T : Nat) (f : Bool × Bool) : KeepsTimes T u (u.fail f) := by
  unfold Ui.fail
  split
  · exact KeepsTimes.refl T u
  · exact ⟨Or.inl ⟨rfl, rfl⟩, Or.inr (Or.inl rfl)⟩

variable {v : Speed}

/-- the loop is not behind the times of the user interface -/
structure UiTime (v : Speed) (x : Loop) (T : Nat) (u : Ui) : Prop where
  since : u.since ≤ T
  hold : ∀ L, holdTime u.screen = some L → Behind v .menu x (u.since + L)
  wait : u.ramp = .preUp ∨ u.ramp = .preDown → u.rampAt ≤ T ∧ Behind v .menu x (u.rampAt + 1000)
  going : Ramping u.ramp = true → u.rampAt ≤ T + 400 ∧ Behind v .menu x u.rampAt

theorem UiTime.keeps {x : Loop} {u' : Ui} (h : UiTime v x T u) (hx : x.reset ≤ T) (k : KeepsTimes T u u') : UiTime v x T u' := by
  obtain ⟨a, b⟩ := k
  have hs := h.since
  refine ⟨?_, fun L hL => ?_, fun hr => ?_, fun hr => ?_⟩
  · rcases a with ⟨-, a⟩ | a <;> omega
  · rcases a with ⟨a, a'⟩ | a
    · rw [a] at hL
      rw [a']
      exact h.hold L hL
    · exact Behind.of (by omega)
  · rcases b with ⟨b, b'⟩ | b | b
    · rw [b] at hr
      rw [b']
      exact h.wait hr
    · rw [b] at hr
      rcases hr with hr | hr <;> cases hr
    · exact ⟨by omega, Behind.of (by omega)⟩
  · rcases b with ⟨b, b'⟩ | b | b
    · rw [b] at hr
      rw [b']
      exact h.going hr
    · rw [b] at hr
      cases hr
    · exact ⟨by omega, Behind.of (by omega)⟩

theorem UiTime.step {x y : Loop} {e : Option Ev} (h : UiTime v x x.T u) (hdog : x.T ≤ x.reset + v.W)
    (hs : LoopStep c x e y) (hn : ¬ Calls .menu x e y) : UiTime v y y.T u := by
  have hT := hs.time
  refine ⟨by have := h.since; omega, fun L hL => (h.hold L hL).step (by decide) hdog hs hn, fun hr => ?_, fun hr => ?_⟩
  · obtain ⟨h1, h2⟩ := h.wait hr
    exact ⟨by omega, h2.step (by decide) hdog hs hn⟩
  · obtain ⟨h1, h2⟩ := h.going hr
    exact ⟨by omega, h2.step (by decide) hdog hs hn⟩

theorem UiTime.reach {x : Loop} (h : UiTime v x x.T u) (hdog : x.T ≤ x.reset + v.W) (hW : v.W ≤ 8191) : InReach u x.T := by
  refine ⟨h.since, fun L hL => ?_, fun hr => ?_, fun hr => ?_⟩
  · have := (h.hold L hL).le
    omega
  · obtain ⟨h1, h2⟩ := h.wait hr
    have := h2.le
    omega
  · obtain ⟨h1, h2⟩ := h.going hr
    have := h2.le
    omega

/-- after a call of the menu's work function -/
theorem UiTime.work {x y : Loop} (h : UiTime v x x.T u) (hx : x.reset ≤ x.T) (hy : y.reset = x.reset) (hW : v.W ≤ 25)
    (hp : Ramping u.ramp = true → Period u.period) (f : Bool × Bool) (boost : Nat) :
    UiTime v y x.T (u.work x.T f boost) := by
  have hk := (KeepsTimes.leave u x.T).trans (KeepsTimes.fail (u.leave x.T) x.T f)
  have h2 := h.keeps hx hk
  have hold : ∀ L, holdTime ((u.leave x.T).fail f).screen = some L →
      ((u.leave x.T).fail f).since = x.T ∨ x.T < ((u.leave x.T).fail f).since + L := by
    intro L hL
    have e : ∀ w : Ui, (w.fail f).screen = w.screen ∧ (w.fail f).since = w.since := by
      intro w
      unfold Ui.fail
      split <;> exact ⟨rfl, rfl⟩
    rw [(e _).1] at hL
    rw [(e _).2]
    revert hL
    unfold Ui.leave
    split
    · rename_i L' hL'
      split
      · exact fun _ => Or.inl rfl
      · intro hL
        rw [hL'] at hL
        cases hL
        right; omega
    · rename_i hL'
      intro hL
      rw [hL'] at hL
      cases hL
  have per : Ramping ((u.leave x.T).fail f).ramp = true → Period ((u.leave x.T).fail f).period := by
    intro hr
    have : ((u.leave x.T).fail f).ramp = u.ramp ∧ ((u.leave x.T).fail f).period = u.period := by
      revert hr
      unfold Ui.fail Ui.leave
      repeat' split
      all_goals first
        | exact fun _ => ⟨rfl, rfl⟩
        | exact fun hr => by cases hr
    rw [this.1] at hr
    rw [this.2]
    exact hp hr
  unfold Ui.work
  generalize (u.leave x.T).fail f = w at h2 hold per ⊢
  have hs := h2.since
  have holdB : ∀ L, holdTime w.screen = some L → Behind v .menu y (w.since + L) := by
    intro L hL
    refine Behind.of ?_
    rcases hold L hL with h | h <;> omega
  unfold Ui.advance
  cases hr : w.ramp <;> simp only []
  case none =>
    refine ⟨hs, holdB, fun h => ?_, fun h => ?_⟩
    · rw [hr] at h; rcases h with h | h <;> cases h
    · rw [hr] at h; cases h
  case preUp =>
    split
    · refine ⟨hs, holdB, fun h => ?_, fun h => ⟨Nat.le_add_right _ _, Behind.of ?_⟩⟩
      · rcases h with h | h <;> cases h
      · show y.reset ≤ x.T
        omega
    · obtain ⟨q1, q2⟩ := h2.wait (Or.inl hr)
      refine ⟨hs, holdB, fun _ => ⟨q1, Behind.of (by omega)⟩, fun h => ?_⟩
      rw [hr] at h; cases h
  case preDown =>
    split
    · refine ⟨hs, holdB, fun h => ?_, fun h => ⟨Nat.le_add_right _ _, Behind.of ?_⟩⟩
      · rcases h with h | h <;> cases h
      · show y.reset ≤ x.T
        omega
    · obtain ⟨q1, q2⟩ := h2.wait (Or.inr hr)
      refine ⟨hs, holdB, fun _ => ⟨q1, Behind.of (by omega)⟩, fun h => ?_⟩
      rw [hr] at h; cases h
  all_goals
    have hR : Ramping w.ramp = true := by rw [hr]; rfl
    obtain ⟨q1, q2⟩ := h2.going hR
    obtain ⟨-, p2, p3⟩ := (per hR).half
    have q3 := q2.le
    have nw : ¬ (w.ramp = .preUp ∨ w.ramp = .preDown) := by rw [hr]; simp
    split
    · split
      · refine ⟨Nat.le_refl _, fun L hL => Behind.of ?_, fun h => (by rcases h with h | h <;> cases h), fun _ => ⟨?_, Behind.of ?_⟩⟩
        · show y.reset ≤ x.T + L
          omega
        · show w.rampAt + w.period ≤ x.T + 400
          omega
        · show y.reset ≤ w.rampAt + w.period
          omega
      · refine ⟨hs, holdB, fun h => (by rcases h with h | h <;> cases h), fun _ => ⟨?_, Behind.of ?_⟩⟩
        · show w.rampAt + w.period ≤ x.T + 400
          omega
        · show y.reset ≤ w.rampAt + w.period
          omega
    · exact ⟨hs, holdB, fun h => absurd h nw, fun _ => ⟨q1, Behind.of (by omega)⟩⟩

/-- the main loop beside the user interface -/
structure UiInv (v : Speed) (c : Conf) (x : Loop) (u : Ui) : Prop where
  inv : LoopInv v c x
  rel : UiRel x.s u
  pins : ∀ b, x.s.btn.prev.getLsbD (buttonPin b) = Down u.pins b
  time : UiTime v x x.T u

theorem Spec.LoopUi.inv {x : Loop} (hv : v.Sane) (hW : v.W ≤ 25) (h : LoopUi v c x u) : UiInv v c x u := by
  have hW' : v.W ≤ 8191 := by omega
  induction h with
  | @boot ee pinb s hv e =>
    obtain ⟨d1, d2⟩ := C69_boot c ee pinb s hv e
    have hb : s.menu.ramp = .none ∧ s.menu.dispErr = 0 ∧ s.btn = { prev := 0, debounce := 0 } := by
      obtain ⟨-, st, -, b, t, hb, -, rfl⟩ := (boot_ok hv).elim e
      obtain ⟨t', w, em, -⟩ := hb.menu
      refine ⟨?_, ?_, hb.btn⟩
      · show b.menu.ramp = _; rw [em]
      · show b.menu.dispErr = _; rw [em]
    have hh : holdTime (uiStart s.set.cache (c.debug && Down pinb .set)).screen = none := by
      unfold uiStart
      simp only []
      split <;> rfl
    refine ⟨LoopInv.boot hv e, ⟨⟨?_, hb.1, rfl, d1⟩, hb.2.1.trans (show 0 = errNo (false, false) by decide), fun L hL => ?_, fun hr => ?_, fun hr => ?_⟩, fun b => ?_,
      ⟨Nat.le_refl _, fun L hL => ?_, fun hr => ?_, fun hr => ?_⟩⟩
    · rw [d2, d1]; rfl
    · rw [hh] at hL; cases hL
    · rcases hr with hr | hr <;> cases hr
    · cases hr
    · show s.btn.prev.getLsbD _ = _
      rw [hb.2.2]
      show (0 : BitVec 8).getLsbD _ = Down 0xFF b
      cases b <;> decide
    · rw [hh] at hL; cases hL
    · rcases hr with hr | hr <;> cases hr
    · cases hr
  | @sample x y u pinb _ hs ht hx ih =>
    obtain ⟨i1, i2, -⟩ := window_inv ih.inv.win
    rcases hs.sys with ⟨h, -⟩ | ⟨f, hf, hp, hf', eT, -, -, -, er⟩
    · cases h
    cases hf
    have eT : y.T = x.T := eT
    obtain ⟨r1, r2⟩ := ih.rel.sample (Running.inv i1) i2 ih.pins hx.2 hf'
    have t := (ih.time.step ih.inv.dog hs (by rintro ⟨g, p, h1, h2⟩; cases h1; cases h2)).keeps (u' := u.sample c x.T pinb)
      (by have := ih.inv.reset; omega) (by rw [eT]; exact KeepsTimes.sample u c x.T pinb)
    exact ⟨ih.inv.step hv hs ht, r1, r2, t⟩
  | @work x y u _ hs ht ih =>
    obtain ⟨i1, i2, -⟩ := window_inv ih.inv.win
    rcases hs.sys with ⟨h, -⟩ | ⟨f, hf, hp, hf', eT, -, -, -, er⟩
    · cases h
    cases hf
    have eT : y.T = x.T := eT
    have hi := Running.inv i1
    obtain ⟨-, kb, -⟩ := menuWork_eff hi y.s hf'
    refine ⟨ih.inv.step hv hs ht, ih.rel.work hi i2 (ih.time.reach ih.inv.dog hW') hf', fun b => ?_, ?_⟩
    · rw [kb, ih.pins]
      show _ = Down (u.work x.T (failures x.s) x.s.ct.boost).pins b
      have : (u.work x.T (failures x.s) x.s.ct.boost).pins = u.pins := by
        unfold Ui.work
        rw [(advance_rest _ _ _).2.2, (work_rest u x.T _).2.2.2]
      rw [this]
    · rw [eT]
      exact ih.time.work ih.inv.reset er hW (fun hr => (ih.rel.going hr).2.2) _ _
  | @other x e y u _ hs ht hm hn ih =>
    obtain ⟨i1, i2, -⟩ := window_inv ih.inv.win
    have t := ih.time.step ih.inv.dog hs (by rintro ⟨g, p, h1, h2⟩; subst h1; cases h2; exact hm rfl)
    have hi := ih.inv.step hv hs ht
    rcases hs.sys with ⟨rfl, es, -⟩ | ⟨f, rfl, hp, hf, -⟩
    · exact ⟨hi, by rw [es]; exact ih.rel, by rw [es]; exact ih.pins, t⟩
    · have hm' : f ≠ .menuWork := fun h => hm (by rw [h])
      have hn' := fun pinb => hn f pinb rfl
      obtain ⟨q1, q2, q3⟩ := quiet_step (Running.inv i1) hf hm' hn'
      exact ⟨hi, ih.rel.kept q3 (C67_else c x.s y.s f i1 hf hn' hm') q2, by rw [q1]; exact ih.pins, t⟩

/-- every run of the main loop has a user interface beside it -/
theorem ui_any {x : Loop} (h : LoopRun v c x) : ∃ u, LoopUi v c x u := by
  induction h with
  | boot hv e => exact ⟨_, .boot hv e⟩
  | @step x e y _ hs ht ih =>
    obtain ⟨u, hu⟩ := ih
    by_cases hm : e = some .menuWork
    · subst hm
      exact ⟨_, hu.work hs ht⟩
    · by_cases hb : ∃ f pinb, e = some f ∧ Samples x.s f pinb
      · obtain ⟨f, pinb, rfl, hx⟩ := hb
        obtain ⟨rfl, hx⟩ := hx
        exact ⟨_, hu.sample hs ht ⟨rfl, hx⟩⟩
      · exact ⟨u, hu.other hs ht hm fun f pinb h1 h2 => hb ⟨f, pinb, h1, h2⟩⟩

/-! ### concrete runs -/

/-- a command, with the user interface -/
def uiCmd (v : Speed) (c : Conf) (x : Loop × Ui) (a : Cmd) : Option (Loop × Ui) :=
  (loopCmd v c Never x.1 a).bind fun y =>
    match a with
    | .ev (.buttonsWork pinb) =>
      if timerExpired x.1.s.now x.1.s.btn.debounce then some (y, x.2.sample c x.1.T pinb) else some (y, x.2)
    | .ev .menuWork => some (y, x.2.work x.1.T (failures x.1.s) x.1.s.ct.boost)
    | _ => some (y, x.2)

theorem Spec.Stretch.ui {x y : Loop} (h : LoopUi v c x u)
    (hs : Stretch v c (fun _ e _ => e ≠ some .tick) x y) : LoopUi v c y u := by
  induction hs with
  | start => exact h
  | @step y e z _ hs ht hn ih =>
    have he : e = some .tick := Classical.byContradiction hn
    subst he
    exact ih.other hs ht (by simp) fun f pinb h1 h2 => by cases h1; cases h2.1

theorem uiCmd_ui {x y : Loop × Ui} {a : Cmd} (hx : LoopUi v c x.1 x.2) (h : uiCmd v c x a = some y) :
    LoopUi v c y.1 y.2 := by
  obtain ⟨z, h1, h⟩ := Option.bind_eq_some_iff.mp h
  have hev : ∀ f, a = .ev f → LoopStep c x.1 (some f) z ∧ InTime v z := by
    intro f hf
    subst hf
    unfold loopCmd at h1
    obtain ⟨s', es, h1⟩ := Option.bind_eq_some_iff.mp h1
    split at h1
    · rename_i he
      simp only [] at h1
      split at h1
      · rename_i hh
        cases h1
        exact ⟨LoopStep.isr he hh.1 es, hh.2.1⟩
      · cases h1
    · simp only [] at h1
      split at h1
      · rename_i hh
        cases h1
        exact ⟨LoopStep.call hh.1 es, hh.2.1⟩
      · cases h1
  split at h
  · rename_i pinb
    obtain ⟨hs, ht⟩ := hev _ rfl
    split at h
    · rename_i hexp
      cases h
      exact hx.sample hs ht ⟨rfl, hexp⟩
    · rename_i hexp
      cases h
      exact hx.other hs ht (by simp) fun f p hf hsm => by cases hf; exact hexp hsm.2
  · obtain ⟨hs, ht⟩ := hev _ rfl
    cases h
    exact hx.work hs ht
  · rename_i hnb hnm
    cases h
    rcases loopCmd_one h1 with ⟨n, rfl⟩ | ⟨e, hs, ht, he⟩
    · exact (pause_stretch h1).ui hx
    · refine hx.other hs ht (fun hm => ?_) fun f p hf hsm => ?_
      · exact hnm (he _ hm)
      · have := he f hf
        rw [hsm.1] at this
        exact hnb p this

def uiCmds (v : Speed) (c : Conf) (pinb : BitVec 8) (l : List Cmd) : Option (Loop × Ui) :=
  (loopBoot c pinb).bind fun x => l.foldlM (uiCmd v c) (x, uiStart x.s.set.cache (c.debug && Down pinb .set))

theorem uiCmds_ui {pinb : BitVec 8} {l : List Cmd} {y : Loop × Ui}
    (hv : ValidEeprom c (shippedEeprom c)) (h : uiCmds v c pinb l = some y) : LoopUi v c y.1 y.2 := by
  obtain ⟨x, h1, h2⟩ := Option.bind_eq_some_iff.mp h
  obtain ⟨s, h3, rfl⟩ := Option.map_eq_some_iff.mp h1
  exact foldlM_inv (P := fun x => LoopUi v c x.1 x.2) (fun x a y hx h => uiCmd_ui hx h) l (LoopUi.boot hv h3) h2

end Verif
