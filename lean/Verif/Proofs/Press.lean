import Verif.Proofs.Sample
/-
What exactly a sample of the panel buttons does to the screen, the ramp, the settings and the debug switch.
-/
namespace Verif
open Spec

/-- the part of the state the panel buttons act on -/
structure Panel where
  state : MenuState
  ramp : Ramp
  pre : Int
  cache : Settings
  debugEn : Bool

def Sys.panel (s : Sys) : Panel := ⟨s.menu.state, s.menu.ramp, s.menu.rampPreTimer, s.set.cache, s.debugEn⟩

/-- the handler of a press -/
def Panel.press (p : Panel) (c : Conf) (now : Int) (b : Button) : Panel :=
  if b = .set ∨ b = .iron then p
  else match p.state with
  | .curtemp | .selpreset =>
    { p with ramp := if b = .plus then .preUp else .preDown, pre := toU16 (now + 1000) }
  | .chgpreset | .idletemp | .adj | .kp | .ki | .kd => { p with ramp := if b = .plus then .up else .down }
  | .debug => if c.debug then { p with debugEn := decide (b = .plus) } else p
  | _ => p

/-- the handler of a release -/
def Panel.release (p : Panel) (c : Conf) (b : Button) : Panel :=
  match b with
  | .set => { p with ramp := .none, state := if p.debugEn then p.state else nextMenuState c p.state }
  | .minus =>
    if p.state = .curtemp then { p with ramp := .none, state := .selpreset }
    else if p.state = .selpreset then { p with ramp := .none, cache := p.cache.presetsPrev }
    else { p with ramp := .none }
  | .plus =>
    if p.state = .curtemp then { p with ramp := .none, state := .selpreset }
    else if p.state = .selpreset then { p with ramp := .none, cache := p.cache.presetsNext }
    else { p with ramp := .none }
  | .iron => p

variable {c : Conf} {s : Sys}

theorem MenuKept.panel {s' : Sys} (h : MenuKept s s') (hc : s'.set.cache = s.set.cache) : s'.panel = s.panel := by
  obtain ⟨u, e⟩ := h.menu
  unfold Sys.panel
  rw [e, hc, h.debugEn]

theorem startRamping_panel (up pre : Bool) (r : Option RampHandler) :
    Post (startRamping s up pre r) fun s' => s'.now = s.now ∧ s'.panel = { s.panel with
      ramp := if pre then (if up then .preUp else .preDown) else (if up then .up else .down),
      pre := if pre then toU16 (s.now + 1000) else s.panel.pre } := by
  unfold startRamping
  cases pre
  · exact Post.pure ⟨rfl, rfl⟩
  · simp only [if_true]
    rw [timerArm_eq s.now (by decide) (by decide), toU16_add _ (by decide)]
    exact Post.pure ⟨rfl, rfl⟩

theorem startRampingButton_panel {b : Button} (hb : b ≠ .iron) (e : BState) (pre : Bool) (r : RampHandler) :
    Post (startRampingButton s b e pre r) fun s' => s'.now = s.now ∧ s'.panel =
      if e = .posedge ∧ b ≠ .set then { s.panel with
        ramp := if pre then (if b = .plus then .preUp else .preDown) else (if b = .plus then .up else .down),
        pre := if pre then toU16 (s.now + 1000) else s.panel.pre } else s.panel := by
  unfold startRampingButton
  cases e <;> cases b <;> simp only [reduceCtorEq, if_true, if_false, ne_eq, not_true, not_false_eq_true, and_self, and_false, and_true, false_and]
  all_goals first
    | exact absurd rfl hb
    | exact Post.pure ⟨rfl, rfl⟩
    | exact startRamping_panel false pre (some r)
    | exact startRamping_panel true pre (some r)

/-- the part of the button handler that depends on the screen -/
def Panel.screen (p : Panel) (c : Conf) (now : Int) (b : Button) (e : BState) : Panel :=
  match e with
  | .posedge => p.press c now b
  | .pressed => p
  | .negedge => if b = .set then p else { p.release c b with ramp := p.ramp }

/-- screens without a value -/
theorem Panel.screen_idle {p : Panel} {now : Int} {b : Button}
    (h : p.state = .adjPre ∨ p.state = .kpPre ∨ p.state = .kiPre ∨ p.state = .kdPre) (hb : b ≠ .iron) (e : BState) :
    p.screen c now b e = p := by
  obtain ⟨st, r, pr, ca, de⟩ := p
  rcases h with h | h | h | h <;> (dsimp only at h; subst h) <;> cases e <;> cases b <;>
    first | exact absurd rfl hb | rfl

/-- screens in which a press starts a ramp at once -/
theorem Panel.screen_value {p : Panel} {now : Int} {b : Button}
    (h : p.state = .chgpreset ∨ p.state = .idletemp ∨ p.state = .adj ∨ p.state = .kp ∨ p.state = .ki ∨ p.state = .kd)
    (hb : b ≠ .iron) (e : BState) : p.screen c now b e =
      if e = .posedge ∧ b ≠ .set then { p with
        ramp := if false then (if b = .plus then .preUp else .preDown) else (if b = .plus then .up else .down),
        pre := if false then toU16 (now + 1000) else p.pre } else p := by
  obtain ⟨st, r, pr, ca, de⟩ := p
  rcases h with h | h | h | h | h | h <;> (dsimp only at h; subst h) <;> cases e <;> cases b <;>
    first | exact absurd rfl hb | rfl

theorem Panel.screen_curtemp {p : Panel} {now : Int} {b : Button} (h : p.state = .curtemp)
    (hb : b ≠ .iron) (e : BState) : p.screen c now b e =
      if e = .posedge ∧ b ≠ .set then { p with
        ramp := if true then (if b = .plus then .preUp else .preDown) else (if b = .plus then .up else .down),
        pre := if true then toU16 (now + 1000) else p.pre }
      else if e = .negedge ∧ b ≠ .set then { p with state := .selpreset } else p := by
  obtain ⟨st, r, pr, ca, de⟩ := p
  dsimp only at h
  subst h
  cases e <;> cases b <;> first | exact absurd rfl hb | rfl

theorem Panel.screen_selpreset {p : Panel} {now : Int} {b : Button} (h : p.state = .selpreset)
    (hb : b ≠ .iron) (e : BState) : p.screen c now b e =
      if e = .posedge ∧ b ≠ .set then { p with
        ramp := if true then (if b = .plus then .preUp else .preDown) else (if b = .plus then .up else .down),
        pre := if true then toU16 (now + 1000) else p.pre }
      else if e = .negedge ∧ b = .plus then { p with cache := p.cache.presetsNext }
      else if e = .negedge ∧ b = .minus then { p with cache := p.cache.presetsPrev } else p := by
  obtain ⟨st, r, pr, ca, de⟩ := p
  dsimp only at h
  subst h
  cases e <;> cases b <;> first | exact absurd rfl hb | rfl

theorem Panel.screen_debug {p : Panel} {now : Int} {b : Button} (h : p.state = .debug) (hd : c.debug = true)
    (hb : b ≠ .iron) (e : BState) : p.screen c now b e =
      if e = .posedge ∧ b ≠ .set then { p with debugEn := decide (b = .plus) } else p := by
  obtain ⟨st, r, pr, ca, de⟩ := p
  dsimp only at h
  subst h
  cases e <;> cases b <;> first | exact absurd rfl hb | rfl | simp [Panel.screen, Panel.press, hd]

theorem menuButtonScreen_panel (hi : Inv c s) {b : Button} (hb : b ≠ .iron) (e : BState) :
    Post (menuButtonScreen c s b e) fun s' => s'.now = s.now ∧ s'.panel = s.panel.screen c s.now b e := by
  have hsc := hi.menu.screen
  have start : ∀ {s1 : Sys} (r : RampHandler), s1.now = s.now → s1.panel = s.panel →
      (s.panel.state = .chgpreset ∨ s.panel.state = .idletemp ∨ s.panel.state = .adj ∨ s.panel.state = .kp ∨
        s.panel.state = .ki ∨ s.panel.state = .kd) →
      Post (startRampingButton s1 b e false r) fun s' => s'.now = s.now ∧ s'.panel = s.panel.screen c s.now b e := by
    intro s1 r h1 h2 h3
    refine (startRampingButton_panel hb e false r).mono fun s2 ⟨g1, g2⟩ => ⟨g1.trans h1, ?_⟩
    rw [g2, h1, h2, Panel.screen_value h3 hb e]
  have ps : s.panel.state = s.menu.state := rfl
  unfold menuButtonScreen
  cases hst : s.menu.state <;> simp only [hst, ScreenExists] at hsc <;>
    simp only [hsc, Bool.not_true, Bool.false_eq_true, if_false] <;> rw [hst] at ps
  case curtemp =>
    refine Post.bind (startRampingButton_panel hb e true .settemp) fun s2 ⟨g1, g2⟩ => ?_
    rw [Panel.screen_curtemp ps hb e]
    split
    · rename_i hh
      rw [if_neg (by rw [hh.1]; simp)] at g2
      refine (menuSetState_eff (t := .selpreset) rfl).mono fun s3 h3 => ?_
      rcases h3 with ⟨h, -⟩ | ⟨-, k, hk⟩
      · have : s2.menu.state = s.menu.state := congrArg Panel.state g2
        rw [hst, h] at this; cases this
      · refine ⟨k.now.trans g1, ?_⟩
        rw [k.panel (by rw [hk]), if_neg (by rw [hh.1]; simp)]
        show ({ s2.panel with state := .selpreset } : Panel) = _
        rw [g2]
    · exact Post.pure ⟨g1, g2⟩
  case selpreset =>
    rw [menuArm_hold s (by decide)]
    simp only [Option.bind_eq_bind, Option.bind_some]
    rw [Panel.screen_selpreset ps hb e]
    have pst : ∀ x, Post (presetsStore (setCache { s with menu := { s.menu with timeout := toU16 (s.now + 3000) } } x))
        fun s' => s'.now = s.now ∧ s'.panel = { s.panel with cache := x } := by
      intro x
      refine (MenuKept.refl _).presetsStore.mono fun s2 h2 => ⟨h2.1.now, ?_⟩
      rw [h2.1.panel h2.2]
      rfl
    have keep : ∀ {b : Button} {s2 : Sys} {p : Panel}, b ≠ .iron → s2.now = s.now ∧ s2.panel = p →
        Post (startRampingButton s2 b .negedge true .settemp) fun s' => s'.now = s.now ∧ s'.panel = p := by
      intro b s2 p hb h
      refine (startRampingButton_panel hb .negedge true .settemp).mono fun s3 ⟨g1, g2⟩ => ⟨g1.trans h.1, ?_⟩
      rw [g2, if_neg (by simp), h.2]
    have hnow : ({ s with menu := { s.menu with timeout := toU16 (s.now + 3000) } } : Sys).panel = s.panel := rfl
    cases e
    · simp only [reduceCtorEq, if_false, Option.bind_some, false_and, pure, true_and]
      refine (startRampingButton_panel hb .posedge true .settemp).mono fun s3 ⟨g1, g2⟩ => ⟨g1, ?_⟩
      rw [g2, hnow]
      simp only [true_and, if_true]
    · cases b <;> simp only [reduceCtorEq, if_false, if_true, Option.bind_some, false_and, and_self, and_false,
        pure, ne_eq, not_true, not_false_eq_true, true_and]
      · exact keep (b := .set) (p := s.panel)
          (s2 := { s with menu := { s.menu with timeout := toU16 (s.now + 3000) } }) (by decide) ⟨rfl, rfl⟩
      · exact Post.bind (pst _) fun s2 h2 => keep (b := .minus) (by decide) h2
      · exact Post.bind (pst _) fun s2 h2 => keep (b := .plus) (by decide) h2
      · exact absurd rfl hb
    · simp only [reduceCtorEq, if_false, Option.bind_some, false_and, pure]
      exact (startRampingButton_panel hb .pressed true .settemp).mono fun s3 ⟨g1, g2⟩ => ⟨g1, g2⟩
  case debug =>
    have deb : ∀ en, Post (debugEnable c s en) fun s' => s'.now = s.now ∧ s'.panel = { s.panel with debugEn := en } := by
      intro en
      unfold debugEnable
      rw [if_pos hsc]
      exact Post.bindAny fun pd => Post.pure ⟨rfl, rfl⟩
    rw [Panel.screen_debug ps hsc hb e]
    cases e
    · cases b
      · exact Post.pure ⟨rfl, rfl⟩
      · exact Post.bind (P := fun s' => s' = s) (Post.pure rfl) fun s1 h1 => by
          subst h1
          exact Post.bind (deb _) fun s2 h2 => Post.pure h2
      · exact Post.bind (deb _) fun s2 h2 => Post.pure h2
      · exact absurd rfl hb
    · exact Post.pure ⟨rfl, rfl⟩
    · exact Post.pure ⟨rfl, rfl⟩
  case chgpreset => 
    rw [menuArm_hold s (by decide)]
    exact start _ rfl rfl (by simp [ps])
  case idletemp =>
    rw [menuArm_hold s (by decide)]
    exact start _ rfl rfl (by simp [ps])
  all_goals first
    | exact start _ rfl rfl (by simp [ps])
    | (rw [Panel.screen_idle (by simp [ps]) hb e]; exact Post.pure ⟨rfl, rfl⟩)

/-- one call of the menu's button handler -/
def Panel.call (p : Panel) (c : Conf) (now : Int) (b : Button) (e : BState) : Panel :=
  match e with
  | .posedge => p.press c now b
  | .pressed => p
  | .negedge => p.release c b

theorem menuButton_panel (hi : Inv c s) {b : Button} (hb : b ≠ .iron) (e : BState) :
    Post (menuButton c s b e) fun s' => s'.now = s.now ∧ s'.panel = s.panel.call c s.now b e := by
  unfold menuButton
  rw [if_neg hb]
  refine Post.bind (menuButtonScreen_panel hi hb e) fun s1 ⟨h1, h2⟩ => ?_
  cases e <;> simp only [reduceCtorEq, if_true, if_false]
  · exact Post.pure ⟨h1, h2⟩
  · split
    · rename_i hset
      subst hset
      have h2 : s1.panel = s.panel := h2
      have hd : (stopRamping s1).debugEn = s.debugEn := congrArg Panel.debugEn h2
      have hst : s1.menu.state = s.menu.state := congrArg Panel.state h2
      have h3 : (stopRamping s1).panel = { s.panel with ramp := .none } := by
        show ({ s1.panel with ramp := .none } : Panel) = _
        rw [h2]
      rw [hd]
      cases hde : s.debugEn
      · simp only [Bool.not_false, if_true]
        refine (menuSetState_eff (s := stopRamping s1) (nextMenuState_ok c _).1).mono fun s2 h4 => ?_
        have hn : nextMenuState c (stopRamping s1).menu.state = nextMenuState c s.menu.state := by
          show nextMenuState c s1.menu.state = _
          rw [hst]
        have hp : (s.panel.call c s.now .set .negedge) =
            { s.panel with ramp := .none, state := nextMenuState c s.menu.state } := by
          show ({ s.panel with ramp := .none, state := if s.debugEn then s.menu.state else nextMenuState c s.menu.state } : Panel) = _
          rw [hde]
          rfl
        rcases h4 with ⟨h4, rfl⟩ | ⟨h4, k, hk⟩
        · refine ⟨h1, ?_⟩
          rw [hp, h3, ← hn, ← h4]
          have : s.panel.state = (stopRamping s1).menu.state := hst.symm
          rw [← this]
        · refine ⟨k.now.trans h1, ?_⟩
          rw [k.panel (by rw [hk]), hp, ← hn]
          show ({ (stopRamping s1).panel with state := _ } : Panel) = _
          rw [h3]
      · simp only [Bool.not_true, Bool.false_eq_true, if_false]
        refine Post.pure ⟨h1, ?_⟩
        rw [h3]
        show _ = ({ s.panel with ramp := .none, state := if s.debugEn then s.menu.state else nextMenuState c s.menu.state } : Panel)
        rw [hde]
        rfl
    · rename_i hset
      refine Post.pure ⟨h1, ?_⟩
      show ({ s1.panel with ramp := .none } : Panel) = s.panel.release c b
      rw [h2]
      show ({ (if b = .set then s.panel else { s.panel.release c b with ramp := s.panel.ramp }) with ramp := .none } : Panel) = _
      rw [if_neg hset]
      show ({ s.panel.release c b with ramp := .none } : Panel) = _
      cases b
      · exact absurd rfl hset
      · simp only [Panel.release]; repeat' split
        all_goals rfl
      · simp only [Panel.release]; repeat' split
        all_goals rfl
      · exact absurd rfl hb
  · exact Post.pure ⟨h1, h2⟩

/-- the calls of one button in a sample -/
def Panel.block (p : Panel) (c : Conf) (now : Int) (b : Button) (was down : Bool) : Panel :=
  if down && !was then p.press c now b else if !down && was then p.release c b else p

theorem block_panel (hi : Inv c s) {b : Button} (hb : b ≠ .iron) (was down : Bool) :
    Post ((blockCalls b was down).foldlM (callButtonHandlers c) s) fun s' =>
      s'.now = s.now ∧ s'.panel = s.panel.block c s.now b was down := by
  have one : ∀ {s : Sys} e, Inv c s → Post (callButtonHandlers c s (b, e)) fun s' => Inv c s' ∧ s'.now = s.now ∧
      s'.panel = s.panel.call c s.now b e := by
    intro s e hi
    rw [callPanel hb]
    intro s' es
    obtain ⟨h1, h2⟩ := menuButton_panel hi hb e s' es
    exact ⟨(hi.menuButton b e).elim es, h1, h2⟩
  cases was <;> cases down
  · exact Post.pure ⟨rfl, rfl⟩
  · show Post ([(b, BState.posedge), (b, BState.pressed)].foldlM (callButtonHandlers c) s) _
    simp only [List.foldlM_cons, List.foldlM_nil]
    exact Post.bind (one _ hi) fun s1 ⟨i1, n1, p1⟩ => Post.bind (one _ i1) fun s2 ⟨i2, n2, p2⟩ =>
      Post.pure ⟨n2.trans n1, p2.trans p1⟩
  · show Post ([(b, BState.negedge)].foldlM (callButtonHandlers c) s) _
    simp only [List.foldlM_cons, List.foldlM_nil]
    exact Post.bind (one _ hi) fun s1 ⟨i1, n1, p1⟩ => Post.pure ⟨n1, p1⟩
  · show Post ([(b, BState.pressed)].foldlM (callButtonHandlers c) s) _
    simp only [List.foldlM_cons, List.foldlM_nil]
    exact Post.bind (one _ hi) fun s1 ⟨i1, n1, p1⟩ => Post.pure ⟨n1, p1⟩

/-- the settings are the same -/
def SetSame (a s : Sys) : Prop := s.set = a.set

theorem SetSame.doIdle {a : Sys} (h : SetSame a s) (b : Bool) : Post (contrtempDoIdle s b) (SetSame a) := by
  unfold contrtempDoIdle
  exact Post.bind (((MenuKept.refl s).withCt _).updateSetpoint) fun s2 h2 => Post.pure (h2.2.trans h)

theorem SetSame.nextBoost {a : Sys} (h : SetSame a s) : Post (contrtempNextBoost c s) (SetSame a) :=
  ((MenuKept.refl s).setBoost _).mono fun _ h2 => h2.2.trans h

theorem SetSame.ironButton {a : Sys} (h : SetSame a s) (b : Button) (e : BState) :
    Post (contrtempButton c s b e) (SetSame a) := by
  have tail : ∀ {s : Sys}, SetSame a s → ∀ idle : Bool,
      Post (if s.ct.biLet then
        if idle ∨ (e = .pressed ∧ timerExpired s.now s.ct.biTimer) then do
          let s ← contrtempDoIdle s !idle
          return { s with ct := { s.ct with biLet := false } }
        else if e = .negedge then do
          let s ← contrtempNextBoost c s
          return { s with ct := { s.ct with biLet := false } }
        else return s
      else return s) (SetSame a) := by
    intro s h idle
    split
    · split
      · exact Post.bind (h.doIdle _) fun s2 h2 => Post.pure h2
      · split
        · exact Post.bind h.nextBoost fun s2 h2 => Post.pure h2
        · exact Post.pure h
    · exact Post.pure h
  unfold contrtempButton
  split
  · simp only []
    split
    · exact Post.pure h
    · split
      · refine Post.bindAny fun t => ?_
        exact Post.bind (P := SetSame a) (Post.pure h) fun s2 h2 => tail h2 s.ct.idle
      · exact Post.bind (P := SetSame a) (Post.pure h) fun s2 h2 => tail h2 s.ct.idle
  · split
    · exact Post.pure h
    · split
      · exact h.nextBoost
      · exact Post.pure h
  · split
    · exact Post.pure h
    · simp only []
      have : ∀ x : Bool, Post (if x ≠ s.ct.idle then contrtempDoIdle s x else some s) (SetSame a) := by
        intro x
        split
        · exact h.doIdle _
        · exact Post.pure h
      repeat' split
      all_goals first
        | exact h.doIdle _
        | exact Post.pure h
        | exact this _
  · exact Post.pure h

/-- the iron button leaves the settings alone -/
theorem ironSet {s' : Sys} {e : BState} (es : contrtempButton c s .iron e = some s') : s'.set = s.set :=
  SetSame.ironButton (a := s) rfl _ _ s' es

/-- a sample: first SET, then minus, then plus -/
theorem sample_panel (hi : Inv c s) {s' : Sys} {pinb : BitVec 8} (hx : timerExpired s.now s.btn.debounce = true)
    (e : buttonsWork c s pinb = some s') : s'.panel =
      ((s.panel.block c s.now .set (s.btn.prev.getLsbD 2) (!pinb.getLsbD 2)).block c s.now .minus
        (s.btn.prev.getLsbD 3) (!pinb.getLsbD 3)).block c s.now .plus (s.btn.prev.getLsbD 4) (!pinb.getLsbD 4) := by
  unfold buttonsWork buttonsSample at e
  rw [hx, timerAdd_eq _ (by decide) (by decide)] at e
  simp only [Bool.not_true, Bool.false_eq_true, if_false, Option.bind_eq_bind, Option.bind_some, pure] at e
  rw [buttonCalls_split, panelCalls_blocks, List.foldlM_append, List.foldlM_append] at e
  obtain ⟨s3, e3, e⟩ := Option.bind_eq_some_iff.mp e
  obtain ⟨s1, e1, e3⟩ := Option.bind_eq_some_iff.mp e3
  rw [List.foldlM_append] at e3
  obtain ⟨s2, e2, e3⟩ := Option.bind_eq_some_iff.mp e3
  have h0 : Inv c { s with btn := { prev := buttonsRaw pinb, debounce := toU16 (s.btn.debounce + toU16 10) } } := { hi with }
  have h1 := (Inv.calls _ h0).elim e1
  have h2 := (Inv.calls _ h1).elim e2
  have h3 := (Inv.calls _ h2).elim e3
  obtain ⟨n1, p1⟩ := block_panel h0 (by decide) _ _ s1 e1
  obtain ⟨n2, p2⟩ := block_panel h1 (by decide) _ _ s2 e2
  obtain ⟨n3, p3⟩ := block_panel h2 (by decide) _ _ s3 e3
  have key : ∀ (l : List (Button × BState)), (∀ x ∈ l, x.1 = .iron) → ∀ {s : Sys}, Inv c s →
      (MenuKept s3 s ∧ s.set = s3.set) →
      Post (l.foldlM (callButtonHandlers c) s) fun s' => Inv c s' ∧ (MenuKept s3 s' ∧ s'.set = s3.set) := by
    intro l hl s hi hk
    refine Inv.foldCalls l (fun {s x} hx _ k => ?_) hi hk
    unfold callButtonHandlers
    rw [hl x hx]
    refine Post.bind (P := fun s' => MenuKept s3 s' ∧ s'.set = s3.set) ?_ fun s2 h2 => Post.pure h2
    intro s' es
    exact ⟨k.1.ironButton _ _ s' es, (ironSet es).trans k.2⟩
  have hf := (key _ (by
    intro x hx
    obtain ⟨e, -, rfl⟩ := List.mem_map.mp hx
    rfl) h3 ⟨MenuKept.refl s3, rfl⟩ s' e).2
  rw [hf.1.panel (by rw [hf.2]), p3, p2, p1, n2, n1]
  rfl

end Verif
