import Verif.Proofs.Ramp
/-
What one sample of the buttons does to the menu.
-/
namespace Verif
open Spec

variable {c : Conf} {s : Sys}

/-- the screen and the debug switch after the part of the button handler that depends on the screen -/
structure StatePart (b : Button) (e : BState) (s s' : Sys) : Prop where
  state : s'.menu.state = s.menu.state ∨
    (s.menu.state = .curtemp ∧ e = .negedge ∧ b ≠ .set ∧ s'.menu.state = .selpreset)
  debugEn : b = .set → s'.debugEn = s.debugEn

theorem StatePart.kept {a s' : Sys} {b : Button} {e : BState} (h : StatePart b e a s) (k : MenuKept s s') :
    StatePart b e a s' := by
  refine ⟨?_, fun hb => k.debugEn.trans (h.debugEn hb)⟩
  rw [k.state]
  exact h.state

theorem StatePart.start {a : Sys} {b : Button} {e : BState} (h : StatePart b e a s) (pre : Bool) (r : RampHandler) :
    Post (startRampingButton s b e pre r) (StatePart b e a) := by
  refine (startRampingButton_eff b e pre r).mono fun s2 h2 => ?_
  rcases h2 with rfl | ⟨he, rp, pt, rfl, hd⟩
  · exact h
  · exact { h with }

theorem menuButtonScreen_state (b : Button) (e : BState) :
    Post (menuButtonScreen c s b e) (StatePart b e s) := by
  have refl : StatePart b e s s := ⟨Or.inl rfl, fun _ => rfl⟩
  have arm : ∀ ms, Post (menuArm s ms) (StatePart b e s) := fun ms => by
    unfold menuArm
    exact Post.bindAny fun t => Post.pure { refl with }
  unfold menuButtonScreen
  cases hst : s.menu.state <;> simp only []
  case curtemp =>
    refine Post.bind (P := fun s2 => StatePart b e s s2 ∧ s2.menu.state = s.menu.state ∧ s2.debugEn = s.debugEn) ?_
      fun s2 ⟨h2, g1, g2⟩ => ?_
    · refine (startRampingButton_eff b e true .settemp).mono fun s2 h2 => ?_
      rcases h2 with rfl | ⟨he, rp, pt, rfl, hd⟩
      · exact ⟨refl, rfl, rfl⟩
      · exact ⟨{ refl with }, rfl, rfl⟩
    split
    · rename_i hb
      refine (menuSetState_eff (t := .selpreset) rfl).mono fun s3 h3 => ?_
      rcases h3 with ⟨-, rfl⟩ | ⟨-, k, -⟩
      · exact h2
      · refine ⟨Or.inr ⟨hst, hb.1, hb.2, ?_⟩, fun hh => absurd hh hb.2⟩
        rw [k.state]
    · exact Post.pure h2
  case selpreset =>
    refine Post.bind (arm 3000) fun s1 h1 => ?_
    have pst : ∀ {s1 : Sys}, StatePart b e s s1 → ∀ x, Post (presetsStore (setCache s1 x)) (StatePart b e s) := by
      intro s1 h1 x
      exact ((MenuKept.refl s1).withCache x).presetsStore.mono fun s2 h2 => h1.kept h2.1
    cases e
    · exact Post.bind (P := StatePart b .posedge s) (Post.pure h1) fun s2 h2 => h2.start _ _
    · simp only [if_true]
      cases b <;> simp only [reduceCtorEq, if_false, if_true, pure_bind]
      · exact h1.start _ _
      · exact Post.bind (pst h1 _) fun s2 h2 => h2.start _ _
      · exact Post.bind (pst h1 _) fun s2 h2 => h2.start _ _
      · exact h1.start _ _
    · exact Post.bind (P := StatePart b .pressed s) (Post.pure h1) fun s2 h2 => h2.start _ _
  case chgpreset => exact Post.bind (arm 3000) fun s1 h1 => h1.start _ _
  case idletemp =>
    split
    · exact Post.pure refl
    · exact Post.bind (arm 3000) fun s1 h1 => h1.start _ _
  case debug =>
    have deb : ∀ en, b ≠ .set → Post (debugEnable c s en) (StatePart b e s) := by
      intro en hb
      refine ((MenuKept.refl s).debugEnable en).mono fun s2 ⟨k1, k2, u, k3⟩ => ?_
      exact ⟨Or.inl (by rw [k3]), fun hh => absurd hh hb⟩
    split
    · exact Post.pure refl
    · split
      · cases b <;> simp only [reduceCtorEq, if_false, if_true, pure_bind]
        · exact Post.pure refl
        · exact Post.bind (deb _ (by decide)) fun s3 h3 => Post.pure (h3.kept (MenuKept.refl s3).req)
        · exact Post.bind (deb _ (by decide)) fun s3 h3 => Post.pure h3
        · exact Post.pure refl
      · exact Post.pure refl
  all_goals first
    | exact Post.pure refl
    | (split
       · exact Post.pure refl
       · exact refl.start _ _)

/-- the screen after a call of the menu's button handler -/
theorem menuButton_state {b : Button} (e : BState) :
    Post (menuButton c s b e) fun s' => s'.menu.state = s.menu.state ∨
      (b = .set ∧ e = .negedge ∧ s.debugEn = false ∧ s'.menu.state = nextMenuState c s.menu.state) ∨
      (s.menu.state = .curtemp ∧ e = .negedge ∧ b ≠ .set ∧ s'.menu.state = .selpreset) := by
  unfold menuButton
  split
  · exact Post.pure (Or.inl rfl)
  refine Post.bind (menuButtonScreen_state b e) fun s1 h1 => ?_
  have same : s1.menu.state = s.menu.state ∨
      (b = .set ∧ e = .negedge ∧ s.debugEn = false ∧ s1.menu.state = nextMenuState c s.menu.state) ∨
      (s.menu.state = .curtemp ∧ e = .negedge ∧ b ≠ .set ∧ s1.menu.state = .selpreset) := by
    rcases h1.state with h | h
    · exact Or.inl h
    · exact Or.inr (Or.inr h)
  split
  · rename_i he
    simp only []
    split
    · rename_i hset
      have hs : s1.menu.state = s.menu.state := by
        rcases h1.state with h | h
        · exact h
        · exact absurd hset h.2.2.1
      split
      · rename_i hd
        refine (menuSetState_eff (s := stopRamping s1) (nextMenuState_ok c _).1).mono fun s2 h2 => ?_
        refine Or.inr (Or.inl ⟨hset, he, ?_, ?_⟩)
        · rw [← h1.debugEn hset]
          have : (!s1.debugEn) = true := hd
          simpa using this
        · rcases h2 with ⟨h2, rfl⟩ | ⟨-, k, -⟩
          · rw [h2]
            show nextMenuState c s1.menu.state = _
            rw [hs]
          · rw [k.state]
            show nextMenuState c s1.menu.state = _
            rw [hs]
      · exact Post.pure same
    · exact Post.pure same
  · exact Post.pure same

/-- handler calls keep what each single call keeps -/
theorem Inv.foldCalls {Q : Sys → Prop} (l : List (Button × BState))
    (step : ∀ {s : Sys} {x}, x ∈ l → Inv c s → Q s → Post (callButtonHandlers c s x) Q) :
    ∀ {s : Sys}, Inv c s → Q s → Post (l.foldlM (callButtonHandlers c) s) fun s' => Inv c s' ∧ Q s' := by
  induction l with
  | nil => intro s hi hq; exact Post.pure ⟨hi, hq⟩
  | cons x l ih =>
    intro s hi hq
    rw [List.foldlM_cons]
    refine Post.bind (P := fun s' => Inv c s' ∧ Q s') (fun s' e => ⟨?_, step (by simp) hi hq s' e⟩)
      fun s' h => ih (fun hx => step (by simp [hx])) h.1 h.2
    have : Safe (callButtonHandlers c s x) (Inv c) :=
      Safe.bind (hi.ironButton x.1 x.2) fun s1 h1 => h1.menuButton x.1 x.2
    exact this.elim e

theorem callPanel {b : Button} (hb : b ≠ .iron) (e : BState) : callButtonHandlers c s (b, e) = menuButton c s b e := by
  unfold callButtonHandlers
  rw [contrtempButton_other hb]
  rfl

/-- the calls of one button in one sample -/
def blockCalls (b : Button) (was down : Bool) : List (Button × BState) := (pressCalls was down).map fun e => (b, e)

theorem panelCalls_blocks (prev pinb : BitVec 8) : panelCalls prev pinb =
    blockCalls .set (prev.getLsbD 2) (!pinb.getLsbD 2) ++ (blockCalls .minus (prev.getLsbD 3) (!pinb.getLsbD 3) ++
      blockCalls .plus (prev.getLsbD 4) (!pinb.getLsbD 4)) := by
  simp [panelCalls, blockCalls, buttonPin]

/-- the states between the calls of the three panel buttons in a sample -/
theorem sample_blocks (hi : Inv c s) {s' : Sys} {pinb : BitVec 8} (hx : timerExpired s.now s.btn.debounce = true)
    (e : buttonsWork c s pinb = some s') : ∃ b s1 s2 s3, b.prev = buttonsRaw pinb ∧ Inv c { s with btn := b } ∧
      (blockCalls .set (s.btn.prev.getLsbD 2) (!pinb.getLsbD 2)).foldlM (callButtonHandlers c) { s with btn := b } = some s1 ∧
      Inv c s1 ∧
      (blockCalls .minus (s.btn.prev.getLsbD 3) (!pinb.getLsbD 3)).foldlM (callButtonHandlers c) s1 = some s2 ∧ Inv c s2 ∧
      (blockCalls .plus (s.btn.prev.getLsbD 4) (!pinb.getLsbD 4)).foldlM (callButtonHandlers c) s2 = some s3 ∧ Inv c s3 ∧
      MenuKept s3 s' := by
  unfold buttonsWork buttonsSample at e
  rw [hx, timerAdd_eq _ (by decide) (by decide)] at e
  simp only [Bool.not_true, Bool.false_eq_true, if_false, Option.bind_eq_bind, Option.bind_some, pure] at e
  rw [buttonCalls_split, panelCalls_blocks, List.foldlM_append, List.foldlM_append] at e
  obtain ⟨s3, e3, e⟩ := Option.bind_eq_some_iff.mp e
  obtain ⟨s1, e1, e3⟩ := Option.bind_eq_some_iff.mp e3
  rw [List.foldlM_append] at e3
  obtain ⟨s2, e2, e3⟩ := Option.bind_eq_some_iff.mp e3
  have h0 : Inv c { s with btn := { prev := buttonsRaw pinb, debounce := toU16 (s.btn.debounce + toU16 10) } } := { hi with }
  have h1 := (Inv.calls _ h0).elim e1
  have h2 := (Inv.calls _ h1).elim e2
  have h3 := (Inv.calls _ h2).elim e3
  refine ⟨_, s1, s2, s3, rfl, h0, e1, h1, e2, h2, e3, h3, ?_⟩
  have key : ∀ (l : List (Button × BState)), (∀ x ∈ l, x.1 = .iron) → ∀ {s : Sys}, Inv c s → MenuKept s3 s →
      Post (l.foldlM (callButtonHandlers c) s) fun s' => Inv c s' ∧ MenuKept s3 s' := by
    intro l hl s hi hk
    refine Inv.foldCalls l (fun {s x} hx _ k => ?_) hi hk
    unfold callButtonHandlers
    refine Post.bind (k.ironButton _ _) fun s2 h2 => ?_
    rw [hl x hx]
    exact Post.pure h2
  refine (key _ ?_ h3 (MenuKept.refl s3) s' e).2
  intro x hx
  obtain ⟨e, -, rfl⟩ := List.mem_map.mp hx
  rfl

/-- the ramp after the calls of one button -/
structure BlockRamp (now : Int) (b : Button) (was down : Bool) (m m' : Menu) : Prop where
  release : was = true → down = false → m'.ramp = .none
  other : ¬ (was = true ∧ down = false) →
    (m'.ramp = m.ramp ∧ m'.rampTimer = m.rampTimer ∧ m'.period = m.period) ∨
    (was = false ∧ down = true ∧ m'.rampTimer = now ∧ m'.period = 400 ∧
      ((b = .plus ∧ (m'.ramp = .up ∨ m'.ramp = .preUp)) ∨ (b = .minus ∧ (m'.ramp = .down ∨ m'.ramp = .preDown))))

theorem block_ramp (hi : Inv c s) {b : Button} (hb : b ≠ .iron) (was down : Bool) :
    Post ((blockCalls b was down).foldlM (callButtonHandlers c) s) fun s' =>
      s'.now = s.now ∧ s'.btn = s.btn ∧ BlockRamp s.now b was down s.menu s'.menu := by
  have one : ∀ {s : Sys} e, Inv c s → Post (callButtonHandlers c s (b, e)) fun s' => Inv c s' ∧ s'.now = s.now ∧
      s'.btn = s.btn ∧ RampEff s.now b e s.menu s'.menu := by
    intro s e hi
    rw [callPanel hb]
    intro s' es
    obtain ⟨h1, h2, h3, -⟩ := menuButton_eff hi hb e s' es
    exact ⟨(hi.menuButton b e).elim es, h1, h2, h3⟩
  cases was <;> cases down
  · exact Post.pure ⟨rfl, rfl, ⟨(fun h => by cases h), fun _ => Or.inl ⟨rfl, rfl, rfl⟩⟩⟩
  · show Post ([(b, BState.posedge), (b, BState.pressed)].foldlM (callButtonHandlers c) s) _
    simp only [List.foldlM_cons, List.foldlM_nil]
    refine Post.bind (one _ hi) fun s1 ⟨i1, n1, b1, r1⟩ => Post.bind (one _ i1) fun s2 ⟨i2, n2, b2, r2⟩ =>
      Post.pure ⟨n2.trans n1, b2.trans b1, ⟨(fun h => by cases h), fun _ => ?_⟩⟩
    obtain ⟨g1, g2, g3⟩ := r2.hold rfl
    rcases r1.press rfl with ⟨k1, k2, k3⟩ | ⟨k1, k2, k3⟩
    · exact Or.inl ⟨g1.trans k1, g2.trans k2, g3.trans k3⟩
    · refine Or.inr ⟨rfl, rfl, g2.trans k1, g3.trans k2, ?_⟩
      rw [g1]
      exact k3
  · show Post ([(b, BState.negedge)].foldlM (callButtonHandlers c) s) _
    simp only [List.foldlM_cons, List.foldlM_nil]
    exact Post.bind (one _ hi) fun s1 ⟨i1, n1, b1, r1⟩ => Post.pure ⟨n1, b1, ⟨fun _ _ => r1.release rfl, fun h => absurd ⟨rfl, rfl⟩ h⟩⟩
  · show Post ([(b, BState.pressed)].foldlM (callButtonHandlers c) s) _
    simp only [List.foldlM_cons, List.foldlM_nil]
    exact Post.bind (one _ hi) fun s1 ⟨i1, n1, b1, r1⟩ => Post.pure ⟨n1, b1, ⟨(fun _ h => by cases h), fun _ => Or.inl (r1.hold rfl)⟩⟩

/-- raising or lowering a value, or about to -/
def Dir (r : Ramp) : Option Bool :=
  match r with
  | .none => none
  | .up | .preUp => some true
  | .down | .preDown => some false

/-- the pin of the button that ramps in a direction -/
def dirPin (up : Bool) : Nat := if up then 4 else 3

/-- the ramp after one sample -/
theorem sample_ramp (hi : Inv c s) {s' : Sys} {pinb : BitVec 8} (hx : timerExpired s.now s.btn.debounce = true)
    (e : buttonsWork c s pinb = some s')
    (held : ∀ up, Dir s.menu.ramp = some up → s.btn.prev.getLsbD (dirPin up) = true) :
    (∀ up, Dir s'.menu.ramp = some up → pinb.getLsbD (dirPin up) = false) ∧
    ((s'.menu.ramp = s.menu.ramp ∧ s'.menu.rampTimer = s.menu.rampTimer ∧ s'.menu.period = s.menu.period) ∨
     s'.menu.ramp = .none ∨
     (s'.menu.rampTimer = s.now ∧ s'.menu.period = 400 ∧ ∃ up, Dir s'.menu.ramp = some up ∧
       s.btn.prev.getLsbD (dirPin up) = false)) ∧
    ((∃ i, (i = 2 ∨ i = 3 ∨ i = 4) ∧ s.btn.prev.getLsbD i = true ∧ pinb.getLsbD i = true) →
      s'.menu.ramp = .none ∨ (s'.menu.rampTimer = s.now ∧ s'.menu.period = 400 ∧ ∃ up, Dir s'.menu.ramp = some up ∧
       s.btn.prev.getLsbD (dirPin up) = false)) := by
  obtain ⟨b, s1, s2, s3, hb, i0, e1, i1, e2, i2, e3, i3, k⟩ := sample_blocks hi hx e
  obtain ⟨n1, -, r1⟩ := block_ramp i0 (by decide) _ _ s1 e1
  obtain ⟨n2, -, r2⟩ := block_ramp i1 (by decide) _ _ s2 e2
  obtain ⟨n3, -, r3⟩ := block_ramp i2 (by decide) _ _ s3 e3
  obtain ⟨u, hm⟩ := k.menu
  have q1 : s'.menu.ramp = s3.menu.ramp := by rw [hm]
  have q2 : s'.menu.rampTimer = s3.menu.rampTimer := by rw [hm]
  have q3 : s'.menu.period = s3.menu.period := by rw [hm]
  have m0 : ({ s with btn := b } : Sys).menu = s.menu := rfl
  have n0 : ({ s with btn := b } : Sys).now = s.now := rfl
  rw [m0, n0] at r1
  rw [n0] at n1
  rw [n1] at r2 n2
  rw [n2] at r3
  rw [q1, q2, q3]
  clear q1 q2 q3 hm k e1 e2 e3 n1 n2 n3 i0 i1 i2 i3 e hb m0 n0 hi hx
  have R : ∀ {b was down} {m m' : Menu}, BlockRamp s.now b was down m m' →
      m'.ramp = .none ∨ (¬ (was = true ∧ down = false) ∧
        ((m'.ramp = m.ramp ∧ m'.rampTimer = m.rampTimer ∧ m'.period = m.period) ∨
        (was = false ∧ down = true ∧ m'.rampTimer = s.now ∧ m'.period = 400 ∧
        ((b = .plus ∧ Dir m'.ramp = some true) ∨ (b = .minus ∧ Dir m'.ramp = some false))))) := by
    intro b was down m m' r
    by_cases h : was = true ∧ down = false
    · exact Or.inl (r.release h.1 h.2)
    · refine Or.inr ⟨h, (r.other h).imp id ?_⟩
      rintro ⟨h1, h2, h3, h4, h5⟩
      refine ⟨h1, h2, h3, h4, h5.imp ?_ ?_⟩ <;> rintro ⟨h5, h6 | h6⟩ <;> exact ⟨h5, by rw [h6]; rfl⟩
  have fin : s3.menu.ramp = .none ∨
      (s3.menu.rampTimer = s.now ∧ s3.menu.period = 400 ∧ ∃ up, Dir s3.menu.ramp = some up ∧
        s.btn.prev.getLsbD (dirPin up) = false ∧ pinb.getLsbD (dirPin up) = false) ∨
      (s3.menu.ramp = s.menu.ramp ∧ s3.menu.rampTimer = s.menu.rampTimer ∧ s3.menu.period = s.menu.period ∧
        ∀ i, (i = 2 ∨ i = 3 ∨ i = 4) → ¬ (s.btn.prev.getLsbD i = true ∧ pinb.getLsbD i = true)) := by
    rcases R r3 with h3 | ⟨g3, h3 | ⟨a1, a2, a3, a4, a5⟩⟩
    · exact Or.inl h3
    · rcases R r2 with h2 | ⟨g2, h2 | ⟨a1, a2, a3, a4, a5⟩⟩
      · exact Or.inl (h3.1.trans h2)
      · rcases R r1 with h1 | ⟨g1, h1 | ⟨a1, a2, a3, a4, a5⟩⟩
        · exact Or.inl (h3.1.trans (h2.1.trans h1))
        · refine Or.inr (Or.inr ⟨h3.1.trans (h2.1.trans h1.1), h3.2.1.trans (h2.2.1.trans h1.2.1),
            h3.2.2.trans (h2.2.2.trans h1.2.2), ?_⟩)
          rintro i (rfl | rfl | rfl) ⟨k1, k2⟩
          · exact g1 ⟨k1, by rw [k2]; rfl⟩
          · exact g2 ⟨k1, by rw [k2]; rfl⟩
          · exact g3 ⟨k1, by rw [k2]; rfl⟩
        · rcases a5 with ⟨a5, -⟩ | ⟨a5, -⟩ <;> cases a5
      · rcases a5 with ⟨a5, -⟩ | ⟨-, a5⟩
        · cases a5
        · exact Or.inr (Or.inl ⟨h3.2.1.trans a3, h3.2.2.trans a4, false, by rw [h3.1]; exact a5, a1, Bool.not_eq_true' _ |>.mp a2⟩)
    · rcases a5 with ⟨-, a5⟩ | ⟨a5, -⟩
      · exact Or.inr (Or.inl ⟨a3, a4, true, a5, a1, Bool.not_eq_true' _ |>.mp a2⟩)
      · cases a5
  refine ⟨?_, ?_, ?_⟩
  · intro up hd
    rcases fin with h | ⟨-, -, up', h1, h2, h3⟩ | ⟨h1, -, -, h4⟩
    · rw [h] at hd; cases hd
    · rw [h1] at hd; cases hd; exact h3
    · rw [h1] at hd
      have := h4 (dirPin up) (by cases up <;> simp [dirPin])
      have h5 := held up hd
      cases hp : pinb.getLsbD (dirPin up)
      · rfl
      · exact absurd ⟨h5, hp⟩ this
  · rcases fin with h | ⟨h1, h2, up, h3, h4, -⟩ | ⟨h1, h2, h3, -⟩
    · exact Or.inr (Or.inl h)
    · exact Or.inr (Or.inr ⟨h1, h2, up, h3, h4⟩)
    · exact Or.inl ⟨h1, h2, h3⟩
  · rintro ⟨i, hi, h5, h6⟩
    rcases fin with h | ⟨h1, h2, up, h3, h4, -⟩ | ⟨-, -, -, h4⟩
    · exact Or.inl h
    · exact Or.inr ⟨h1, h2, up, h3, h4⟩
    · exact absurd ⟨h5, h6⟩ (h4 i hi)

/-- the timeout of the screen, if it has one, is counted from now -/
def Fresh (now : Int) (m : Menu) : Prop := m.timeout = entryTimeout now m.state m.timeout

/-- the screen after some handler calls of a sample that began with menu `m0` -/
def ScreenCalls (now : Int) (m0 m : Menu) (called : Bool) : Prop :=
  (m.state = m0.state ∧ m.timeout = m0.timeout ∧ (called = true → holdTime m0.state ≠ some 3000)) ∨
  (called = true ∧ Fresh now m ∧ (holdTime m.state = some 1500 → m.state ≠ m0.state))

/-- a call that is not a release of SET -/
theorem ScreenCalls.call {m0 : Menu} {called : Bool} {b : Button} {e : BState} (hi : Inv c s)
    (h : ScreenCalls s.now m0 s.menu called) (hb : b ≠ .iron) (hn : b = .set → e ≠ .negedge) :
    Post (callButtonHandlers c s (b, e)) fun s' => s'.now = s.now ∧ ScreenCalls s.now m0 s'.menu true := by
  rw [callPanel hb]
  intro s' es
  obtain ⟨n1, -, -, h3, -⟩ := menuButton_eff hi hb e s' es
  have h4 := menuButton_state e s' es
  refine ⟨n1, ?_⟩
  have not15 : (holdTime s'.menu.state = some 1500 → b = .set ∧ s'.menu.state ≠ s.menu.state) →
      holdTime s'.menu.state ≠ some 1500 := by
    intro hh h5
    obtain ⟨g1, g2⟩ := hh h5
    rcases h4 with h4 | ⟨-, h4, -⟩ | ⟨-, -, h4, -⟩
    · exact g2 h4
    · exact hn g1 h4
    · exact h4 g1
  rcases h3 with ⟨k1, k2, k3⟩ | ⟨k1, k2⟩
  · rcases h with ⟨g1, g2, g3⟩ | ⟨-, g2, g3⟩
    · refine Or.inl ⟨k1.trans g1, k2.trans g2, fun _ => ?_⟩
      rw [← g1]
      exact k3
    · refine Or.inr ⟨rfl, ?_, ?_⟩
      · unfold Fresh at g2 ⊢
        rw [k1, k2]
        exact g2
      · rw [k1]
        exact g3
  · exact Or.inr ⟨rfl, k1, fun hh => absurd hh (not15 k2)⟩

/-- the first call of a sample, if it is the release of SET -/
theorem ScreenCalls.release {e : BState} (hi : Inv c s) :
    Post (callButtonHandlers c s (.set, e)) fun s' => s'.now = s.now ∧ ScreenCalls s.now s.menu s'.menu true := by
  rw [callPanel (by decide)]
  intro s' es
  obtain ⟨n1, -, -, h3, -⟩ := menuButton_eff hi (by decide) e s' es
  refine ⟨n1, ?_⟩
  rcases h3 with ⟨k1, k2, k3⟩ | ⟨k1, k2⟩
  · exact Or.inl ⟨k1, k2, fun _ => k3⟩
  · exact Or.inr ⟨rfl, k1, fun hh => (k2 hh).2⟩

/-- the calls of one button, none of them a release of SET -/
theorem ScreenCalls.block {m0 : Menu} {now : Int} (was down : Bool) {called : Bool} {b : Button} (hi : Inv c s) (hnow : s.now = now)
    (h : ScreenCalls now m0 s.menu called) (hb : b ≠ .iron) (hn : b = .set → ¬ (was = true ∧ down = false)) :
    Post ((blockCalls b was down).foldlM (callButtonHandlers c) s) fun s' => s'.now = now ∧
      ScreenCalls now m0 s'.menu (called || was || down) := by
  subst hnow
  have one : ∀ {s1 : Sys} {called : Bool} {e : BState}, s1.now = s.now → Inv c s1 → ScreenCalls s.now m0 s1.menu called →
      (b = .set → e ≠ .negedge) → Post (callButtonHandlers c s1 (b, e)) fun s' => Inv c s' ∧ s'.now = s.now ∧
        ScreenCalls s.now m0 s'.menu true := by
    intro s1 called e hn i1 h1 he s2 e2
    rw [← hn] at h1
    obtain ⟨k1, k2⟩ := h1.call i1 hb he s2 e2
    rw [hn] at k2
    exact ⟨(Safe.bind (i1.ironButton b e) fun s1 h1 => h1.menuButton b e).elim e2, k1.trans hn, k2⟩
  cases was <;> cases down
  · show Post (some s) _
    rw [Bool.or_false, Bool.or_false]
    exact Post.pure ⟨rfl, h⟩
  · show Post ([(b, BState.posedge), (b, BState.pressed)].foldlM (callButtonHandlers c) s) _
    simp only [List.foldlM_cons, List.foldlM_nil, Bool.or_true]
    exact Post.bind (one rfl hi h fun _ => by decide) fun s1 ⟨i1, n1, r1⟩ =>
      Post.bind (one n1 i1 r1 fun _ => by decide) fun s2 ⟨i2, n2, r2⟩ => Post.pure ⟨n2, r2⟩
  · show Post ([(b, BState.negedge)].foldlM (callButtonHandlers c) s) _
    simp only [List.foldlM_cons, List.foldlM_nil, Bool.or_true, Bool.or_false]
    exact Post.bind (one rfl hi h fun hs => absurd ⟨rfl, rfl⟩ (hn hs)) fun s1 ⟨i1, n1, r1⟩ => Post.pure ⟨n1, r1⟩
  · show Post ([(b, BState.pressed)].foldlM (callButtonHandlers c) s) _
    simp only [List.foldlM_cons, List.foldlM_nil, Bool.or_true]
    exact Post.bind (one rfl hi h fun _ => by decide) fun s1 ⟨i1, n1, r1⟩ => Post.pure ⟨n1, r1⟩

/-- the screen and its timeout after one sample -/
theorem sample_screen (hi : Inv c s) {s' : Sys} {pinb : BitVec 8} (hx : timerExpired s.now s.btn.debounce = true)
    (e : buttonsWork c s pinb = some s') :
    ∃ called, ScreenCalls s.now s.menu s'.menu called ∧
      called = ([2, 3, 4].any fun i => s.btn.prev.getLsbD i || !pinb.getLsbD i) := by
  obtain ⟨b, s1, s2, s3, hb, i0, e1, i1, e2, i2, e3, i3, k⟩ := sample_blocks hi hx e
  obtain ⟨u, hm⟩ := k.menu
  have h1 : s1.now = s.now ∧ ScreenCalls s.now s.menu s1.menu (s.btn.prev.getLsbD 2 || !pinb.getLsbD 2) := by
    by_cases hr : s.btn.prev.getLsbD 2 = true ∧ (!pinb.getLsbD 2) = false
    · rw [hr.1, hr.2] at e1 ⊢
      have e1' : ([(Button.set, BState.negedge)].foldlM (callButtonHandlers c) { s with btn := b }) = some s1 := e1
      simp only [List.foldlM_cons, List.foldlM_nil] at e1'
      obtain ⟨t, et, e1'⟩ := Option.bind_eq_some_iff.mp e1'
      cases e1'
      exact ScreenCalls.release i0 s1 et
    · have h0 : ScreenCalls s.now s.menu ({ s with btn := b } : Sys).menu false :=
        Or.inl ⟨rfl, rfl, fun h => by cases h⟩
      have := h0.block _ _ i0 rfl (by decide) (fun _ => hr) s1 e1
      rw [Bool.false_or] at this
      exact this
  obtain ⟨n2, h2⟩ := h1.2.block _ _ i1 h1.1 (by decide) (fun h => by cases h) s2 e2
  obtain ⟨n3, h3⟩ := h2.block _ _ i2 n2 (by decide) (fun h => by cases h) s3 e3
  have h4 : ∀ cl, ScreenCalls s.now s.menu s3.menu cl → ScreenCalls s.now s.menu s'.menu cl := by
    intro cl h
    rw [hm]
    exact h
  exact ⟨_, h4 _ h3, by simp [Bool.or_assoc]⟩

/-- the screen after the calls of one button -/
theorem block_state (hi : Inv c s) {b : Button} (hb : b ≠ .iron) (was down : Bool) :
    Post ((blockCalls b was down).foldlM (callButtonHandlers c) s) fun s' =>
      (¬ (was = true ∧ down = false) → s'.menu.state = s.menu.state) ∧
      (b ≠ .set → s'.menu.state = s.menu.state ∨ (s.menu.state = .curtemp ∧ s'.menu.state = .selpreset)) ∧
      (b = .set → was = true → down = false → s.debugEn = true → s'.menu.state = s.menu.state) ∧
      (b = .set → was = true → down = false → s.debugEn = false → s'.menu.state = nextMenuState c s.menu.state) := by
  have hold : ∀ {s : Sys} {e : BState}, e ≠ .negedge → Post (callButtonHandlers c s (b, e)) fun s' =>
      s'.menu.state = s.menu.state := by
    intro s e he
    rw [callPanel hb]
    refine (menuButton_state e).mono fun s' h => ?_
    rcases h with h | ⟨-, h, -⟩ | ⟨-, h, -⟩
    · exact h
    · exact absurd h he
    · exact absurd h he
  cases was <;> cases down
  · exact Post.pure ⟨fun _ => rfl, fun _ => Or.inl rfl, (fun _ h => by cases h), (fun _ h => by cases h)⟩
  · show Post ([(b, BState.posedge), (b, BState.pressed)].foldlM (callButtonHandlers c) s) _
    simp only [List.foldlM_cons, List.foldlM_nil]
    exact Post.bind (hold (by decide)) fun s1 h1 => Post.bind (hold (by decide)) fun s2 h2 =>
      Post.pure ⟨fun _ => h2.trans h1, fun _ => Or.inl (h2.trans h1), (fun _ h => by cases h), (fun _ h => by cases h)⟩
  · show Post ([(b, BState.negedge)].foldlM (callButtonHandlers c) s) _
    simp only [List.foldlM_cons, List.foldlM_nil]
    rw [callPanel hb]
    refine Post.bind (P := fun s' => _) (fun s' es => ?_) fun s' h => Post.pure h
    have h := menuButton_state .negedge s' es
    obtain ⟨-, -, -, -, h5⟩ := menuButton_eff hi hb .negedge s' es
    refine ⟨(fun hh => by simp at hh), fun hh => ?_, fun hh _ _ hd => ?_, fun hh _ _ hd => (h5 hh rfl hd).1⟩
    · rcases h with h | ⟨h, -⟩ | ⟨h1, -, -, h2⟩
      · exact Or.inl h
      · exact absurd h hh
      · exact Or.inr ⟨h1, h2⟩
    · rcases h with h | ⟨-, -, h, -⟩ | ⟨-, -, h, -⟩
      · exact h
      · rw [hd] at h; cases h
      · exact absurd hh h
  · show Post ([(b, BState.pressed)].foldlM (callButtonHandlers c) s) _
    simp only [List.foldlM_cons, List.foldlM_nil]
    exact Post.bind (hold (by decide)) fun s1 h1 =>
      Post.pure ⟨fun _ => h1, fun _ => Or.inl h1, (fun _ _ h => by cases h), (fun _ _ h => by cases h)⟩

/-- the screen after one sample -/
theorem sample_state (hi : Inv c s) {s' : Sys} {pinb : BitVec 8} (hx : timerExpired s.now s.btn.debounce = true)
    (e : buttonsWork c s pinb = some s') :
    ((¬ (s.btn.prev.getLsbD 2 = true ∧ pinb.getLsbD 2 = true) ∨ s.debugEn = true) →
      s'.menu.state = s.menu.state ∨ (s.menu.state = .curtemp ∧ s'.menu.state = .selpreset)) ∧
    (s.btn.prev.getLsbD 2 = true → pinb.getLsbD 2 = true → s.debugEn = false →
      s'.menu.state = nextMenuState c s.menu.state ∨
      (nextMenuState c s.menu.state = .curtemp ∧ s'.menu.state = .selpreset)) ∧
    (s.btn.prev.getLsbD 2 = true → pinb.getLsbD 2 = true → s.debugEn = false →
      ¬ (s.btn.prev.getLsbD 3 = true ∧ pinb.getLsbD 3 = true) → ¬ (s.btn.prev.getLsbD 4 = true ∧ pinb.getLsbD 4 = true) →
      s'.menu.state = nextMenuState c s.menu.state) := by
  obtain ⟨b, s1, s2, s3, hb, i0, e1, i1, e2, i2, e3, i3, k⟩ := sample_blocks hi hx e
  obtain ⟨a1, -, a3, a4⟩ := block_state i0 (by decide) _ _ s1 e1
  obtain ⟨b1, b2, -, -⟩ := block_state i1 (by decide) _ _ s2 e2
  obtain ⟨c1, c2, -, -⟩ := block_state i2 (by decide) _ _ s3 e3
  rw [k.state]
  have b2 := b2 (by decide)
  have c2 := c2 (by decide)
  have tail : s3.menu.state = s1.menu.state ∨ (s1.menu.state = .curtemp ∧ s3.menu.state = .selpreset) := by
    rcases c2 with c2 | ⟨c2, c3⟩
    · rw [c2]; exact b2
    · rcases b2 with b2 | ⟨-, b3⟩
      · exact Or.inr ⟨b2 ▸ c2, c3⟩
      · rw [c2] at b3; cases b3
  refine ⟨fun h => ?_, fun h1 h2 h3 => ?_, fun h1 h2 h3 h4 h5 => ?_⟩
  · have h1 : s1.menu.state = s.menu.state := by
      by_cases hr : s.btn.prev.getLsbD 2 = true ∧ (!pinb.getLsbD 2) = false
      · rcases h with h | h
        · exact absurd ⟨hr.1, by simpa using hr.2⟩ h
        · exact a3 rfl hr.1 hr.2 h
      · exact a1 hr
    rw [h1] at tail
    exact tail
  · have := a4 rfl h1 (by rw [h2]; rfl) h3
    rw [this] at tail
    exact tail
  · rw [c1 (by simpa using h5), b1 (by simpa using h4)]
    exact a4 rfl h1 (by rw [h2]; rfl) h3

theorem down_pin (pinb : BitVec 8) (b : Button) : (!pinb.getLsbD (buttonPin b)) = Down pinb b := by
  cases b <;> rfl

/-- the module's state after a sample -/
theorem sample_btn {s' : Sys} {pinb : BitVec 8} (hx : timerExpired s.now s.btn.debounce = true)
    (e : buttonsWork c s pinb = some s') :
    s'.btn = { prev := buttonsRaw pinb, debounce := toU16 (s.btn.debounce + 10) } := by
  unfold buttonsWork at e
  obtain ⟨⟨b, calls⟩, eb, e⟩ := Option.bind_eq_some_iff.mp e
  unfold buttonsSample at eb
  rw [hx] at eb
  simp only [Bool.not_true, Bool.false_eq_true, if_false] at eb
  obtain ⟨t, et, eb⟩ := Option.bind_eq_some_iff.mp eb
  rw [timerAdd_eq _ (by decide) (by decide)] at et
  cases et
  cases eb
  simp only [buttonCalls_split, List.foldlM_append] at e
  obtain ⟨s1, e1, e⟩ := Option.bind_eq_some_iff.mp e
  have hh := Hand.panel s.btn.prev pinb _ e1
  rw [List.foldlM_map] at e
  have : (fun (s : Sys) (e : BState) => callButtonHandlers c s (Button.iron, e)) =
      fun s e => contrtempButton c s .iron e := by
    funext s e
    unfold callButtonHandlers menuButton
    simp
  rw [this] at e
  rw [(irons_kept _ e).btn, hh.btn]
  rfl

/-- what was pressed in the newest sample -/
theorem sample_was {s' : Sys} {pinb : BitVec 8} (hx : timerExpired s.now s.btn.debounce = true)
    (e : buttonsWork c s pinb = some s') (b : Button) : s'.btn.prev.getLsbD (buttonPin b) = Down pinb b := by
  rw [sample_btn hx e]
  show (buttonsRaw pinb).getLsbD _ = _
  rw [buttonsRaw_bit, down_pin]

/-- steps that are neither the menu's work nor a sample leave the menu and the buttons alone -/
theorem quiet_step {s' : Sys} {e : Ev} (hi : Inv c s) (hs : step c s e = some s') (h1 : e ≠ .menuWork)
    (h2 : ∀ pinb, ¬ Samples s e pinb) :
    s'.btn = s.btn ∧ s'.debugEn = s.debugEn ∧ ∃ u, s'.menu = { s.menu with updReq := u } := by
  by_cases hb : ∃ pinb, e = .buttonsWork pinb
  · obtain ⟨pinb, rfl⟩ := hb
    have : timerExpired s.now s.btn.debounce = false := by
      cases h : timerExpired s.now s.btn.debounce
      · rfl
      · exact absurd ⟨rfl, h⟩ (h2 pinb)
    obtain rfl := buttonsWork_early this hs
    exact ⟨rfl, rfl, _, rfl⟩
  · exact step_menuKept hi hs h1 fun pinb hh => hb ⟨pinb, hh⟩

/-- the menu's work leaves the sampled buttons alone -/
theorem menuWork_btn {s' : Sys} (hi : Inv c s) (hs : step c s .menuWork = some s') :
    s'.btn = s.btn ∧ s'.now = s.now ∧ s'.debugEn = s.debugEn := by
  obtain ⟨h1, h2, h3, -⟩ := menuWork_eff hi s' hs
  exact ⟨h2, h1, h3⟩

/-- steps without a sample leave the sampled buttons alone -/
theorem noSample_btn {s' : Sys} {e : Ev} (hi : Inv c s) (hs : step c s e = some s')
    (h2 : ∀ pinb, ¬ Samples s e pinb) : s'.btn = s.btn ∧ s'.debugEn = s.debugEn := by
  by_cases h : e = .menuWork
  · subst h
    exact ⟨(menuWork_btn hi hs).1, (menuWork_btn hi hs).2.2⟩
  · have := quiet_step hi hs h h2
    exact ⟨this.1, this.2.1⟩

/-- the screen after the menu's work -/
theorem menuWork_state {s' : Sys} (hi : Inv c s) (hs : menuWork c s = some s') :
    s'.menu.state = s.menu.state ∨
    ((holdTime s.menu.state).isSome = true ∧ s'.menu.state = leadsTo s.menu.state) ∨
    ((s.menu.state = .curtemp ∨ s.menu.state = .selpreset) ∧ s'.menu.state = .chgpreset) := by
  obtain ⟨-, -, -, -, -, h⟩ := menuWork_eff hi s' hs
  have m : (afterError (menuError s) (afterTimeout s.now s.menu)).state = s.menu.state ∨
      ((holdTime s.menu.state).isSome = true ∧
        (afterError (menuError s) (afterTimeout s.now s.menu)).state = leadsTo s.menu.state) := by
    show (afterTimeout s.now s.menu).state = _ ∨ (_ ∧ (afterTimeout s.now s.menu).state = _)
    unfold afterTimeout
    split
    · rename_i h
      exact Or.inr ⟨h.1, rfl⟩
    · exact Or.inl rfl
  cases h with
  | same a1 => rw [a1]; rcases m with m | m <;> simp [m]
  | start a1 => rw [a1]; rcases m with m | m <;> simp [m]
  | step a1 a2 a3 a4 a5 a6 a7 a8 =>
    rw [a1]
    have : (stepMenu s.now (afterError (menuError s) (afterTimeout s.now s.menu))).state =
        if s.menu.state = .curtemp ∨ s.menu.state = .selpreset then .chgpreset else s.menu.state := by
      rw [a8]
      generalize afterError (menuError s) (afterTimeout s.now s.menu) = m
      obtain ⟨st, _⟩ := m
      cases st <;> rfl
    rw [this]
    split
    · rename_i h
      exact Or.inr (Or.inr ⟨h, rfl⟩)
    · exact Or.inl rfl

/-- the screen's timeout after the menu's work -/
theorem menuWork_timeout {s' : Sys} (hi : Inv c s) (hs : menuWork c s = some s') :
    (s'.menu.state = s.menu.state ∧ s'.menu.timeout = s.menu.timeout) ∨
    (s'.menu.state ≠ s.menu.state ∧ Fresh s.now s'.menu) := by
  obtain ⟨-, -, -, -, -, h⟩ := menuWork_eff hi s' hs
  have m : ((afterError (menuError s) (afterTimeout s.now s.menu)).state = s.menu.state ∧
      (afterError (menuError s) (afterTimeout s.now s.menu)).timeout = s.menu.timeout) ∨
      ((afterError (menuError s) (afterTimeout s.now s.menu)).state ≠ s.menu.state ∧
        Fresh s.now (afterError (menuError s) (afterTimeout s.now s.menu))) := by
    show ((afterTimeout s.now s.menu).state = _ ∧ (afterTimeout s.now s.menu).timeout = _) ∨
      ((afterTimeout s.now s.menu).state ≠ _ ∧ Fresh s.now (afterError (menuError s) (afterTimeout s.now s.menu)))
    unfold afterTimeout
    split
    · rename_i h
      exact Or.inr ⟨fun e => leadsTo_ne h.1 e.symm, entryTimeout_idem⟩
    · exact Or.inl ⟨rfl, rfl⟩
  revert m h
  generalize afterError (menuError s) (afterTimeout s.now s.menu) = m
  intro h hm
  cases h with
  | same a1 a2 =>
    unfold Fresh at *
    rw [a1, a2]
    exact hm
  | start a1 a2 =>
    unfold Fresh at *
    rw [a1, a2]
    exact hm
  | step a1 a2 a3 a4 a5 a6 a7 a8 =>
    unfold Fresh at *
    rw [a1, a2]
    rw [a8]
    unfold stepMenu
    split
    · rename_i h
      rw [h]
      exact Or.inr ⟨by simp, rfl⟩
    · rename_i h
      rw [h]
      exact Or.inr ⟨by simp, rfl⟩
    · refine Or.inl ⟨rfl, ?_⟩
      rcases hm with hm | hm
      · exact hm.2
      · exact absurd a8.symm hm.1

end Verif
