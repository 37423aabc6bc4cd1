import Verif.Spec.Panel
import Verif.Proofs.InvWork
import Verif.Proofs.Iron
/-
What the button handlers and the menu's work function do to the screen, its timeout and the ramp.
-/
namespace Verif
open Spec

/-- the menu is the same but for the update request -/
structure MenuKept (s s' : Sys) : Prop where
  now : s'.now = s.now
  btn : s'.btn = s.btn
  debugEn : s'.debugEn = s.debugEn
  menu : ∃ u, s'.menu = { s.menu with updReq := u }

variable {c : Conf} {a s : Sys}

theorem MenuKept.refl (s : Sys) : MenuKept s s := ⟨rfl, rfl, rfl, _, rfl⟩

theorem MenuKept.trans {s1 s2 s3 : Sys} (h : MenuKept s1 s2) (h' : MenuKept s2 s3) : MenuKept s1 s3 := by
  obtain ⟨u, e⟩ := h.menu
  obtain ⟨v, e'⟩ := h'.menu
  exact ⟨h'.now.trans h.now, h'.btn.trans h.btn, h'.debugEn.trans h.debugEn, v, by rw [e', e]⟩

theorem MenuKept.state {s s' : Sys} (h : MenuKept s s') : s'.menu.state = s.menu.state := by
  obtain ⟨u, e⟩ := h.menu; rw [e]

theorem MenuKept.req (h : MenuKept a s) : MenuKept a (menuRequestUpdate s) := by
  obtain ⟨u, e⟩ := h.menu
  refine ⟨h.now, h.btn, h.debugEn, true, ?_⟩
  show { s.menu with updReq := true } = _
  rw [e]

theorem MenuKept.withCt (h : MenuKept a s) (ct : ContrTemp) : MenuKept a { s with ct := ct } := { h with }

theorem MenuKept.withCache (h : MenuKept a s) (x : Settings) : MenuKept a (setCache s x) := { h with }

theorem MenuKept.sysStore (h : MenuKept a s) :
    Post (sysStore s) fun s' => MenuKept a s' ∧ s'.set.cache = s.set.cache := by
  rw [sysStore_eq]
  exact Post.pure ⟨{ h with }, rfl⟩

theorem MenuKept.updateSetpoint (h : MenuKept a s) :
    Post (contrtempUpdateSetpoint s) fun s' => MenuKept a s' ∧ s'.set = s.set := by
  unfold contrtempUpdateSetpoint
  exact Post.bindAny fun sp => Post.pure ⟨{ h with }, rfl⟩

theorem MenuKept.setBoost (h : MenuKept a s) (mode : Nat) :
    Post (contrtempSetBoost c s mode) fun s' => MenuKept a s' ∧ s'.set = s.set := by
  unfold contrtempSetBoost
  refine Post.bindAny fun k => ?_
  simp only []
  split
  · exact Post.pure ⟨(h.withCt _).req, rfl⟩
  · exact Post.pure ⟨(h.withCt _).req, rfl⟩

theorem MenuKept.setEnabled (h : MenuKept a s) (en : Bool) :
    Post (contrtempSetEnabled c s en) fun s' => MenuKept a s' ∧ s'.set = s.set := by
  unfold contrtempSetEnabled
  split
  · unfold contrtempDoSetEnabled
    exact Post.bind ((h.withCt _).setBoost 0) fun s2 h2 => Post.pure ⟨{ h2.1 with }, h2.2⟩
  · exact Post.pure ⟨h, rfl⟩

theorem MenuKept.presetsStore (h : MenuKept a s) :
    Post (presetsStore s) fun s' => MenuKept a s' ∧ s'.set.cache = s.set.cache := by
  unfold Verif.presetsStore
  exact Post.bind h.sysStore fun s2 h2 => Post.bind h2.1.updateSetpoint fun s3 h3 =>
    Post.pure ⟨h3.1.req, by show s3.set.cache = _; rw [h3.2]; exact h2.2⟩

theorem MenuKept.debugEnable (h : MenuKept a s) (en : Bool) :
    Post (debugEnable c s en) fun s' => s'.now = a.now ∧ s'.btn = a.btn ∧ ∃ u, s'.menu = { a.menu with updReq := u } := by
  unfold Verif.debugEnable
  split
  · exact Post.bindAny fun pd => Post.pure ⟨h.now, h.btn, h.menu⟩
  · exact Post.pure ⟨h.now, h.btn, h.menu⟩

/-- the timeout after entering a screen -/
def entryTimeout (now : Int) (t : MenuState) (old : Int) : Int :=
  match holdTime t with
  | some L => toU16 (now + L)
  | none => old

theorem toU16_add (now : Int) {ms : Int} (h : 0 ≤ ms ∧ ms ≤ 32767) : toU16 (now + toU16 ms) = toU16 (now + ms) := by
  unfold toU16; omega

theorem menuArm_hold (s : Sys) {ms : Int} (h : 0 ≤ ms ∧ ms ≤ 32767) :
    menuArm s ms = some { s with menu := { s.menu with timeout := toU16 (s.now + ms) } } := by
  rw [menuArm_eq s h.1 h.2, toU16_add _ h]

theorem menuEnter_eff {t : MenuState} (hs : ScreenExists c t = true) :
    Post (menuEnter c s t) fun s' =>
      MenuKept { s with menu := { s.menu with timeout := entryTimeout s.now t s.menu.timeout } } s' ∧
      s'.set = s.set := by
  have on : ∀ en, entryTimeout s.now t s.menu.timeout = s.menu.timeout → Post (contrtempSetEnabled c s en) fun s' =>
      MenuKept { s with menu := { s.menu with timeout := entryTimeout s.now t s.menu.timeout } } s' ∧
      s'.set = s.set := by
    intro en h
    rw [h]
    exact (MenuKept.refl s).setEnabled en
  cases t <;> simp only [ScreenExists] at hs <;>
    simp only [menuEnter, hs, Bool.not_true, Bool.false_eq_true, if_false]
  all_goals first
    | exact on _ rfl
    | exact Post.pure ⟨MenuKept.refl _, rfl⟩
    | (rw [menuArm_hold s (by decide)]; exact Post.pure ⟨MenuKept.refl _, rfl⟩)
    | (rw [menuArm_hold s (by decide)]
       exact MenuKept.setEnabled (s := { s with menu := { s.menu with timeout := toU16 (s.now + 1500) } }) (MenuKept.refl _) false)

/-- a change of the screen -/
theorem menuSetState_eff {t : MenuState} (hs : ScreenExists c t = true) :
    Post (menuSetState c s t) fun s' => (s.menu.state = t ∧ s' = s) ∨ (s.menu.state ≠ t ∧
      MenuKept { s with menu := { s.menu with state := t, timeout := entryTimeout s.now t s.menu.timeout } } s' ∧
      s'.set = s.set) := by
  unfold menuSetState
  split
  · rename_i e
    exact Post.pure (Or.inl ⟨e, rfl⟩)
  · rename_i e
    exact Post.bind (menuEnter_eff (s := { s with menu := { s.menu with state := t } }) hs) fun s2 h2 =>
      Post.pure (Or.inr ⟨e, h2.1.req, h2.2⟩)

/-- starting a ramp -/
theorem startRamping_eff (up pre : Bool) (r : Option RampHandler) :
    ∃ pt, startRamping s up pre r = some { s with menu := { s.menu with
      ramp := if pre then (if up then .preUp else .preDown) else (if up then .up else .down),
      rampPreTimer := pt, handler := r, period := 400, rampTimer := s.now } } ∧
      (pre = true → pt = toU16 (s.now + 1000)) := by
  unfold startRamping
  cases pre
  · exact ⟨_, rfl, fun h => by cases h⟩
  · rw [timerArm_eq s.now (by decide) (by decide), toU16_add _ (by decide)]
    exact ⟨_, rfl, fun _ => rfl⟩

/-- The ramp after a call of the button handler in a state with ramp `(r, t, p)`. -/
structure RampEff (now : Int) (b : Button) (e : BState) (m m' : Menu) : Prop where
  release : e = .negedge → m'.ramp = .none
  hold : e = .pressed → m'.ramp = m.ramp ∧ m'.rampTimer = m.rampTimer ∧ m'.period = m.period
  press : e = .posedge → (m'.ramp = m.ramp ∧ m'.rampTimer = m.rampTimer ∧ m'.period = m.period) ∨
    (m'.rampTimer = now ∧ m'.period = 400 ∧
      ((b = .plus ∧ (m'.ramp = .up ∨ m'.ramp = .preUp)) ∨ (b = .minus ∧ (m'.ramp = .down ∨ m'.ramp = .preDown))))

/-- The screen and its timeout after a call of the button handler. -/
def ScreenEff (now : Int) (b : Button) (m m' : Menu) : Prop :=
  (m'.state = m.state ∧ m'.timeout = m.timeout ∧ holdTime m.state ≠ some 3000) ∨
  (m'.timeout = entryTimeout now m'.state m'.timeout ∧
    (holdTime m'.state = some 1500 → b = .set ∧ m'.state ≠ m.state))

theorem entryTimeout_idem {now : Int} {t : MenuState} {x : Int} :
    entryTimeout now t x = entryTimeout now t (entryTimeout now t x) := by
  unfold entryTimeout
  cases holdTime t <;> rfl

theorem startRampingButton_eff (b : Button) (e : BState) (pre : Bool) (r : RampHandler) :
    Post (startRampingButton s b e pre r) fun s' => s' = s ∨ (e = .posedge ∧ ∃ rp pt,
      s' = { s with menu := { s.menu with
        ramp := rp, rampPreTimer := pt, handler := some r, period := 400, rampTimer := s.now } } ∧
      ((b = .plus ∧ (rp = .up ∨ rp = .preUp)) ∨ (b = .minus ∧ (rp = .down ∨ rp = .preDown)))) := by
  unfold startRampingButton
  split
  · rename_i he
    split
    · rename_i hb
      obtain ⟨pt, e1, -⟩ := startRamping_eff (s := s) false pre (some r)
      rw [e1]
      exact Post.pure (Or.inr ⟨he, _, pt, rfl, Or.inr ⟨hb, by cases pre <;> simp⟩⟩)
    · split
      · rename_i hb
        obtain ⟨pt, e1, -⟩ := startRamping_eff (s := s) true pre (some r)
        rw [e1]
        exact Post.pure (Or.inr ⟨he, _, pt, rfl, Or.inl ⟨hb, by cases pre <;> simp⟩⟩)
      · exact Post.pure (Or.inl rfl)
  · exact Post.pure (Or.inl rfl)

/-- the effect of the part of the button handler that depends on the screen -/
structure ScreenPart (b : Button) (e : BState) (s s' : Sys) : Prop where
  now : s'.now = s.now
  btn : s'.btn = s.btn
  ramp : (s'.menu.ramp = s.menu.ramp ∧ s'.menu.rampTimer = s.menu.rampTimer ∧ s'.menu.period = s.menu.period) ∨
    (e = .posedge ∧ s'.menu.rampTimer = s.now ∧ s'.menu.period = 400 ∧
      ((b = .plus ∧ (s'.menu.ramp = .up ∨ s'.menu.ramp = .preUp)) ∨
        (b = .minus ∧ (s'.menu.ramp = .down ∨ s'.menu.ramp = .preDown))))
  screen : (s'.menu.state = s.menu.state ∧ s'.menu.timeout = s.menu.timeout ∧ holdTime s.menu.state ≠ some 3000) ∨
    (s'.menu.timeout = entryTimeout s.now s'.menu.state s'.menu.timeout ∧ holdTime s'.menu.state ≠ some 1500)
  set : b = .set → s'.menu.state = s.menu.state ∧ s'.debugEn = s.debugEn

theorem ScreenPart.refl (b : Button) (e : BState) {s : Sys} (h : holdTime s.menu.state ≠ some 3000) :
    ScreenPart b e s s := ⟨rfl, rfl, Or.inl ⟨rfl, rfl, rfl⟩, Or.inl ⟨rfl, rfl, h⟩, fun _ => ⟨rfl, rfl⟩⟩

theorem ScreenPart.start {b : Button} {e : BState} (h : ScreenPart b e a s) (pre : Bool) (r : RampHandler) :
    Post (startRampingButton s b e pre r) (ScreenPart b e a) := by
  refine (startRampingButton_eff b e pre r).mono fun s2 h2 => ?_
  rcases h2 with rfl | ⟨he, rp, pt, rfl, hd⟩
  · exact h
  · exact { h with ramp := Or.inr ⟨he, h.now, rfl, hd⟩ }

theorem ScreenPart.kept {b : Button} {e : BState} {s' : Sys} (h : ScreenPart b e a s) (k : MenuKept s s') :
    ScreenPart b e a s' := by
  obtain ⟨u, hm⟩ := k.menu
  refine ⟨k.now.trans h.now, k.btn.trans h.btn, ?_, ?_, ?_⟩
  · rw [hm]; exact h.ramp
  · rw [hm]; exact h.screen
  · intro hb; rw [hm, k.debugEn]; exact h.set hb

theorem menuButtonScreen_eff (hi : Inv c s) (b : Button) (e : BState) :
    Post (menuButtonScreen c s b e) (ScreenPart b e s) := by
  have hsc := hi.menu.screen
  have arm : holdTime s.menu.state = some 3000 →
      ScreenPart b e s { s with menu := { s.menu with timeout := toU16 (s.now + 3000) } } := by
    intro h
    refine ⟨rfl, rfl, Or.inl ⟨rfl, rfl, rfl⟩, Or.inr ⟨?_, ?_⟩, fun _ => ⟨rfl, rfl⟩⟩
    · show _ = entryTimeout _ s.menu.state _
      unfold entryTimeout
      rw [h]
      rfl
    · show holdTime s.menu.state ≠ _
      rw [h]
      decide
  unfold menuButtonScreen
  cases hst : s.menu.state <;> simp only [hst, ScreenExists] at hsc <;>
    simp only [hsc, Bool.not_true, Bool.false_eq_true, if_false]
  case curtemp =>
    refine Post.bind ((ScreenPart.refl b e (by rw [hst]; decide)).start _ _) fun s2 h2 => ?_
    split
    · rename_i hb
      refine (menuSetState_eff (t := .selpreset) rfl).mono fun s3 h3 => ?_
      rcases h3 with ⟨-, rfl⟩ | ⟨-, k, -⟩
      · exact h2
      · have h4 : ScreenPart b e s { s2 with menu := { s2.menu with
            state := .selpreset, timeout := entryTimeout s2.now .selpreset s2.menu.timeout } } :=
          { h2 with
            screen := Or.inr ⟨(by
              show entryTimeout s2.now .selpreset s2.menu.timeout =
                entryTimeout s.now .selpreset (entryTimeout s2.now .selpreset s2.menu.timeout)
              rw [h2.now]
              exact entryTimeout_idem), by show holdTime .selpreset ≠ _; decide⟩
            set := fun hh => absurd hh hb.2 }
        exact h4.kept k
    · exact Post.pure h2
  case selpreset =>
    rw [menuArm_hold s (by decide)]
    simp only [Option.bind_eq_bind, Option.bind_some]
    have h1 := arm (by rw [hst]; rfl)
    have fin : ∀ {m : Option Sys}, Post m (ScreenPart b e s) →
        Post (m.bind fun s => startRampingButton s b e true .settemp) (ScreenPart b e s) := by
      intro m hm
      exact Post.bind hm fun s2 h2 => h2.start _ _
    have pst : ∀ {s1 : Sys}, ScreenPart b e s s1 → ∀ x, Post (presetsStore (setCache s1 x)) (ScreenPart b e s) := by
      intro s1 h1 x
      exact ((MenuKept.refl s1).withCache x).presetsStore.mono fun s2 h2 => h1.kept h2.1
    cases e
    · exact fin (m := some _) (Post.pure h1)
    · simp only [if_true]
      cases b <;> simp only [reduceCtorEq, if_false, if_true, pure_bind]
      · exact fin (m := some _) (Post.pure h1)
      · exact fin (pst h1 _)
      · exact Post.bind (pst h1 _) fun s2 h2 => h2.start _ _
      · exact fin (m := some _) (Post.pure h1)
    · exact fin (m := some _) (Post.pure h1)
  case chgpreset =>
    rw [menuArm_hold s (by decide)]
    exact (arm (by rw [hst]; rfl)).start _ _
  case idletemp =>
    rw [menuArm_hold s (by decide)]
    exact (arm (by rw [hst]; rfl)).start _ _
  case debug =>
    have h1 := ScreenPart.refl b e (s := s) (by rw [hst]; decide)
    have deb : ∀ en, b ≠ .set → Post (debugEnable c s en) (ScreenPart b e s) := by
      intro en hb
      refine ((MenuKept.refl s).debugEnable en).mono fun s2 ⟨k1, k2, u, k3⟩ => ?_
      refine ⟨k1, k2, Or.inl ?_, Or.inl ?_, fun hh => absurd hh hb⟩
      · rw [k3]; exact ⟨rfl, rfl, rfl⟩
      · rw [k3]; exact ⟨rfl, rfl, by rw [hst]; decide⟩
    split
    · cases b <;> simp only [reduceCtorEq, if_false, if_true, pure_bind]
      · exact Post.pure h1
      · exact Post.bind (deb _ (by decide)) fun s3 h3 => Post.pure (h3.kept (MenuKept.refl s3).req)
      · exact Post.bind (deb _ (by decide)) fun s3 h3 => Post.pure h3
      · exact Post.pure h1
    · exact Post.pure h1
  all_goals first
    | exact Post.pure (ScreenPart.refl b e (by rw [hst]; decide))
    | exact (ScreenPart.refl b e (by rw [hst]; decide)).start _ _

/-- one call of the menu's button handler -/
theorem menuButton_eff (hi : Inv c s) {b : Button} (hb : b ≠ .iron) (e : BState) :
    Post (menuButton c s b e) fun s' => s'.now = s.now ∧ s'.btn = s.btn ∧
      RampEff s.now b e s.menu s'.menu ∧ ScreenEff s.now b s.menu s'.menu ∧
      (b = .set → e = .negedge → s.debugEn = false →
        s'.menu.state = nextMenuState c s.menu.state ∧ s'.debugEn = false) := by
  unfold menuButton
  rw [if_neg hb]
  refine Post.bind (menuButtonScreen_eff hi b e) fun s1 h1 => ?_
  have scr : ScreenEff s.now b s.menu s1.menu := by
    rcases h1.screen with h | h
    · exact Or.inl h
    · exact Or.inr ⟨h.1, fun hh => absurd hh h.2⟩
  have stop : ∀ {s' : Sys}, s'.menu.ramp = .none → e = .negedge → RampEff s.now b e s.menu s'.menu := by
    intro s' h he
    exact ⟨fun _ => h, fun hh => absurd (he.symm.trans hh) (by decide), fun hh => absurd (he.symm.trans hh) (by decide)⟩
  split
  · rename_i he
    simp only []
    split
    · rename_i hset
      obtain ⟨g1, g2⟩ := h1.set hset
      split
      · refine (menuSetState_eff (s := stopRamping s1) (nextMenuState_ok c _).1).mono fun s2 h2 => ?_
        rcases h2 with ⟨h2, rfl⟩ | ⟨h2, k, -⟩
        · refine ⟨h1.now, h1.btn, stop rfl he, scr, fun _ _ hd => ⟨?_, g2.trans hd⟩⟩
          rw [h2]
          show nextMenuState c s1.menu.state = _
          rw [g1]
        · obtain ⟨u, hm⟩ := k.menu
          have hm1 : s2.menu.state = nextMenuState c s.menu.state := by
            rw [hm]; show nextMenuState c s1.menu.state = _; rw [g1]
          refine ⟨k.now.trans h1.now, k.btn.trans h1.btn, stop (by rw [hm]; rfl) he, Or.inr ⟨?_, fun _ => ⟨hset, ?_⟩⟩,
            fun _ _ hd => ⟨hm1, (k.debugEn.trans g2).trans hd⟩⟩
          · rw [hm]
            show entryTimeout s1.now (nextMenuState c s1.menu.state) s1.menu.timeout =
              entryTimeout s.now (nextMenuState c s1.menu.state)
                (entryTimeout s1.now (nextMenuState c s1.menu.state) s1.menu.timeout)
            rw [h1.now]
            exact entryTimeout_idem
          · rw [hm1, ← g1]
            exact fun hh => h2 hh.symm
      · rename_i hd
        refine Post.pure ⟨h1.now, h1.btn, stop rfl he, scr, fun _ _ hd' => ?_⟩
        exfalso
        apply hd
        show (!s1.debugEn) = true
        rw [g2, hd']
        rfl
    · rename_i hset
      exact Post.pure ⟨h1.now, h1.btn, stop rfl he, scr, fun hh => absurd hh hset⟩
  · rename_i he
    refine Post.pure ⟨h1.now, h1.btn, ⟨fun hh => absurd hh he, fun hh => ?_, fun hh => ?_⟩, scr, fun _ hh => absurd hh he⟩
    · rcases h1.ramp with h | h
      · exact h
      · exact absurd (hh.symm.trans h.1) (by decide)
    · rcases h1.ramp with h | h
      · exact Or.inl h
      · exact Or.inr ⟨h.2.1, h.2.2.1, h.2.2.2⟩

end Verif
