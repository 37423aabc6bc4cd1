import Verif.Proofs.UiInBase
import Verif.Proofs.InsideCall
/-
The buttons with ticks inside, beside the user interface.
-/
namespace Verif
open Spec Props

variable {c : Conf} {s : Sys} {u : Ui} {T : Nat}

theorem touch_none (h : holdTime u.screen ≠ some 3000) (t : Nat) : u.touch t = u := by
  unfold Ui.touch
  rw [if_neg h]

theorem Beside.startButton (h : Beside T s u) {b : Button} (hb : b ≠ .iron) {pre : Bool} (r : RampHandler)
    (hst : ∀ up, startsRamp u.screen up = some (if pre then (if up then .preUp else .preDown) else (if up then .up else .down)))
    (hd : u.screen ≠ .debug) :
    SimT (startRampingButtonT s b .posedge pre r) T fun T' s' => s'.btn = s.btn ∧ ∃ t, T ≤ t ∧ t ≤ T' ∧
      Beside T' s' (u.press t b) := by
  have key : ∀ t, b ≠ .set → u.press t b = { u with
      ramp := if pre then (if decide (b = .plus) then .preUp else .preDown) else (if decide (b = .plus) then .up else .down),
      rampAt := t, period := 400 } := by
    intro t hs
    unfold Ui.press
    rw [if_neg hs, if_neg hd, hst]
  unfold startRampingButtonT
  simp only [if_true]
  cases b
  · simp only [reduceCtorEq, if_false]
    exact SimT.pure ⟨rfl, T, Nat.le_refl _, Nat.le_refl _, h⟩
  · simp only [if_true]
    refine (h.start false pre _).mono fun T' s' _ ⟨h1, t, h2, h3, h4⟩ => ⟨h1, t, h2, h3, ?_⟩
    rw [key t (by decide)]
    exact h4
  · simp only [reduceCtorEq, if_false, if_true]
    refine (h.start true pre _).mono fun T' s' _ ⟨h1, t, h2, h3, h4⟩ => ⟨h1, t, h2, h3, ?_⟩
    rw [key t (by decide)]
    exact h4
  · exact absurd rfl hb

theorem startButton_other (s : Sys) (b : Button) {e : BState} (he : e ≠ .posedge) (pre : Bool) (r : RampHandler) :
    startRampingButtonT s b e pre r = pure s := by
  unfold startRampingButtonT
  rw [if_neg he]

/-- a button goes down -/
theorem Beside.posedge (hi : Inv c s) (h : Beside T s u) {b : Button} (hb : b ≠ .iron) :
    SimT (menuButtonT c s b .posedge) T fun T' s' => s'.btn = s.btn ∧ ∃ t t', T ≤ t ∧ t ≤ t' ∧ t' ≤ T' ∧
      Beside T' s' ((u.touch t).press t' b) := by
  have hsc := hi.menu.screen
  have hsu := h.menu.screen
  have direct : ∀ {pre : Bool} (r : RampHandler), holdTime u.screen ≠ some 3000 → u.screen ≠ .debug →
      (∀ up, startsRamp u.screen up = some (if pre then (if up then .preUp else .preDown) else (if up then .up else .down))) →
      SimT (startRampingButtonT s b .posedge pre r) T fun T' s' => s'.btn = s.btn ∧ ∃ t t', T ≤ t ∧ t ≤ t' ∧ t' ≤ T' ∧
        Beside T' s' ((u.touch t).press t' b) := by
    intro pre r h1 h2 h3
    refine (h.startButton hb r h3 h2).mono fun T' s' _ ⟨k1, t, k2, k3, k4⟩ => ⟨k1, T, t, Nat.le_refl _, k2, k3, ?_⟩
    rw [touch_none h1]
    exact k4
  have armed : ∀ {pre : Bool} (r : RampHandler), holdTime u.screen = some 3000 → u.screen ≠ .debug →
      (∀ up, startsRamp u.screen up = some (if pre then (if up then .preUp else .preDown) else (if up then .up else .down))) →
      SimT (menuArmT s 3000 >>= fun s => startRampingButtonT s b .posedge pre r) T fun T' s' => s'.btn = s.btn ∧
        ∃ t t', T ≤ t ∧ t ≤ t' ∧ t' ≤ T' ∧ Beside T' s' ((u.touch t).press t' b) := by
    intro pre r h1 h2 h3
    refine SimT.bind (h.arm h1) fun T1 s1 hT ⟨e1, b1⟩ => ?_
    have ts := (touch_same u T1).1
    refine (b1.startButton hb r (by rw [ts]; exact h3) (by rw [ts]; exact h2)).mono fun T' s' _ ⟨k1, t, k2, k3, k4⟩ =>
      ⟨k1.trans e1, T1, t, hT, k2, k3, k4⟩
  have nothing : holdTime u.screen ≠ some 3000 → (∀ t, u.press t b = u) →
      SimT (pure s) T fun T' s' => s'.btn = s.btn ∧ ∃ t t', T ≤ t ∧ t ≤ t' ∧ t' ≤ T' ∧
        Beside T' s' ((u.touch t).press t' b) := fun h1 h2 =>
    SimT.pure ⟨rfl, T, T, Nat.le_refl _, Nat.le_refl _, Nat.le_refl _, by rw [touch_none h1, h2]; exact h⟩
  have none' : ∀ m, u.screen = m → m ≠ .debug → (∀ up, startsRamp m up = none) → ∀ t, u.press t b = u := by
    intro m h1 h2 h3 t
    unfold Ui.press
    rw [h1, h3, if_neg h2]
    split <;> rfl
  unfold menuButtonT
  rw [if_neg hb]
  refine SimT.bind (P := fun T' s' => s'.btn = s.btn ∧ ∃ t t', T ≤ t ∧ t ≤ t' ∧ t' ≤ T' ∧
      Beside T' s' ((u.touch t).press t' b)) ?_ fun T' s' _ k => by
    rw [if_neg (by decide)]
    exact SimT.pure k
  unfold menuButtonScreenT
  cases hst : s.menu.state <;> rw [hst] at hsu hsc <;> simp only [ScreenExists] at hsc <;>
    simp only [hsc, Bool.not_true, Bool.false_eq_true, if_false, reduceCtorEq, false_and, if_true]
  case curtemp =>
    refine SimT.bind (direct (pre := true) .settemp (by rw [← hsu]; decide) (by rw [← hsu]; decide)
      (by rw [← hsu]; intro up; cases up <;> rfl)) fun T' s' _ k => SimT.pure k
  case selpreset =>
    refine armed (pre := true) .settemp (by rw [← hsu]; rfl) (by rw [← hsu]; decide)
      (by rw [← hsu]; intro up; cases up <;> rfl)
  case chgpreset =>
    exact armed (pre := false) .settemp (by rw [← hsu]; rfl) (by rw [← hsu]; decide)
      (by rw [← hsu]; intro up; cases up <;> rfl)
  case idletemp =>
    exact armed (pre := false) .idletemp (by rw [← hsu]; rfl) (by rw [← hsu]; decide)
      (by rw [← hsu]; intro up; cases up <;> rfl)
  case debug =>
    have deb : ∀ en, SimT (debugEnableT c s en) T fun T' s' => s'.btn = s.btn ∧ Beside T' s' { u with debug := en } := by
      intro en
      refine SimT.bind (SimT.tick h.now) fun T1 s1 _ e1 => SimT.lift fun s' e => ?_
      subst e1
      unfold debugEnable at e
      rw [if_pos hsc] at e
      obtain ⟨pd, -, e⟩ := Option.bind_eq_some_iff.mp e
      cases e
      exact ⟨rfl, rfl, { h.menu with }, rfl⟩
    have fin : ∀ t t', b ≠ .set → (u.touch t).press t' b = { u with debug := decide (b = .plus) } := by
      intro t t' hs
      rw [touch_none (by rw [← hsu]; decide)]
      unfold Ui.press
      rw [if_neg hs, if_pos hsu.symm]
    cases b
    · exact nothing (by rw [← hsu]; decide) fun t => rfl
    · refine SimT.bind (P := fun T' s' => T' = T ∧ s' = s) (SimT.pure ⟨rfl, rfl⟩) fun T1 s1 _ ⟨e1, e2⟩ => ?_
      subst e1
      subst e2
      refine SimT.bind (deb false) fun T' s' hT ⟨k1, k2⟩ => SimT.pure ⟨k1, T1, T1, Nat.le_refl _, Nat.le_refl _, hT, ?_⟩
      rw [fin _ _ (by decide)]
      exact ⟨k2.now, { k2.menu with }, k2.debug⟩
    · refine SimT.bind (deb true) fun T' s' hT ⟨k1, k2⟩ => SimT.pure ⟨k1, T, T, Nat.le_refl _, Nat.le_refl _, hT, ?_⟩
      rw [fin _ _ (by decide)]
      exact k2
    · exact absurd rfl hb
  all_goals first
    | exact nothing (by rw [← hsu]; decide) (none' _ hsu.symm (by decide) fun up => rfl)
    | exact direct (pre := false) _ (by rw [← hsu]; decide) (by rw [← hsu]; decide)
        (by rw [← hsu]; intro up; cases up <;> rfl)

/-- a button is held -/
theorem Beside.held (hi : Inv c s) (h : Beside T s u) {b : Button} (hb : b ≠ .iron) :
    SimT (menuButtonT c s b .pressed) T fun T' s' => s'.btn = s.btn ∧ ∃ t, T ≤ t ∧ t ≤ T' ∧ Beside T' s' (u.touch t) := by
  have hsc := hi.menu.screen
  have hsu := h.menu.screen
  have armed : ∀ {pre : Bool} (r : RampHandler), holdTime u.screen = some 3000 →
      SimT (menuArmT s 3000 >>= fun s => startRampingButtonT s b .pressed pre r) T fun T' s' => s'.btn = s.btn ∧
        ∃ t, T ≤ t ∧ t ≤ T' ∧ Beside T' s' (u.touch t) := by
    intro pre r h1
    refine SimT.bind (h.arm h1) fun T1 s1 hT ⟨e1, b1⟩ => ?_
    rw [startButton_other _ _ (by decide)]
    exact SimT.pure ⟨e1, T1, hT, Nat.le_refl _, b1⟩
  have nothing : holdTime u.screen ≠ some 3000 → SimT (pure s) T fun T' s' => s'.btn = s.btn ∧
      ∃ t, T ≤ t ∧ t ≤ T' ∧ Beside T' s' (u.touch t) := fun h1 =>
    SimT.pure ⟨rfl, T, Nat.le_refl _, Nat.le_refl _, by rw [touch_none h1]; exact h⟩
  unfold menuButtonT
  rw [if_neg hb]
  refine SimT.bind (P := fun T' s' => s'.btn = s.btn ∧ ∃ t, T ≤ t ∧ t ≤ T' ∧ Beside T' s' (u.touch t)) ?_
    fun T' s' _ k => by
    rw [if_neg (by decide)]
    exact SimT.pure k
  unfold menuButtonScreenT
  cases hst : s.menu.state <;> rw [hst] at hsu hsc <;> simp only [ScreenExists] at hsc <;>
    simp only [hsc, Bool.not_true, Bool.false_eq_true, if_false, reduceCtorEq, false_and]
  case curtemp =>
    rw [startButton_other _ _ (by decide)]
    exact SimT.bind (nothing (by rw [← hsu]; decide)) fun T' s' _ k => SimT.pure k
  case selpreset => exact armed (pre := true) .settemp (by rw [← hsu]; rfl)
  case chgpreset => exact armed _ (by rw [← hsu]; rfl)
  case idletemp => exact armed _ (by rw [← hsu]; rfl)
  all_goals exact nothing (by rw [← hsu]; decide)

/-- a button goes up -/
theorem Beside.negedge (hi : Inv c s) (h : Beside T s u) {b : Button} (hb : b ≠ .iron) :
    SimT (menuButtonT c s b .negedge) T fun T' s' => s'.btn = s.btn ∧ ∃ t t', T ≤ t ∧ t ≤ t' ∧ t' ≤ T' ∧
      ∃ w, Beside T' s' { (u.touch t).release c t' b with vals := w } := by
  have hsc := hi.menu.screen
  have hsu := h.menu.screen
  -- the part that depends on the screen
  unfold menuButtonT
  rw [if_neg hb]
  refine SimT.bind (P := fun T' s' => s'.btn = s.btn ∧ ∃ t t', T ≤ t ∧ t ≤ t' ∧ t' ≤ T' ∧
      Beside T' s' (if b ≠ .set ∧ u.screen = .curtemp then u.enter t' .selpreset else u.touch t)) ?_
    fun T1 s1 hT ⟨e1, t, t', k1, k2, k3, k4⟩ => ?_
  · have stay : SimT (pure s) T fun T' s' => s'.btn = s.btn ∧ ∃ t t', T ≤ t ∧ t ≤ t' ∧ t' ≤ T' ∧
        Beside T' s' u := SimT.pure ⟨rfl, T, T, Nat.le_refl _, Nat.le_refl _, Nat.le_refl _, h⟩
    have nothing : holdTime u.screen ≠ some 3000 → u.screen ≠ .curtemp → SimT (pure s) T fun T' s' => s'.btn = s.btn ∧
        ∃ t t', T ≤ t ∧ t ≤ t' ∧ t' ≤ T' ∧
        Beside T' s' (if b ≠ .set ∧ u.screen = .curtemp then u.enter t' .selpreset else u.touch t) := fun h1 h2 =>
      SimT.pure ⟨rfl, T, T, Nat.le_refl _, Nat.le_refl _, Nat.le_refl _, by
        rw [if_neg (fun hh => h2 hh.2), touch_none h1]; exact h⟩
    have armed : ∀ (f : Sys → TM Sys), holdTime u.screen = some 3000 → u.screen ≠ .curtemp →
        (∀ T s1, s1.now = nowAt T → SimT (f s1) T (At s1)) →
        SimT (menuArmT s 3000 >>= f) T fun T' s' => s'.btn = s.btn ∧
        ∃ t t', T ≤ t ∧ t ≤ t' ∧ t' ≤ T' ∧
        Beside T' s' (if b ≠ .set ∧ u.screen = .curtemp then u.enter t' .selpreset else u.touch t) := by
      intro f h1 h2 hf
      refine SimT.bind (h.arm h1) fun T1 s1 hT ⟨e1, b1⟩ => (hf T1 s1 b1.now).mono fun T' s' hT' k =>
        ⟨k.btn.trans e1, T1, T1, hT, Nat.le_refl _, hT', ?_⟩
      rw [if_neg (fun hh => h2 hh.2)]
      exact b1.at k
    have idle : ∀ (pre : Bool) (r : RampHandler) T s1, s1.now = nowAt T →
        SimT (startRampingButtonT s1 b .negedge pre r) T (At s1) := by
      intro pre r T s1 hn
      rw [startButton_other _ _ (by decide)]
      exact SimT.pure (At.refl hn)
    unfold menuButtonScreenT
    cases hst : s.menu.state <;> rw [hst] at hsu hsc <;> simp only [ScreenExists] at hsc <;>
      simp only [hsc, Bool.not_true, Bool.false_eq_true, if_false, reduceCtorEq, true_and, if_true]
    case curtemp =>
      rw [startButton_other _ _ (by decide)]
      refine SimT.bind (P := fun T' s' => T' = T ∧ s' = s) (SimT.pure ⟨rfl, rfl⟩) fun T1 s1 _ ⟨eT, es⟩ => ?_
      subst eT
      subst es
      refine SimT.ite (fun hs => ?_) fun hs => ?_
      · refine (h.setState (c := c) (st := .selpreset) rfl (by rw [← hsu]; simp)).mono fun T' s' _ ⟨k1, t, k2, k3, k4⟩ =>
          ⟨k1, t, t, k2, Nat.le_refl _, k3, ?_⟩
        rw [if_pos ⟨hs, hsu.symm⟩]
        exact k4
      · refine SimT.pure ⟨rfl, T1, T1, Nat.le_refl _, Nat.le_refl _, Nat.le_refl _, ?_⟩
        rw [if_neg (fun hh => hs hh.1), touch_none (by rw [← hsu]; decide)]
        exact h
    case selpreset =>
      have fin : ∀ {a : Sys} T s1, At a T s1 → SimT (startRampingButtonT s1 b .negedge true .settemp) T (At a) := by
        intro a T s1 k
        rw [startButton_other _ _ (by decide)]
        exact SimT.pure k
      refine armed _ (by rw [← hsu]; rfl) (by rw [← hsu]; decide) fun T1 s1 hn => ?_
      have k2 : ∀ {a : Sys} T s, At a T s → SimT (if b = Button.minus then do
          let s ← presetsStoreT (setCache s s.set.cache.presetsPrev)
          startRampingButtonT s b .negedge true RampHandler.settemp
        else do
          let s ← pure s
          startRampingButtonT s b .negedge true RampHandler.settemp) T (At a) := fun T s k =>
        SimT.ite (fun _ => SimT.bind (k.setCache _).presetsStore fun _ _ _ k => fin _ _ k) fun _ =>
          SimT.bind (SimT.pure k) fun _ _ _ k => fin _ _ k
      exact SimT.ite (fun _ => SimT.bind ((At.refl hn).setCache _).presetsStore fun _ _ _ k => k2 _ _ k) fun _ =>
        SimT.bind (SimT.pure (At.refl hn)) fun _ _ _ k => k2 _ _ k
    case chgpreset => exact armed _ (by rw [← hsu]; rfl) (by rw [← hsu]; decide) (idle _ _)
    case idletemp => exact armed _ (by rw [← hsu]; rfl) (by rw [← hsu]; decide) (idle _ _)
    all_goals exact nothing (by rw [← hsu]; decide) (by rw [← hsu]; decide)
  · -- the end of the ramp, and SET
    rw [if_pos rfl]
    simp only []
    have st := k4.stop
    refine SimT.ite (fun hs => ?_) fun hs => ?_
    · subst hs
      simp only [ne_eq, not_true_eq_false, false_and, if_false] at st
      obtain ⟨ts, -, -, -, -, td, -⟩ := touch_same u t
      refine SimT.ite (fun hd => ?_) fun hd => ?_
      · have hdu : (u.touch t).debug = false := by rw [← st.debug]; simpa using hd
        have hst : (stopRamping s1).menu.state = (u.touch t).screen := st.menu.screen
        rw [hst]
        refine (st.setState (c := c) (nextMenuState_ok c _).1 fun hh => ?_).mono fun T' s' _ ⟨g1, t2, g2, g3, g4⟩ =>
          ⟨g1.trans e1, t, t2, k1, by omega, g3, (u.touch t).vals, ?_⟩
        · have hh : (u.touch t).screen = nextMenuState c (u.touch t).screen := hh
          rw [← hh]
          cases hL : holdTime (u.touch t).screen with
          | none => rfl
          | some L => exact absurd (by rw [nextScreen_eq]; exact hh.symm) (nextScreen_ne (c := c) (m := (u.touch t).screen) (by rw [hL]; rfl))
        · have : (u.touch t).release c t2 .set = Ui.enter { u.touch t with ramp := .none } t2 (nextMenuState c (u.touch t).screen) := by
            unfold Ui.release
            simp only [if_true, hdu, Bool.false_eq_true, if_false, nextScreen_eq]
          rw [this]
          exact g4
      · have hdu : (u.touch t).debug = true := by rw [← st.debug]; simpa using hd
        refine SimT.pure ⟨e1, t, t', k1, k2, k3, (u.touch t).vals, ?_⟩
        have : (u.touch t).release c t' .set = { u.touch t with ramp := .none } := by
          unfold Ui.release
          simp only [if_true, hdu]
        rw [this]
        exact st
    · refine SimT.pure ⟨e1, t, t', k1, k2, k3, (u.touch t).vals, ?_⟩
      obtain ⟨ts, -, -, -, -, td, -⟩ := touch_same u t
      by_cases hc : u.screen = .curtemp
      · rw [if_pos ⟨hs, hc⟩] at st
        rw [touch_none (by rw [hc]; decide)]
        have : u.release c t' b = Ui.enter { u with ramp := .none } t' .selpreset := by
          unfold Ui.release
          simp only [if_neg hs, hc, if_true]
        rw [this]
        exact st
      · rw [if_neg (fun hh => hc hh.2)] at st
        have : { (u.touch t).release c t' b with vals := (u.touch t).vals } = { u.touch t with ramp := .none } := by
          unfold Ui.release
          simp only [if_neg hs, ts, hc, if_false]
          split <;> rfl
        rw [this]
        exact st

end Verif
