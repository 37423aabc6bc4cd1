import Verif.Proofs.InvText
/-
Button handlers and work functions of the menu keep the invariant.
-/
namespace Verif
open Spec

theorem Inv.debugEnable {c : Conf} {s : Sys} (h : Inv c s) (en : Bool) (hc : c.debug = true)
    (hst : s.menu.state = .debug) :
    Safe (debugEnable c s en) fun s' => Inv c s' ∧ s'.menu = s.menu := by
  obtain ⟨p, d, e, hd⟩ := debugEnable_ok en h.disp hc
  exact ⟨_, e, { h with disp := hd, dbg := fun _ => hst }, rfl⟩

theorem RampOnly.state {s s' : Sys} (h : RampOnly s s') : s'.menu.state = s.menu.state := by
  obtain ⟨_, _, _, _, _, rfl⟩ := h; rfl

theorem Inv.menuButtonScreen {c : Conf} {s : Sys} (h : Inv c s) (b : Button) (e : BState) :
    Safe (menuButtonScreen c s b e) (Inv c) := by
  have hsc := h.menu.screen
  unfold Verif.menuButtonScreen
  cases hst : s.menu.state <;> simp only [hst, ScreenExists] at hsc
  · -- curtemp
    refine Safe.bind (h.startRampingButton b e true (r := .settemp) (by rw [hst]; rfl))
      fun s1 ⟨h1, r1⟩ => ?_
    have hs1 : s1.menu.state = .curtemp := r1.state.trans hst
    split
    · exact (h1.menuSetState (t := .selpreset) rfl (Or.inr (Or.inr (by rw [hs1]; rfl)))).mono
        fun s2 h2 => h2.inv h1 rfl (h1.noDebug (by rw [hs1]; decide)) (Or.inr (by rw [hs1]; rfl))
    · exact Safe.pure h1
  · -- selpreset
    refine Safe.bind (h.menuArm (ms := 3000) (by decide) (by decide)) fun s1 ⟨h1, t, e1⟩ => ?_
    have hs1 : s1.menu.state = .selpreset := by rw [e1]; exact hst
    have ramp : ∀ {s2 : Sys}, Inv c s2 → s2.menu.state = .selpreset →
        Safe (Verif.startRampingButton s2 b e true .settemp) (Inv c) := fun h2 hs2 =>
      (h2.startRampingButton b e true (r := .settemp) (by rw [hs2]; rfl)).mono fun _ hh => hh.1
    cases e
    · simp only [reduceCtorEq, if_false]; exact ramp h1 hs1
    · simp only [if_true]
      cases b
      · exact ramp h1 hs1
      · simp only [reduceCtorEq, if_false, if_true, pure_bind]
        exact Safe.bind h1.presetsPrev fun s2 ⟨h2, m2⟩ => ramp h2 (by rw [m2]; exact hs1)
      · simp only [reduceCtorEq, if_false, if_true]
        exact Safe.bind h1.presetsNext fun s2 ⟨h2, m2⟩ => ramp h2 (by rw [m2]; exact hs1)
      · exact ramp h1 hs1
    · simp only [reduceCtorEq, if_false]; exact ramp h1 hs1
  · -- chgpreset
    refine Safe.bind (h.menuArm (ms := 3000) (by decide) (by decide)) fun s1 ⟨h1, t, e1⟩ => ?_
    have hs1 : s1.menu.state = .chgpreset := by rw [e1]; exact hst
    exact (h1.startRampingButton b e false (r := .settemp) (by rw [hs1]; rfl)).mono fun _ hh => hh.1
  · -- idletemp
    simp only [hsc, Bool.not_true, Bool.false_eq_true, if_false]
    refine Safe.bind (h.menuArm (ms := 3000) (by decide) (by decide)) fun s1 ⟨h1, t, e1⟩ => ?_
    have hs1 : s1.menu.state = .idletemp := by rw [e1]; exact hst
    exact (h1.startRampingButton b e false (r := .idletemp) (by rw [hs1]; rfl)).mono fun _ hh => hh.1
  · -- debug
    simp only [hsc, Bool.not_true, Bool.false_eq_true, if_false]
    split
    · cases b
      · exact Safe.pure h
      · simp only [reduceCtorEq, if_false, if_true, pure_bind]
        exact Safe.bind (h.debugEnable false hsc hst) fun s1 h1 => Safe.pure h1.1.menuRequestUpdate
      · simp only [reduceCtorEq, if_false, if_true]
        exact Safe.bind (h.debugEnable true hsc hst) fun s1 h1 => Safe.pure h1.1
      · exact Safe.pure h
    · exact Safe.pure h
  · exact Safe.pure h
  · simp only [hsc, Bool.not_true, Bool.false_eq_true, if_false]
    exact (h.startRampingButton b e false (r := .adj) (by rw [hst]; rfl)).mono fun _ hh => hh.1
  · exact Safe.pure h
  · simp only [hsc, Bool.not_true, Bool.false_eq_true, if_false]
    exact (h.startRampingButton b e false (r := .kp) (by rw [hst]; rfl)).mono fun _ hh => hh.1
  · exact Safe.pure h
  · simp only [hsc, Bool.not_true, Bool.false_eq_true, if_false]
    exact (h.startRampingButton b e false (r := .ki) (by rw [hst]; rfl)).mono fun _ hh => hh.1
  · exact Safe.pure h
  · simp only [hsc, Bool.not_true, Bool.false_eq_true, if_false]
    exact (h.startRampingButton b e false (r := .kd) (by rw [hst]; rfl)).mono fun _ hh => hh.1

theorem Inv.menuButton {c : Conf} {s : Sys} (h : Inv c s) (b : Button) (e : BState) :
    Safe (menuButton c s b e) (Inv c) := by
  unfold Verif.menuButton
  split
  · exact Safe.pure h
  · refine Safe.bind (h.menuButtonScreen b e) fun s1 h1 => ?_
    split
    · simp only []
      split
      · split
        · rename_i hd
          have h2 := h1.stopRamping
          refine h2.menuSetNextState.mono fun s3 h3 =>
            h3.inv h2 (nextMenuState_ok c _).1 (by simpa using hd) (Or.inl rfl)
        · exact Safe.pure h1.stopRamping
      · exact Safe.pure h1.stopRamping
    · exact Safe.pure h1

theorem Inv.menuTimeouts {c : Conf} {s : Sys} (h : Inv c s) : Safe (menuTimeouts c s) (Inv c) := by
  have key : s.menu.state ≠ .debug → Safe (if timerExpired s.now s.menu.timeout then do
      let s ← if s.menu.state = .idletemp then Verif.menuSetState c s .curtemp else Verif.menuSetNextState c s
      return Verif.stopRamping s
    else some s) (Inv c) := by
    intro hd
    have hd' := h.noDebug hd
    split
    · split
      · exact Safe.bind (h.menuSetState (t := .curtemp) rfl (Or.inl rfl)) fun s1 h1 =>
          Safe.pure (h1.invStop h rfl hd')
      · exact Safe.bind h.menuSetNextState fun s1 h1 =>
          Safe.pure (h1.invStop h (nextMenuState_ok c _).1 hd')
    · exact Safe.pure h
  unfold Verif.menuTimeouts
  split <;> rename_i hst
  all_goals first
    | exact Safe.pure h
    | exact key (by rw [hst]; decide)

theorem menuError_le (s : Sys) : menuError s ≤ 3 := by
  unfold menuError
  split <;> split <;> decide

theorem Inv.menuIndicate {c : Conf} {s : Sys} (h : Inv c s) : Inv c (menuIndicate s) := by
  have h1 : Inv c (if menuError s ≠ s.menu.dispErr then
      { Verif.stopRamping { s with menu := { s.menu with dispErr := menuError s } } with
        menu := { (Verif.stopRamping { s with menu := { s.menu with dispErr := menuError s } }).menu with
          updReq := true } }
    else s) := by
    split
    · exact { h with menu := { h.menu with
        ramp := fun hh => absurd rfl hh
        err := menuError_le s } }
    · exact h
  unfold Verif.menuIndicate
  simp only []
  generalize (if menuError s ≠ s.menu.dispErr then
      { Verif.stopRamping { s with menu := { s.menu with dispErr := menuError s } } with
        menu := { (Verif.stopRamping { s with menu := { s.menu with dispErr := menuError s } }).menu with
          updReq := true } }
    else s) = s1 at h1
  split
  · exact { h1 with menu := { h1.menu with } }
  · exact h1

theorem Inv.menuRamp {c : Conf} {s : Sys} (h : Inv c s) : Safe (menuRamp c s) (Inv c) := by
  unfold Verif.menuRamp
  have pre : s.menu.ramp ≠ .none → Safe (if timerExpired s.now s.menu.rampPreTimer then
      Verif.startRamping s (s.menu.ramp = .preUp) false s.menu.handler else some s) (Inv c) := by
    intro hr
    obtain ⟨e1, e2⟩ := h.menu.ramp hr
    split
    · exact (h.startRamping _ false e1 (by rw [e1]; exact e2)).mono fun _ hh => hh.1
    · exact Safe.pure h
  have go : s.menu.ramp ≠ .none → Safe (if timerExpired s.now s.menu.rampTimer then do
      let h ← s.menu.handler
      let s ← Verif.rampHandler c s h (s.menu.ramp = .up)
      let t ← timerAdd s.menu.rampTimer s.menu.period
      return { s with menu := { s.menu with
        updReq := true, rampTimer := t,
        period := if s.menu.period > 25 then s.menu.period / 2 else s.menu.period } }
    else some s) (Inv c) := by
    intro hr
    obtain ⟨e1, e2⟩ := h.menu.ramp hr
    split
    · obtain ⟨r, er⟩ := Option.isSome_iff_exists.mp e2
      have e3 : s.menu.handler = some r := e1.trans er
      simp only [e3, Option.bind_eq_bind, Option.bind_some]
      refine Safe.bind (h.rampHandler _ er) fun s1 ⟨h1, _⟩ => ?_
      have hp := h1.menu.period
      rw [timerAdd_eq _ hp.1 (by omega)]
      refine Safe.pure { h1 with menu := { h1.menu with period := ?_ } }
      show 0 ≤ (if s1.menu.period > 25 then s1.menu.period / 2 else s1.menu.period) ∧
        (if s1.menu.period > 25 then s1.menu.period / 2 else s1.menu.period) ≤ 400
      split <;> omega
    · exact Safe.pure h
  split <;> rename_i hr
  · exact Safe.pure h
  · exact pre (by rw [hr]; decide)
  · exact pre (by rw [hr]; decide)
  · exact go (by rw [hr]; decide)
  · exact go (by rw [hr]; decide)

theorem Inv.menuRefresh {c : Conf} {s : Sys} (h : Inv c s) : Safe (menuRefresh c s) (Inv c) := by
  unfold Verif.menuRefresh
  split
  · have h1 : Inv c { s with menu := { s.menu with updReq := false } } :=
      { h with menu := { h.menu with } }
    exact h1.menuUpdateDisplay.mono fun _ hh => hh.1
  · exact Safe.pure h

theorem Inv.menuWork {c : Conf} {s : Sys} (h : Inv c s) : Safe (menuWork c s) (Inv c) := by
  unfold Verif.menuWork
  exact Safe.bind h.menuTimeouts fun s1 h1 => Safe.bind h1.menuIndicate.menuRamp fun s2 h2 =>
    h2.menuRefresh

theorem Inv.calls {c : Conf} (l : List (Button × BState)) : ∀ {s : Sys}, Inv c s →
    Safe (l.foldlM (callButtonHandlers c) s) (Inv c) := by
  induction l with
  | nil => intro s h; exact Safe.pure h
  | cons x l ih =>
    intro s h
    rw [List.foldlM_cons]
    refine Safe.bind ?_ fun s1 h1 => ih h1
    exact Safe.bind (h.ironButton x.1 x.2) fun s1 h1 => h1.menuButton x.1 x.2

theorem buttonsSample_ok (now : Int) (b : Buttons) (pinb : BitVec 8) :
    ∃ b' l, buttonsSample now b pinb = some (b', l) := by
  unfold buttonsSample
  split
  · exact ⟨_, _, rfl⟩
  · rw [timerAdd_eq _ (by decide) (by decide)]
    exact ⟨_, _, rfl⟩

theorem Inv.buttonsWork {c : Conf} {s : Sys} (h : Inv c s) (pinb : BitVec 8) :
    Safe (buttonsWork c s pinb) (Inv c) := by
  obtain ⟨b', l, e⟩ := buttonsSample_ok s.now s.btn pinb
  unfold Verif.buttonsWork
  rw [e]
  have h1 : Inv c { s with btn := b' } := { h with }
  exact Inv.calls l h1

end Verif
