import Verif.Proofs.InvCache
/-
The menu keeps the invariant: changing screens, ramping, buttons and timeouts.
-/
namespace Verif
open Spec

theorem menuArm_eq (s : Sys) {ms : Int} (h0 : 0 ≤ ms) (h1 : ms ≤ 32767) :
    menuArm s ms = some { s with menu := { s.menu with timeout := toU16 (s.now + toU16 ms) } } := by
  unfold menuArm
  rw [timerArm_eq s.now h0 h1]
  rfl

theorem Inv.menuArm {c : Conf} {s : Sys} (h : Inv c s) {ms : Int} (h0 : 0 ≤ ms) (h1 : ms ≤ 32767) :
    Safe (menuArm s ms) fun s' => Inv c s' ∧ ∃ t, s' = { s with menu := { s.menu with timeout := t } } :=
  Safe.of_eq (menuArm_eq s h0 h1) ⟨{ h with menu := { h.menu with } }, _, rfl⟩

/-- what a change of the screen does -/
def StateSet (c : Conf) (s : Sys) (t : MenuState) (s' : Sys) : Prop :=
  ∃ ct' cc' tmo u,
    s' = { s with ct := ct', cc := cc', menu := { s.menu with state := t, timeout := tmo, updReq := u } } ∧
    CtrlOk c s ct' cc' ∧ ct'.enabled = !Tuning t

theorem menuEnter_off {c : Conf} {s : Sys} {t : MenuState} (hx : WithinLimits c s.set.cache)
    (h : CtrlOk c s s.ct s.cc) (ht : Tuning t = true) (hs : ScreenExists c t = true) :
    ∃ ct' cc' tmo u, menuEnter c s t =
        some { s with ct := ct', cc := cc', menu := { s.menu with timeout := tmo, updReq := u } } ∧
      CtrlOk c s ct' cc' ∧ ct'.enabled = false := by
  have key : ∀ tm : Int, ∃ ct' cc' tmo u,
      contrtempSetEnabled c { s with menu := { s.menu with timeout := tm } } false =
        some { s with ct := ct', cc := cc', menu := { s.menu with timeout := tmo, updReq := u } } ∧
      CtrlOk c s ct' cc' ∧ ct'.enabled = false := by
    intro tm
    obtain ⟨ct', cc', u, e, hc, he⟩ := contrtempSetEnabled_ok
      (s := { s with menu := { s.menu with timeout := tm } }) false hx { h with }
    exact ⟨ct', cc', tm, u, e, { hc with }, he⟩
  cases t <;> simp only [Tuning, Bool.false_eq_true] at ht <;>
    (simp only [ScreenExists] at hs; simp only [menuEnter, hs, Bool.not_true, Bool.false_eq_true, if_false])
  all_goals first
    | exact key s.menu.timeout
    | (rw [menuArm_eq s (by decide) (by decide)]; exact key _)

theorem menuEnter_on {c : Conf} {s : Sys} {t : MenuState} (hx : WithinLimits c s.set.cache)
    (h : CtrlOk c s s.ct s.cc) (ht : Tuning t = false) (he : t = .curtemp ∨ s.ct.enabled = true) :
    ∃ ct' cc' tmo u, menuEnter c s t =
        some { s with ct := ct', cc := cc', menu := { s.menu with timeout := tmo, updReq := u } } ∧
      CtrlOk c s ct' cc' ∧ ct'.enabled = true := by
  by_cases h0 : t = .curtemp
  · subst h0
    obtain ⟨ct', cc', u, e, hc, he⟩ := contrtempSetEnabled_ok true hx h
    exact ⟨ct', cc', s.menu.timeout, u, e, hc, he⟩
  · have hen : s.ct.enabled = true := by rcases he with e | e; exact absurd e h0; exact e
    cases t <;> simp only [Tuning, Bool.true_eq_false] at ht
    · exact absurd rfl h0
    all_goals simp only [menuEnter]
    all_goals first
      | exact ⟨s.ct, s.cc, s.menu.timeout, s.menu.updReq, rfl, h, hen⟩
      | (rw [menuArm_eq s (by decide) (by decide)]
         exact ⟨s.ct, s.cc, _, s.menu.updReq, rfl, h, hen⟩)

theorem Inv.menuSetState {c : Conf} {s : Sys} (h : Inv c s) {t : MenuState}
    (hs : ScreenExists c t = true)
    (ht : t = .curtemp ∨ Tuning t = true ∨ Tuning s.menu.state = false) :
    Safe (menuSetState c s t) (StateSet c s t) := by
  unfold Verif.menuSetState
  split
  · rename_i e
    exact Safe.pure ⟨s.ct, s.cc, s.menu.timeout, s.menu.updReq, by rw [← e], h.ctrlOk, by rw [← e, h.en]⟩
  · have hc : CtrlOk c { s with menu := { s.menu with state := t } } s.ct s.cc := { h.ctrlOk with }
    cases hT : Tuning t with
    | true =>
      obtain ⟨ct', cc', tmo, u, e, k1, k2⟩ := menuEnter_off
        (s := { s with menu := { s.menu with state := t } }) h.set.lim hc hT hs
      rw [e]
      exact Safe.pure ⟨ct', cc', tmo, true, rfl, { k1 with }, by rw [k2, hT]; rfl⟩
    | false =>
      have hen : t = .curtemp ∨ s.ct.enabled = true := by
        rcases ht with e | e | e
        · exact Or.inl e
        · rw [hT] at e; cases e
        · exact Or.inr (by rw [h.en, e]; rfl)
      obtain ⟨ct', cc', tmo, u, e, k1, k2⟩ := menuEnter_on
        (s := { s with menu := { s.menu with state := t } }) h.set.lim hc hT hen
      rw [e]
      exact Safe.pure ⟨ct', cc', tmo, true, rfl, { k1 with }, by rw [k2, hT]; rfl⟩

theorem Inv.noDebug {c : Conf} {s : Sys} (h : Inv c s) (hs : s.menu.state ≠ .debug) :
    s.debugEn = false := by
  cases e : s.debugEn
  · rfl
  · exact absurd (h.dbg e) hs

/-- the invariant after a change of the screen, if no ramp is in progress or the screens share
    their ramp handler -/
theorem StateSet.inv {c : Conf} {s s' : Sys} {t : MenuState} (h : Inv c s) (hs : StateSet c s t s')
    (ht : ScreenExists c t = true) (hd : s.debugEn = false) (hr : s.menu.ramp = .none ∨ handlerFor t = handlerFor s.menu.state) :
    Inv c s' := by
  obtain ⟨ct', cc', tmo, u, rfl, k, en⟩ := hs
  exact { h with
    cc := k.cc
    ct := k.ct
    emerg := k.emerg
    restr := k.restr.trans h.restr
    menu := { h.menu with
      screen := ht
      ramp := fun hh => (by
        rcases hr with e | e
        · exact absurd e hh
        · have := h.menu.ramp hh
          show s.menu.handler = handlerFor t ∧ (handlerFor t).isSome = true
          rw [e]; exact this) }
    en := en
    dbg := fun hh => absurd (hd.symm.trans hh) (by decide) }

theorem Inv.stopRamping {c : Conf} {s : Sys} (h : Inv c s) : Inv c (stopRamping s) :=
  { h with menu := { h.menu with ramp := fun hh => absurd rfl hh } }

/-- the invariant after a change of the screen followed by the end of ramping -/
theorem StateSet.invStop {c : Conf} {s s' : Sys} {t : MenuState} (h : Inv c s) (hs : StateSet c s t s')
    (ht : ScreenExists c t = true) (hd : s.debugEn = false) : Inv c (Verif.stopRamping s') := by
  have h1 := h.stopRamping
  obtain ⟨ct', cc', tmo, u, rfl, k, en⟩ := hs
  exact StateSet.inv h1 ⟨ct', cc', tmo, u, rfl, { k with }, en⟩ ht hd (Or.inl rfl)

/-- the next screen exists, and can be entered -/
theorem nextMenuState_ok (c : Conf) (st : MenuState) :
    ScreenExists c (nextMenuState c st) = true ∧
      (nextMenuState c st = .curtemp ∨ Tuning (nextMenuState c st) = true ∨ Tuning st = false) := by
  cases st <;> simp only [nextMenuState] <;>
    cases h1 : c.idle <;> cases h2 : c.debug <;> cases h3 : c.adj <;> cases h4 : c.kconf <;>
    simp [ScreenExists, Tuning, h1, h2, h3, h4]

theorem Inv.menuSetNextState {c : Conf} {s : Sys} (h : Inv c s) :
    Safe (menuSetNextState c s) (StateSet c s (nextMenuState c s.menu.state)) :=
  h.menuSetState (nextMenuState_ok c _).1 (nextMenuState_ok c _).2

/-- only screen, timeout and update request of the menu differ -/
def MenuSame (s s' : Sys) : Prop :=
  ∃ st tmo u, s'.menu = { s.menu with state := st, timeout := tmo, updReq := u }

theorem handlerFor_settemp {st : MenuState} (h : handlerFor st = some .settemp) :
    st = .curtemp ∨ st = .selpreset ∨ st = .chgpreset := by
  cases st <;> simp [handlerFor] at h ⊢

/-- one ramp step -/
theorem Inv.rampHandler {c : Conf} {s : Sys} (h : Inv c s) {r : RampHandler} (up : Bool)
    (hr : handlerFor s.menu.state = some r) :
    Safe (rampHandler c s r up) fun s' => Inv c s' ∧ MenuSame s s' := by
  have same : ∀ {s' : Sys}, (∃ u, s'.menu = { s.menu with updReq := u }) → MenuSame s s' :=
    fun ⟨u, e⟩ => ⟨_, _, u, e⟩
  cases r with
  | settemp =>
    obtain ⟨p, e1, hp, -⟩ := wanted_ok h.set.lim false
    obtain ⟨v, e2, hv⟩ := doRampTemp_ok (t := p) (lo := 0) (hi := 30720) up (by omega) (by decide)
    simp only [Verif.rampHandler, e1, e2, Option.bind_eq_bind, Option.bind_some]
    refine Safe.bind (h.presetsSetActive hv) fun s1 ⟨h1, m1, en1⟩ => ?_
    have hst : s1.menu.state = s.menu.state := by rw [m1]
    have h3 := handlerFor_settemp hr
    refine (h1.menuSetState (t := .chgpreset) rfl (Or.inr (Or.inr ?_))).mono fun s2 h2 =>
      ⟨h2.inv h1 rfl ?_ (Or.inr ?_), ?_⟩
    · rw [hst]; rcases h3 with e | e | e <;> rw [e] <;> rfl
    · exact h1.noDebug (by rw [hst]; rcases h3 with e | e | e <;> rw [e] <;> decide)
    · rw [hst, hr]; rfl
    · obtain ⟨ct', cc', tmo, u, rfl, -⟩ := h2
      exact ⟨.chgpreset, tmo, u, by simp only [m1]⟩
  | idletemp =>
    have := h.set.lim.idleSp
    obtain ⟨v, e2, hv⟩ := doRampTemp_ok (t := s.set.cache.idleSp) (lo := 0) (hi := 30720) up
      (by omega) (by decide)
    simp only [Verif.rampHandler, e2, Option.bind_eq_bind, Option.bind_some]
    exact (h.idleSetpoint hv).mono fun s' hh => ⟨hh.1, same ⟨s.menu.updReq, hh.2⟩⟩
  | adj =>
    have hb : -6336 ≤ measureAdjustGet c s ∧ measureAdjustGet c s ≤ 6336 := by
      unfold measureAdjustGet
      have := h.meas.adj1
      have := h.set.lim.adj
      split
      · rename_i hc; simp only [hc, if_true] at *; omega
      · omega
    obtain ⟨v, e2, hv⟩ := doRampTemp_ok (t := measureAdjustGet c s) (lo := -6336) (hi := 6336) up
      (by omega) (by decide)
    simp only [Verif.rampHandler, e2, Option.bind_eq_bind, Option.bind_some]
    exact (h.adjustSet hv).mono fun s' hh => ⟨hh.1, same hh.2⟩
  | kp =>
    simp only [Verif.rampHandler]
    refine (h.rampK (get := (·.kp)) (put := fun k v => { k with kp := v }) (inc := 2) (hi := 6336) up
      (by decide) (by decide) fun k hk =>
      ⟨hk.1.1, hk.1.2, fun v hv => ⟨by show 0 ≤ v ∧ v ≤ 99 * 64; omega, hk.2⟩⟩).mono
      fun s' hh => ⟨hh.1, same hh.2⟩
  | ki =>
    simp only [Verif.rampHandler]
    refine (h.rampK (get := (·.ki)) (put := fun k v => { k with ki := v }) (inc := 1) (hi := 576) up
      (by decide) (by decide) fun k hk =>
      ⟨hk.2.1.1, by omega, fun v hv => ⟨hk.1, by show 0 ≤ v ∧ v ≤ 9 * 64; omega, hk.2.2⟩⟩).mono
      fun s' hh => ⟨hh.1, same hh.2⟩
  | kd =>
    simp only [Verif.rampHandler]
    refine (h.rampK (get := (·.kd)) (put := fun k v => { k with kd := v }) (inc := 2) (hi := 6336) up
      (by decide) (by decide) fun k hk =>
      ⟨hk.2.2.1.1, hk.2.2.1.2, fun v hv =>
        ⟨hk.1, hk.2.1, by show 0 ≤ v ∧ v ≤ 99 * 64; omega, hk.2.2.2⟩⟩).mono
      fun s' hh => ⟨hh.1, same hh.2⟩

theorem Inv.startRamping {c : Conf} {s : Sys} (h : Inv c s) (up pre : Bool) {r : Option RampHandler}
    (hr : r = handlerFor s.menu.state) (hs : r.isSome = true) :
    Safe (startRamping s up pre r) fun s' => Inv c s' ∧ ∃ rp pt, rp ≠ .none ∧ s' = { s with menu :=
      { s.menu with ramp := rp, rampPreTimer := pt, handler := r, period := 400, rampTimer := s.now } } := by
  subst hr
  unfold Verif.startRamping
  cases pre
  · refine Safe.pure ⟨{ h with menu := { h.menu with
      ramp := fun _ => ⟨rfl, hs⟩, period := ⟨by show (0 : Int) ≤ 400; decide, le_refl _⟩ } }, _, _, ?_, rfl⟩
    cases up <;> simp
  · simp only [if_true, timerArm_eq s.now (ms := 1000) (by decide) (by decide), Option.bind_eq_bind,
      Option.bind_some]
    refine Safe.pure ⟨{ h with menu := { h.menu with
      ramp := fun _ => ⟨rfl, hs⟩, period := ⟨by show (0 : Int) ≤ 400; decide, le_refl _⟩ } }, _, _, ?_, rfl⟩
    cases up <;> simp

/-- everything but the ramp state of the menu is the same -/
def RampOnly (s s' : Sys) : Prop :=
  ∃ rp rt pt hd pe, s' = { s with menu := { s.menu with
    ramp := rp, rampTimer := rt, rampPreTimer := pt, handler := hd, period := pe } }

theorem Inv.startRampingButton {c : Conf} {s : Sys} (h : Inv c s) (b : Button) (e : BState) (pre : Bool)
    {r : RampHandler} (hr : handlerFor s.menu.state = some r) :
    Safe (startRampingButton s b e pre r) fun s' => Inv c s' ∧ RampOnly s s' := by
  unfold Verif.startRampingButton
  have go : ∀ up, Safe (Verif.startRamping s up pre (some r)) fun s' => Inv c s' ∧ RampOnly s s' :=
    fun up => (h.startRamping up pre hr.symm rfl).mono fun s' ⟨i, rp, pt, _, e⟩ =>
      ⟨i, rp, _, pt, _, _, e⟩
  have id : Safe (some s) fun s' => Inv c s' ∧ RampOnly s s' :=
    Safe.pure ⟨h, _, _, _, _, _, rfl⟩
  split
  · split
    · exact go false
    · split
      · exact go true
      · exact id
  · exact id

end Verif
