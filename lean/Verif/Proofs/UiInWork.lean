import Verif.Proofs.UiInSample
/-
The menu's work function with ticks inside, beside the user interface.
-/
namespace Verif
open Spec Props

variable {c : Conf} {s : Sys} {u : Ui} {T M : Nat}

/-- every result of a computation that begins at the time `T` and ends before `M` has the property -/
def SimB (M : Nat) (m : TM Sys) (T : Nat) (Q : Nat → Sys → Prop) : Prop :=
  ∀ g s' g', T + g.sum ≤ M → m g = some (s', g') → ∃ T', T ≤ T' ∧ T' + g'.sum = T + g.sum ∧ Q T' s'

namespace SimB
variable {P Q : Nat → Sys → Prop}

theorem of {m : TM Sys} (h : SimT m T P) : SimB M m T fun T' s => T' ≤ M ∧ P T' s := by
  intro g s' g' hM e
  obtain ⟨T', h1, h2, h3⟩ := h g s' g' e
  exact ⟨T', h1, h2, by omega, h3⟩

theorem pure {s : Sys} (h : Q T s) : SimB M (Pure.pure s) T Q := fun g s' g' _ e => SimT.pure h g s' g' e

theorem bind {m : TM Sys} {f : Sys → TM Sys} (h : SimB M m T P) (hf : ∀ T1 s, T ≤ T1 → P T1 s → SimB M (f s) T1 Q) :
    SimB M (m >>= f) T Q := by
  intro g y g' hM e
  have e : (m g).bind (fun p => f p.1 p.2) = some (y, g') := e
  obtain ⟨⟨x, g1⟩, e1, e⟩ := Option.bind_eq_some_iff.mp e
  obtain ⟨T1, h1, h2, h3⟩ := h _ _ _ hM e1
  have h2 : T1 + g1.sum = T + g.sum := h2
  obtain ⟨T2, k1, k2, k3⟩ := hf T1 x h1 h3 g1 _ _ (by omega) e
  exact ⟨T2, by omega, by omega, k3⟩

theorem bindV {α : Type} {o : Option α} {f : α → TM Sys} (hf : ∀ x, o = some x → SimB M (f x) T Q) :
    SimB M (liftM o >>= f) T Q := by
  cases o with
  | none => intro g s' g' _ e; cases e
  | some x => exact hf x rfl

theorem ite {p : Prop} [Decidable p] {x y : TM Sys} (h : p → SimB M x T Q) (h' : ¬ p → SimB M y T Q) :
    SimB M (if p then x else y) T Q := by
  split
  · exact h ‹_›
  · exact h' ‹_›

theorem mono {m : TM Sys} (h : SimB M m T P) (hq : ∀ T' s, T ≤ T' → P T' s → Q T' s) : SimB M m T Q := by
  intro g s' g' hM e
  obtain ⟨T', h1, h2, h3⟩ := h g s' g' hM e
  exact ⟨T', h1, h2, hq _ _ h1 h3⟩
end SimB

theorem nowAt_rng (t : Nat) : 0 ≤ nowAt t ∧ nowAt t ≤ 65535 := by unfold nowAt; omega

theorem menuTimeouts_due (hs : ScreenExists c s.menu.state = true) (hL : (holdTime s.menu.state).isSome)
    (hx : timerExpired s.now s.menu.timeout = true) :
    menuTimeouts c s = (menuSetState c s (leadsTo s.menu.state)).map stopRamping := by
  have key : ∀ o : Option Sys, (do let s ← o; return stopRamping s) = o.map stopRamping := by
    intro o; cases o <;> rfl
  unfold menuTimeouts menuSetNextState
  by_cases hi : s.menu.state = .idletemp
  · simp only [hi, hx, if_true]
    exact key _
  · rw [leadsTo_next hs hL hi]
    revert hL hi
    cases hst : s.menu.state <;> intro hL hi <;> first
      | (cases hL; done)
      | exact absurd rfl hi
      | (simp only [hx, if_true, reduceCtorEq, if_false]; exact key _)

theorem menuTimeoutsT_hold (hL : (holdTime s.menu.state).isSome) :
    menuTimeoutsT c s = (do
      let s ← tickIn s
      if timerExpired s.now s.menu.timeout then do
        let s ← if s.menu.state = .idletemp then menuSetStateT c s .curtemp
          else menuSetStateT c s (nextMenuState c s.menu.state)
        return stopRamping s
      else return s) := by
  unfold menuTimeoutsT
  cases hst : s.menu.state <;> rw [hst] at hL <;> cases hL

theorem menuTimeoutsT_none (hL : holdTime s.menu.state = none) : menuTimeoutsT c s = pure s := by
  unfold menuTimeoutsT
  cases hst : s.menu.state <;> rw [hst] at hL <;> cases hL

theorem setState_both (hi : Inv c s) (m : MenuState) : Both (menuSetStateT c s m) (menuSetState c s m) :=
  Both.of (f := fun s => menuSetState c s m) hi.now fun _ _ h => menuSetState_in h m

/-- the screens with limited time -/
theorem Full.timeouts (h : Full c T s u) (hr : ∀ t, T ≤ t → t ≤ M → InReach u t) :
    SimB M (menuTimeoutsT c s) T fun T' s' => s'.btn = s.btn ∧ failures s' = failures s ∧
      (s'.menu.ramp ≠ .none → s'.ct = s.ct) ∧
      ∃ t1 t2, T ≤ t1 ∧ t1 ≤ t2 ∧ t2 ≤ T' ∧ Full c T' s' (u.leaveAt t1 t2) := by
  have hsu := h.at_.menu.screen
  cases hL : holdTime u.screen with
  | none =>
    rw [menuTimeoutsT_none (by rw [hsu, hL])]
    refine SimB.pure ⟨rfl, rfl, fun _ => rfl, T, T, Nat.le_refl _, Nat.le_refl _, Nat.le_refl _, ?_⟩
    unfold Ui.leaveAt
    rw [hL]
    exact h
  | some L =>
    rw [menuTimeoutsT_hold (by rw [hsu, hL]; rfl)]
    refine SimB.bind (SimB.of (SimT.tick h.at_.now)) fun t s1 ht ⟨htM, e1⟩ => ?_
    subst e1
    have i1 : Inv c { s with now := nowAt t } := { h.inv with now := nowAt_rng t }
    have b1 : Beside t { s with now := nowAt t } u := ⟨rfl, h.at_.menu, h.at_.debug⟩
    have hx : timerExpired (nowAt t) s.menu.timeout = decide (u.since + L ≤ t) := by
      have r := hr t ht htM
      have h3 := hold_le hL
      have := r.since
      rw [h.at_.menu.hold L hL]
      exact reach_expired (by omega) (r.hold L hL)
    refine SimB.ite (fun he => ?_) fun he => ?_
    · have he' : u.since + L ≤ t := by
        have he : timerExpired (nowAt t) s.menu.timeout = true := he
        rw [hx] at he
        simpa using he
      have hne : u.screen ≠ leadsTo u.screen := leadsTo_ne (by rw [hL]; rfl)
      have hex : ScreenExists c (leadsTo u.screen) = true := leadsTo_exists (hsu ▸ h.inv.menu.screen)
      have key : SimB M (menuSetStateT c { s with now := nowAt t } (leadsTo u.screen)) t fun T' s' =>
          s'.btn = s.btn ∧ failures s' = failures s ∧ ∃ t2, t ≤ t2 ∧ t2 ≤ T' ∧
            Full c T' (stopRamping s') (u.leaveAt t t2) := by
        intro g s' g' hM e
        obtain ⟨T', h1, h2, k1, t2, k2, k3, k4⟩ := b1.setState hex (fun hh => absurd hh hne) g s' g' e
        obtain ⟨τ, k5, k6⟩ := setState_both i1 _ g s' g' e
        have k7 : menuTimeouts c { s with now := nowAt t } = some (timeSet τ (stopRamping s')) := by
          rw [menuTimeouts_due i1.menu.screen (by show (holdTime s.menu.state).isSome = true; rw [hsu, hL]; rfl) he]
          show (menuSetState c _ (leadsTo s.menu.state)).map stopRamping = _
          rw [hsu, k5]
          rfl
        have k8 := menuTimeouts_eff i1 _ k7
        have q := Quiet.menuTimeouts (Quiet.refl _) c _ k7
        have i2 := inv_back (i1.menuTimeouts.elim k7) k6
        have b2 := k4.stop
        refine ⟨T', h1, h2, k1, ?_, t2, k2, k3, i2, ?_, ?_⟩
        · unfold failures
          rw [show s'.cc.emerg = s.cc.emerg from (congrArg ContrCurr.emerg q.cc :)]
          rw [show s'.ct.emergency = s.ct.emergency from q.emerg]
        · unfold Ui.leaveAt
          rw [hL]
          simp only []
          rw [if_pos he']
          exact b2
        · unfold Ui.leaveAt
          rw [hL]
          simp only []
          rw [if_pos he']
          rw [show (stopRamping s').set.cache = s.set.cache from (congrArg (·.cache) k8.set :)]
          exact h.vals
      have fin : SimB M (menuSetStateT c { s with now := nowAt t } (leadsTo u.screen) >>= fun s => pure (stopRamping s)) t
          fun T' s' => s'.btn = s.btn ∧ failures s' = failures s ∧ (s'.menu.ramp ≠ .none → s'.ct = s.ct) ∧
            ∃ t1 t2, T ≤ t1 ∧ t1 ≤ t2 ∧ t2 ≤ T' ∧ Full c T' s' (u.leaveAt t1 t2) :=
        SimB.bind key fun T' s' _ ⟨k1, k2, t2, k3, k4, k5⟩ => SimB.pure
          ⟨k1, k2, fun hh => absurd rfl hh, t, t2, ht, k3, k4, k5⟩
      refine SimB.ite (fun hidle => ?_) fun hidle => ?_
      · have : leadsTo u.screen = .curtemp := by
          rw [← hsu, show s.menu.state = .idletemp from hidle]; rfl
        rw [this] at fin
        exact fin
      · have := leadsTo_next h.inv.menu.screen (by rw [hsu, hL]; rfl) hidle
        rw [← hsu, ← this] at fin
        exact fin
    · refine SimB.pure ⟨rfl, rfl, fun _ => rfl, t, t, ht, Nat.le_refl _, Nat.le_refl _, ?_⟩
      have he' : ¬ u.since + L ≤ t := by
        have he : ¬ timerExpired (nowAt t) s.menu.timeout = true := he
        rw [hx] at he
        simpa using he
      unfold Ui.leaveAt
      rw [hL]
      simp only []
      rw [if_neg he']
      exact ⟨i1, b1, h.vals⟩

/-! ### the ramp -/

theorem ramp_both (hi : Inv c s) (r : RampHandler) (up : Bool) : Both (rampHandlerT c s r up) (rampHandler c s r up) :=
  Both.of (f := fun s => rampHandler c s r up) hi.now fun _ _ h => rampHandler_in h r up

/-- a step of the value: the preset is shown -/
theorem Beside.step (h : Beside T s u) {r : RampHandler}
    (hr : handlerFor u.screen = some r) (up : Bool) :
    SimT (rampHandlerT c s r up) T fun T' s' => s'.btn = s.btn ∧ ∃ t, T ≤ t ∧ t ≤ T' ∧
      Beside T' s' (if u.screen = .curtemp ∨ u.screen = .selpreset then u.enter t .chgpreset else u) := by
  have keep : ∀ {m : TM Sys}, ¬ (u.screen = .curtemp ∨ u.screen = .selpreset) → SimT m T (At s) →
      SimT m T fun T' s' => s'.btn = s.btn ∧ ∃ t, T ≤ t ∧ t ≤ T' ∧
      Beside T' s' (if u.screen = .curtemp ∨ u.screen = .selpreset then u.enter t .chgpreset else u) := by
    intro m hn hm
    exact hm.mono fun T' s' hT k => ⟨k.btn, T, Nat.le_refl _, hT, by rw [if_neg hn]; exact h.at k⟩
  have refl : At s T s := At.refl h.now
  cases r <;> unfold rampHandlerT <;> simp only []
  case settemp =>
    refine SimT.bindV fun sp _ => SimT.bindV fun sp' _ => SimT.bind (refl.presetsSet sp') fun T1 s1 hT k => ?_
    have b1 := h.at k
    by_cases hc : u.screen = .chgpreset
    · have : menuSetStateT c s1 .chgpreset = pure s1 := by
        unfold menuSetStateT
        rw [if_pos (b1.menu.screen.trans hc)]
      rw [this]
      exact SimT.pure ⟨k.btn, T1, hT, Nat.le_refl _, by rw [if_neg (by rw [hc]; simp)]; exact b1⟩
    · refine (b1.setState (c := c) (st := .chgpreset) rfl fun hh => absurd hh hc).mono
        fun T' s' _ ⟨k1, t, k2, k3, k4⟩ => ⟨k1.trans k.btn, t, by omega, k3, ?_⟩
      rw [if_pos]
      · exact k4
      · revert hr hc
        cases u.screen <;> simp [handlerFor]
  case idletemp =>
    refine keep ?_ (SimT.bindV fun sp _ => refl.idleSetpoint c _)
    rintro (hh | hh) <;> rw [hh] at hr <;> cases hr
  case adj =>
    refine keep ?_ (SimT.bindV fun sp _ => refl.adjust c _)
    rintro (hh | hh) <;> rw [hh] at hr <;> cases hr
  all_goals
    refine keep ?_ (refl.rampK c _ _ _ _ _)
    rintro (hh | hh) <;> rw [hh] at hr <;> cases hr

/-- the ramp in a call of the menu's work function -/
theorem Full.ramp (h : Full c T s u)
    (hw : ∀ t, T ≤ t → t ≤ M → u.ramp = .preUp ∨ u.ramp = .preDown → u.rampAt ≤ t ∧ t < u.rampAt + 1000 + 32768)
    (hg : ∀ t, T ≤ t → t ≤ M → Ramping u.ramp = true → u.rampAt ≤ t + 400 ∧ t < u.rampAt + 32768) :
    SimB M (menuRampT c s) T fun T' s' => s'.btn = s.btn ∧
      ∃ t1 t2, T ≤ t1 ∧ t1 ≤ t2 ∧ t2 ≤ T' ∧ UiRel s' (u.advanceAt t1 t2 s.ct.boost) := by
  have hsu := h.at_.menu.screen
  have hru := h.at_.menu.ramp
  have i1 : ∀ t, Inv c { s with now := nowAt t } := fun t => { h.inv with now := nowAt_rng t }
  have b1 : ∀ t, Beside t { s with now := nowAt t } u := fun t => ⟨rfl, h.at_.menu, h.at_.debug⟩
  have f1 : ∀ t, Full c t { s with now := nowAt t } u := fun t => ⟨i1 t, b1 t, h.vals⟩
  have pre : ∀ up : Bool, u.ramp = (if up then .preUp else .preDown) → SimB M (tickIn s >>= fun s =>
      if timerExpired s.now s.menu.rampPreTimer then startRampingT s (s.menu.ramp = .preUp) false s.menu.handler
      else return s) T fun T' s' => s'.btn = s.btn ∧ ∃ t1 t2, T ≤ t1 ∧ t1 ≤ t2 ∧ t2 ≤ T' ∧
        UiRel s' (if u.rampAt + 1000 ≤ t1 then { u with ramp := if up then .up else .down, rampAt := t2, period := 400 }
          else u) := by
    intro up hu
    have hu' : u.ramp = .preUp ∨ u.ramp = .preDown := by cases up <;> simp [hu]
    refine SimB.bind (SimB.of (SimT.tick h.at_.now)) fun t s1 ht ⟨htM, e1⟩ => ?_
    subst e1
    have hx : timerExpired (nowAt t) s.menu.rampPreTimer = decide (u.rampAt + 1000 ≤ t) := by
      obtain ⟨q1, q2⟩ := hw t ht htM hu'
      rw [h.at_.menu.wait hu']
      exact reach_expired (by omega) q2
    refine SimB.ite (fun he => ?_) fun he => ?_
    · have he : timerExpired (nowAt t) s.menu.rampPreTimer = true := he
      rw [hx] at he
      have he : u.rampAt + 1000 ≤ t := by simpa using he
      have hup : (decide ({ s with now := nowAt t }.menu.ramp = .preUp) : Bool) = up := by
        show decide (s.menu.ramp = .preUp) = up
        rw [hru, hu]
        cases up <;> rfl
      rw [hup]
      intro g s' g' _ e
      obtain ⟨T', h1, h2, k1, t2, k2, k3, k4⟩ := (b1 t).start up false s.menu.handler g s' g' e
      obtain ⟨τ, k5, -⟩ := Both.of (s := { s with now := nowAt t }) (f := fun s1 => startRamping s1 up false s.menu.handler)
        (nowAt_rng t) (fun _ _ h => startRamping_in h up false s.menu.handler) g s' g' e
      obtain ⟨pt, k6, -⟩ := startRamping_eff (s := { s with now := nowAt t }) up false s.menu.handler
      have k5 : startRamping { s with now := nowAt t } up false s.menu.handler = _ := k5
      rw [k6] at k5
      have k7 : s.set.cache = s'.set.cache := congrArg (·.set.cache) (Option.some.inj k5)
      refine ⟨T', h1, h2, k1, t, t2, ht, k2, k3, ?_⟩
      rw [if_pos he]
      exact ⟨⟨k4.menu.screen, k4.menu.ramp, by rw [← k7]; exact h.vals, k4.debug⟩, k4.menu.err, k4.menu.hold,
        k4.menu.wait, k4.menu.going⟩
    · have he : ¬ timerExpired (nowAt t) s.menu.rampPreTimer = true := he
      rw [hx] at he
      have he : ¬ u.rampAt + 1000 ≤ t := by simpa using he
      refine SimB.pure ⟨rfl, t, t, ht, Nat.le_refl _, Nat.le_refl _, ?_⟩
      rw [if_neg he]
      exact (f1 t).rel
  have go : Ramping u.ramp = true → SimB M (tickIn s >>= fun s =>
      if timerExpired s.now s.menu.rampTimer then do
        let h ← s.menu.handler
        let s ← rampHandlerT c s h (s.menu.ramp = .up)
        let t ← timerAdd s.menu.rampTimer s.menu.period
        return { s with menu := { s.menu with
          updReq := true, rampTimer := t,
          period := if s.menu.period > 25 then s.menu.period / 2 else s.menu.period } }
      else return s) T fun T' s' => s'.btn = s.btn ∧ ∃ t1 t2, T ≤ t1 ∧ t1 ≤ t2 ∧ t2 ≤ T' ∧
        UiRel s' (u.advanceAt t1 t2 s.ct.boost) := by
    intro hr
    refine SimB.bind (SimB.of (SimT.tick h.at_.now)) fun t s1 ht ⟨htM, e1⟩ => ?_
    subst e1
    obtain ⟨g1, g2, g3⟩ := h.at_.menu.going hr
    have hx : timerExpired (nowAt t) s.menu.rampTimer = decide (u.rampAt ≤ t) := by
      obtain ⟨q1, q2⟩ := hg t ht htM hr
      rw [g1]
      exact reach_expired (by omega) q2
    have hadv : ∀ t2, u.advanceAt t t2 s.ct.boost = if u.rampAt ≤ t then
        (if u.screen = .curtemp ∨ u.screen = .selpreset then Ui.enter { u with
          vals := stepValue u.vals s.ct.boost u.screen (decide (u.ramp = .up))
          rampAt := u.rampAt + u.period
          period := if u.period > 25 then u.period / 2 else u.period } t2 .chgpreset
        else { u with
          vals := stepValue u.vals s.ct.boost u.screen (decide (u.ramp = .up))
          rampAt := u.rampAt + u.period
          period := if u.period > 25 then u.period / 2 else u.period }) else u := by
      intro t2
      unfold Ui.advanceAt
      revert hr
      cases hr : u.ramp <;> intro hr' <;> first | (cases hr'; done) | rfl
    refine SimB.ite (fun he => ?_) fun he => ?_
    · have he : timerExpired (nowAt t) s.menu.rampTimer = true := he
      rw [hx] at he
      have he : u.rampAt ≤ t := by simpa using he
      obtain ⟨e1, e2⟩ := h.inv.menu.ramp (by intro hh; rw [hru] at hh; rw [hh] at hr; cases hr)
      obtain ⟨r, er⟩ := Option.isSome_iff_exists.mp e2
      have e3 : s.menu.handler = some r := e1.trans er
      refine SimB.bindV fun r' er' => ?_
      have er' : s.menu.handler = some r' := er'
      rw [e3] at er'
      cases er'
      have hup : (decide ({ s with now := nowAt t }.menu.ramp = .up) : Bool) = decide (u.ramp = .up) := by
        show decide (s.menu.ramp = .up) = _
        rw [hru]
      rw [hup]
      have hstep : SimT (rampHandlerT c { s with now := nowAt t } r (decide (u.ramp = .up))) t fun T' s' =>
          (s'.btn = s.btn ∧ ∃ t2, t ≤ t2 ∧ t2 ≤ T' ∧
            Beside T' s' (if u.screen = .curtemp ∨ u.screen = .selpreset then u.enter t2 .chgpreset else u)) ∧
          Inv c s' ∧ ∃ τ, Stepped { s with now := nowAt t } (timeSet τ s') (decide (u.ramp = .up)) :=
        SimT.both ((b1 t).step (c := c) (by rw [← hsu]; exact er) _) (ramp_both (i1 t) r _)
          fun s' es => ⟨(((i1 t).rampHandler _ er).elim es).1, (rampHandler_eff (i1 t) _ er s' es).2⟩
      refine SimB.bind (SimB.of hstep) fun T1 s1 hT ⟨_, ⟨k1, t2, k2, k3, k4⟩, i2, τ, st⟩ => ?_
      have hp := i2.menu.period
      rw [timerAdd_eq _ hp.1 (by omega)]
      refine SimB.bindV fun tt ett => ?_
      cases ett
      refine SimB.pure ⟨k1, t, t2, ht, k2, k3, ?_⟩
      rw [hadv, if_pos he]
      obtain ⟨hp1, hp2, hp3⟩ := g3.half
      obtain ⟨w, inc, lo, hi', w1, w2, w3⟩ := st
      have w1 : valueRange s.menu.state = some (inc, lo, hi') := w1
      have w2 : valueIn s.set.cache s.ct.boost s.menu.state = some w := w2
      have w3 : s1.set.cache = withValue s.set.cache s.ct.boost
        (max lo (min hi' (if decide (u.ramp = .up) = true then w + inc else w - inc))) s.menu.state := w3
      rw [hsu] at w1 w2 w3
      rw [valueIn_same h.vals] at w2
      have hval : SameVals s1.set.cache (stepValue u.vals s.ct.boost u.screen (decide (u.ramp = .up))) := by
        rw [w3]
        unfold stepValue
        simp only [w1, w2]
        exact withValue_same h.vals _ _ _
      have hun : (if u.screen = .curtemp ∨ u.screen = .selpreset then u.enter t2 .chgpreset else u).ramp = u.ramp ∧
          (if u.screen = .curtemp ∨ u.screen = .selpreset then u.enter t2 .chgpreset else u).rampAt = u.rampAt ∧
          (if u.screen = .curtemp ∨ u.screen = .selpreset then u.enter t2 .chgpreset else u).period = u.period := by
        split <;> exact ⟨rfl, rfl, rfl⟩
      obtain ⟨m1, m2, m3⟩ := k4.menu.going (by rw [hun.1]; exact hr)
      rw [hun.2.1] at m1
      rw [hun.2.2] at m2
      have nw : ¬ (u.ramp = .preUp ∨ u.ramp = .preDown) := by
        rintro (hh | hh) <;> rw [hh] at hr <;> cases hr
      have tim : toU16 (s1.menu.rampTimer + toU16 s1.menu.period) = nowAt (u.rampAt + u.period) := by
        rw [m1, m2]
        unfold toU16 nowAt
        omega
      have per : (if s1.menu.period > 25 then s1.menu.period / 2 else s1.menu.period) =
          ((if u.period > 25 then u.period / 2 else u.period : Nat) : Int) := by
        rw [m2]
        split <;> split <;> omega
      have fin : ∀ u' : Ui, Beside T1 s1 u' → u'.ramp = u.ramp → UiRel { s1 with menu := { s1.menu with
          updReq := true, rampTimer := toU16 (s1.menu.rampTimer + toU16 s1.menu.period),
          period := if s1.menu.period > 25 then s1.menu.period / 2 else s1.menu.period } } { u' with
          vals := stepValue u.vals s.ct.boost u.screen (decide (u.ramp = .up))
          rampAt := u.rampAt + u.period
          period := if u.period > 25 then u.period / 2 else u.period } := by
        intro u' b hur
        exact ⟨⟨b.menu.screen, b.menu.ramp, hval, b.debug⟩, b.menu.err, b.menu.hold,
          fun hh => absurd (by rw [← hur]; exact hh) nw, fun _ => ⟨tim, per, hp1⟩⟩
      by_cases hsc : u.screen = .curtemp ∨ u.screen = .selpreset
      · rw [if_pos hsc] at k4 ⊢
        exact fin _ k4 rfl
      · rw [if_neg hsc] at k4 ⊢
        exact fin _ k4 rfl
    · have he : ¬ timerExpired (nowAt t) s.menu.rampTimer = true := he
      rw [hx] at he
      have he : ¬ u.rampAt ≤ t := by simpa using he
      refine SimB.pure ⟨rfl, t, t, ht, Nat.le_refl _, Nat.le_refl _, ?_⟩
      rw [hadv, if_neg he]
      exact (f1 t).rel
  unfold menuRampT
  rw [hru]
  cases hr : u.ramp <;> simp only []
  · refine SimB.pure ⟨rfl, T, T, Nat.le_refl _, Nat.le_refl _, Nat.le_refl _, ?_⟩
    unfold Ui.advanceAt
    rw [hr]
    exact h.rel
  · exact go (by rw [hr]; rfl)
  · exact go (by rw [hr]; rfl)
  · refine (pre true (by rw [hr]; rfl)).mono fun T' s' _ ⟨k1, t1, t2, k2, k3, k4, k5⟩ => ⟨k1, t1, t2, k2, k3, k4, ?_⟩
    unfold Ui.advanceAt
    rw [hr]
    exact k5
  · refine (pre false (by rw [hr]; rfl)).mono fun T' s' _ ⟨k1, t1, t2, k2, k3, k4, k5⟩ => ⟨k1, t1, t2, k2, k3, k4, ?_⟩
    unfold Ui.advanceAt
    rw [hr]
    exact k5

theorem leaveAt_cases (u : Ui) (t1 t2 : Nat) : u.leaveAt t1 t2 = u ∨ (u.leaveAt t1 t2).ramp = .none := by
  unfold Ui.leaveAt
  split
  · split
    · exact Or.inr rfl
    · exact Or.inl rfl
  · exact Or.inl rfl

theorem fail_cases (u : Ui) (f : Bool × Bool) : u.fail f = u ∨ (u.fail f).ramp = .none := by
  unfold Ui.fail
  split
  · exact Or.inl rfl
  · exact Or.inr rfl

theorem advanceAt_none (h : u.ramp = .none) (t1 t2 b : Nat) : u.advanceAt t1 t2 b = u := by
  unfold Ui.advanceAt
  rw [h]

/-- a call of `menu_work` -/
theorem Full.work (h : Full c T s u) (hr : ∀ t, T ≤ t → t ≤ M → InReach u t) :
    SimB M (menuWorkT c s) T fun T' s' => s'.btn = s.btn ∧ ∃ u', UiWork T T' (failures s) s.ct.boost u u' ∧ UiRel s' u' := by
  unfold menuWorkT
  refine SimB.bind (h.timeouts hr) fun T1 s1 hT1 ⟨e1, ef, ec, t1, t2, k1, k2, k3, f1⟩ => ?_
  simp only []
  obtain ⟨up, hh, em, -⟩ := menuIndicate_eff s1
  have f2 : Full c T1 (menuIndicate s1) ((u.leaveAt t1 t2).fail (failures s)) := by
    have m := f1.at_.menu.fail (failures s)
    have hv : ((u.leaveAt t1 t2).fail (failures s)).vals = (u.leaveAt t1 t2).vals ∧
        ((u.leaveAt t1 t2).fail (failures s)).debug = (u.leaveAt t1 t2).debug := by
      unfold Ui.fail
      split <;> exact ⟨rfl, rfl⟩
    refine ⟨f1.inv.menuIndicate, ?_, ?_⟩
    · rw [em, menuError_no, ef]
      exact ⟨f1.at_.now, ⟨m.screen, m.ramp, m.err, m.hold, m.wait, m.going⟩, f1.at_.debug.trans hv.2.symm⟩
    · rw [em, hv.1]
      exact f1.vals
  have hc : ((u.leaveAt t1 t2).fail (failures s)) = u ∨ ((u.leaveAt t1 t2).fail (failures s)).ramp = .none := by
    rcases fail_cases (u.leaveAt t1 t2) (failures s) with e | e
    · rw [e]
      exact leaveAt_cases u t1 t2
    · exact Or.inr e
  refine SimB.bind (f2.ramp (M := M) (fun t ht htM hp => ?_) (fun t ht htM hp => ?_))
    fun T2 s2 hT2 ⟨e2, t3, t4, q1, q2, q3, r⟩ => ?_
  · rcases hc with e | e
    · rw [e] at hp ⊢
      exact (hr t (by omega) htM).wait hp
    · rw [e] at hp
      rcases hp with hp | hp <;> cases hp
  · rcases hc with e | e
    · rw [e] at hp ⊢
      exact (hr t (by omega) htM).going hp
    · rw [e] at hp
      cases hp
  · intro g s3 g' _ e3
    obtain ⟨T', h1, h2, k, kset, -⟩ := (SimT.lift (o := menuRefresh c s2) (Q := fun T' s3 => MenuKept s2 s3 ∧ s3.set = s2.set ∧
      s3.menu.updReq = false) (fun s3 e => menuRefresh_eff s3 e) : SimT _ T2 _) g s3 g' e3
    have em2 : (menuIndicate s1).btn = s1.btn ∧ (menuIndicate s1).ct = s1.ct := by rw [em]; exact ⟨rfl, rfl⟩
    refine ⟨T', h1, h2, ?_, _, ⟨t1, t2, t3, t4, k1, k2, by omega, q2, by omega, rfl⟩, ?_⟩
    · rw [k.btn, e2, em2.1, e1]
    · have hb : ((u.leaveAt t1 t2).fail (failures s)).advanceAt t3 t4 s.ct.boost =
          ((u.leaveAt t1 t2).fail (failures s)).advanceAt t3 t4 (menuIndicate s1).ct.boost := by
        by_cases hn : ((u.leaveAt t1 t2).fail (failures s)).ramp = .none
        · rw [advanceAt_none hn, advanceAt_none hn]
        · have e : (u.leaveAt t1 t2).fail (failures s) = u.leaveAt t1 t2 :=
            (fail_cases (u.leaveAt t1 t2) (failures s)).resolve_right hn
          rw [e] at hn
          rw [em2.2, ec (by rw [f1.at_.menu.ramp]; exact hn)]
      rw [hb]
      exact r.kept k.menu (by rw [kset]; rfl) k.debugEn

end Verif
