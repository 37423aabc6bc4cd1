import Verif.Spec.UiIn
import Verif.Proofs.Ui
import Verif.Proofs.InsideKeep
/-
The functions of the menu with ticks inside: when things happen.
-/
namespace Verif
open Spec Props

/-- every result of a computation that begins at the time `T` has the property at the time of its end -/
def SimT (m : TM Sys) (T : Nat) (Q : Nat → Sys → Prop) : Prop :=
  ∀ g s' g', m g = some (s', g') → ∃ T', T ≤ T' ∧ T' + g'.sum = T + g.sum ∧ Q T' s'

namespace SimT
variable {T : Nat} {P Q : Nat → Sys → Prop}

theorem pure {s : Sys} (h : Q T s) : SimT (Pure.pure s) T Q := by
  intro g s' g' e
  have e : some (s, g) = some (s', g') := e
  cases e
  exact ⟨T, Nat.le_refl _, rfl, h⟩

theorem fail : SimT failure T Q := fun _ _ _ e => by cases e

theorem lift {o : Option Sys} (h : ∀ s, o = some s → Q T s) : SimT (liftM o) T Q := by
  intro g s' g' e
  cases o with
  | none => cases e
  | some s =>
    have e : some (s, g) = some (s', g') := e
    cases e
    exact ⟨T, Nat.le_refl _, rfl, h _ rfl⟩

theorem bind {m : TM Sys} {f : Sys → TM Sys} (h : SimT m T P) (hf : ∀ T1 s, T ≤ T1 → P T1 s → SimT (f s) T1 Q) :
    SimT (m >>= f) T Q := by
  intro g y g' e
  have e : (m g).bind (fun p => f p.1 p.2) = some (y, g') := e
  obtain ⟨⟨x, g1⟩, e1, e⟩ := Option.bind_eq_some_iff.mp e
  obtain ⟨T1, h1, h2, h3⟩ := h _ _ _ e1
  obtain ⟨T2, k1, k2, k3⟩ := hf T1 x h1 h3 _ _ _ e
  have k2 : T2 + g'.sum = T1 + g1.sum := k2
  exact ⟨T2, by omega, by omega, k3⟩

theorem bindV {α : Type} {o : Option α} {f : α → TM Sys} (hf : ∀ x, o = some x → SimT (f x) T Q) :
    SimT (liftM o >>= f) T Q := by
  cases o with
  | none => intro g s' g' e; cases e
  | some x => exact hf x rfl

theorem ite {p : Prop} [Decidable p] {x y : TM Sys} (h : p → SimT x T Q) (h' : ¬ p → SimT y T Q) :
    SimT (if p then x else y) T Q := by
  split
  · exact h ‹_›
  · exact h' ‹_›

theorem mono {m : TM Sys} (h : SimT m T P) (hq : ∀ T' s, T ≤ T' → P T' s → Q T' s) : SimT m T Q := by
  intro g s' g' e
  obtain ⟨T', h1, h2, h3⟩ := h g s' g' e
  exact ⟨T', h1, h2, hq _ _ h1 h3⟩

theorem tick {s : Sys} (hn : s.now = nowAt T) : SimT (tickIn s) T fun T' s' => s' = { s with now := nowAt T' } := by
  intro g s' g' e
  cases e
  refine ⟨T + g.headD 0, by omega, ?_, ?_⟩
  · cases g
    · simp
    · simp; omega
  · rw [hn]
    congr 1
    unfold toU16 nowAt
    omega
end SimT

variable {c : Conf} {s a : Sys} {u : Ui} {T : Nat}

/-- the menu, the buttons and the debug switch are those of `a`, at the time `T` -/
def At (a : Sys) (T : Nat) (s : Sys) : Prop := MenuKept { a with now := nowAt T } s

theorem At.refl (hn : s.now = nowAt T) : At s T s := ⟨hn, rfl, rfl, _, rfl⟩

theorem At.now (h : At a T s) : s.now = nowAt T := MenuKept.now h

theorem At.tick (h : At a T s) : SimT (tickIn s) T (At a) :=
  (SimT.tick h.now).mono fun T' s' _ e => by
    subst e
    exact ⟨rfl, h.btn, h.debugEn, h.menu⟩

theorem At.post {o : Option Sys} {P : Sys → Prop} (h : Post o fun s' => At a T s' ∧ P s') :
    SimT (liftM o) T (At a) := SimT.lift fun s' e => (h s' e).1

theorem At.store (h : At a T s) : SimT (sysStoreT s) T (At a) :=
  SimT.bind h.tick fun _ _ _ h => At.post (MenuKept.sysStore h)

theorem At.setCache (h : At a T s) (x : Settings) : At a T (setCache s x) := MenuKept.withCache h x

theorem At.update (h : At a T s) : At a T (menuRequestUpdate s) := MenuKept.req h

theorem At.setpoint (h : At a T s) : SimT (liftM (contrtempUpdateSetpoint s)) T (At a) :=
  At.post (MenuKept.updateSetpoint h)

theorem At.idleSetpoint (h : At a T s) (c : Conf) (w : Int) : SimT (contrtempSetIdleSetpointT c s w) T (At a) :=
  SimT.ite (fun _ => SimT.bind (h.setCache _).setpoint fun _ _ _ h => h.store) fun _ => SimT.pure h

theorem At.enabled (h : At a T s) (c : Conf) (b : Bool) : SimT (contrtempSetEnabledT c s b) T (At a) := by
  refine SimT.ite (fun hb => ?_) fun _ => SimT.pure h
  refine SimT.bind h.tick fun T1 s1 _ h1 => SimT.lift fun s' e => ?_
  unfold contrtempDoSetEnabled at e
  refine (Post.bind ((MenuKept.withCt h1 _).setBoost 0) (Q := At a T1) (fun s2 h2 => Post.pure ?_)) s' e
  exact { h2.1 with }

theorem At.presetsStore (h : At a T s) : SimT (presetsStoreT s) T (At a) :=
  SimT.bind h.store fun _ _ _ h => SimT.bind h.setpoint fun _ _ _ h => SimT.pure h.update

theorem At.presetsSet (h : At a T s) (v : Int) : SimT (presetsSetActiveT s v) T (At a) :=
  SimT.bindV fun _ _ => (h.setCache _).presetsStore

theorem At.adjust (h : At a T s) (c : Conf) (w : Int) : SimT (meastempAdjustSetT c s w) T (At a) := by
  refine SimT.ite (fun hc => ?_) fun _ => SimT.pure h
  have h1 : At a T (Verif.setCache (measureAdjustSet c s w) { (measureAdjustSet c s w).set.cache with adj := w }) := by
    unfold measureAdjustSet
    rw [if_pos hc]
    exact { h with }
  exact SimT.bind h1.store fun _ _ _ h => SimT.pure h.update

theorem At.rampK (h : At a T s) (c : Conf) (get : PidK → Int) (put : PidK → Int → PidK) (inc hi : Int) (up : Bool) :
    SimT (doRampKT c s get put inc hi up) T (At a) := by
  unfold doRampKT
  simp only []
  split
  · split
    all_goals
      exact SimT.bindV fun _ _ => SimT.bindV fun _ _ => SimT.bind (h.setCache _).store fun _ _ _ h =>
        At.post (MenuKept.setBoost h _)
  · exact SimT.fail

theorem At.iron (h : At a T s) (c : Conf) (b : Button) (e : BState) : SimT (contrtempButtonT c s b e) T (At a) :=
  SimT.ite (fun _ => SimT.bind h.tick fun _ _ _ h => SimT.lift fun s' e => MenuKept.ironButton h _ _ s' e) fun _ =>
    SimT.lift fun s' e => MenuKept.ironButton h _ _ s' e

/-! ### the relation -/

/-- the firmware at the time `T` is where the user interface is, but for the values and the pins -/
structure Beside (T : Nat) (s : Sys) (u : Ui) : Prop where
  now : s.now = nowAt T
  menu : MenuRel s.menu u
  debug : s.debugEn = u.debug

theorem MenuRel.req {m m' : Menu} (h : MenuRel m u) (e : ∃ w, m' = { m with updReq := w }) : MenuRel m' u := by
  obtain ⟨w, rfl⟩ := e
  exact { h with }

theorem Beside.at (h : Beside T s u) {T' : Nat} {s' : Sys} (k : At s T' s') : Beside T' s' u :=
  ⟨k.now, h.menu.req k.menu, k.debugEn.trans h.debug⟩

theorem MenuRel.hold' {m : Menu} (h : MenuRel m u) {L t : Nat} {x : Int} (hL : holdTime u.screen = some L)
    (hx : x = nowAt (t + L)) : MenuRel { m with timeout := x } { u with since := t } :=
  ⟨h.screen, h.ramp, h.err, fun L' hL' => by
    have hL' : holdTime u.screen = some L' := hL'
    rw [hL] at hL'; cases hL'; exact hx, h.wait, h.going⟩

theorem arm_now (t L : Nat) : toU16 (nowAt t + L) = nowAt (t + L) := by unfold toU16 nowAt; omega

theorem Beside.arm (h : Beside T s u) (hL : holdTime u.screen = some 3000) :
    SimT (menuArmT s 3000) T fun T' s' => s'.btn = s.btn ∧ Beside T' s' (u.touch T') := by
  refine SimT.bind (SimT.tick h.now) fun T1 s1 _ e1 => SimT.lift fun s' e => ?_
  subst e1
  rw [menuArm_hold _ (by decide)] at e
  cases e
  unfold Ui.touch
  rw [if_pos hL]
  exact ⟨rfl, rfl, h.menu.hold' hL (arm_now T1 3000), h.debug⟩

theorem MenuRel.entry {m : Menu} (h : MenuRel m u) (t : Nat) (st : MenuState) :
    MenuRel { m with state := st, timeout := entryTimeout (nowAt t) st m.timeout } (u.enter t st) :=
  ⟨rfl, h.ramp, h.err, fun _ hL => entry_hold hL, h.wait, h.going⟩

/-- another screen -/
theorem Beside.setState (h : Beside T s u) {st : MenuState} (hs : ScreenExists c st = true)
    (hne : u.screen = st → holdTime st = none) :
    SimT (menuSetStateT c s st) T fun T' s' => s'.btn = s.btn ∧ ∃ t, T ≤ t ∧ t ≤ T' ∧ Beside T' s' (u.enter t st) := by
  unfold menuSetStateT
  refine SimT.ite (fun he => ?_) fun he => ?_
  · refine SimT.pure ⟨rfl, T, Nat.le_refl _, Nat.le_refl _, h.now, ?_, h.debug⟩
    have hsc : u.screen = st := h.menu.screen.symm.trans he
    refine ⟨he, h.menu.ramp, h.menu.err, fun L hL => ?_, h.menu.wait, h.menu.going⟩
    have hL : holdTime st = some L := hL
    rw [hne hsc] at hL; cases hL
  · refine SimT.bind (P := fun T' s' => ∃ t, T ≤ t ∧ t ≤ T' ∧
        At { s with menu := { s.menu with state := st, timeout := entryTimeout (nowAt t) st s.menu.timeout } } T' s') ?_
      fun T' s' _ ⟨t, t1, t2, k⟩ => SimT.pure ⟨k.update.btn, t, t1, t2, ?_⟩
    · have arm : ∀ L : Nat, L ≤ 32767 → holdTime st = some L →
          SimT (menuArmT { s with menu := { s.menu with state := st } } L) T fun T' s' =>
            At { s with menu := { s.menu with state := st, timeout := entryTimeout (nowAt T') st s.menu.timeout } } T' s' := by
        intro L hl hL
        refine SimT.bind (SimT.tick h.now) fun T1 s1 _ e1 => SimT.lift fun s' e => ?_
        subst e1
        rw [menuArm_hold _ (by omega)] at e
        cases e
        refine ⟨rfl, rfl, rfl, s.menu.updReq, ?_⟩
        unfold entryTimeout
        rw [hL]
      have en : ∀ b, holdTime st = none → SimT (contrtempSetEnabledT c { s with menu := { s.menu with state := st } } b) T
          fun T' s' => ∃ t, T ≤ t ∧ t ≤ T' ∧
            At { s with menu := { s.menu with state := st, timeout := entryTimeout (nowAt t) st s.menu.timeout } } T' s' := by
        intro b hL
        refine (At.enabled (At.refl (s := { s with menu := { s.menu with state := st } }) h.now) c b).mono fun T' s' hT k => ⟨T, Nat.le_refl _, hT, ?_⟩
        unfold entryTimeout
        rw [hL]
        exact k
      have arm' : ∀ L : Nat, L ≤ 32767 → holdTime st = some L →
          SimT (menuArmT { s with menu := { s.menu with state := st } } L) T fun T' s' => ∃ t, T ≤ t ∧ t ≤ T' ∧
            At { s with menu := { s.menu with state := st, timeout := entryTimeout (nowAt t) st s.menu.timeout } } T' s' :=
        fun L hl hL => (arm L hl hL).mono fun T' s' hT k => ⟨T', hT, Nat.le_refl _, k⟩
      have armEn : ∀ L : Nat, L ≤ 32767 → holdTime st = some L →
          SimT (menuArmT { s with menu := { s.menu with state := st } } L >>= fun s => contrtempSetEnabledT c s false) T
          fun T' s' => ∃ t, T ≤ t ∧ t ≤ T' ∧
            At { s with menu := { s.menu with state := st, timeout := entryTimeout (nowAt t) st s.menu.timeout } } T' s' :=
        fun L hl hL => SimT.bind (arm L hl hL) fun T1 s1 hT k => (k.enabled c false).mono fun T' s' hT' k' =>
          ⟨T1, hT, hT', k'⟩
      cases st <;> simp only [ScreenExists] at hs <;>
        simp only [menuEnterT, hs, Bool.not_true, Bool.false_eq_true, if_false]
      all_goals first
        | exact en _ rfl
        | exact arm' 3000 (by decide) rfl
        | exact armEn 1500 (by decide) rfl
        | exact SimT.pure ⟨T, Nat.le_refl _, Nat.le_refl _, ⟨h.now, rfl, rfl, s.menu.updReq, rfl⟩⟩
    · have b0 : MenuRel { s.menu with state := st, timeout := entryTimeout (nowAt t) st s.menu.timeout } (u.enter t st) :=
        h.menu.entry t st
      exact ⟨k.update.now, b0.req k.update.menu, k.update.debugEn.trans h.debug⟩

/-- the end of a ramp -/
theorem Beside.stop (h : Beside T s u) : Beside T (stopRamping s) { u with ramp := .none } :=
  ⟨h.now, ⟨h.menu.screen, rfl, h.menu.err, h.menu.hold, (fun hr => by rcases hr with hr | hr <;> cases hr),
    fun hr => by cases hr⟩, h.debug⟩

/-- the beginning of a ramp -/
theorem Beside.start (h : Beside T s u) (up pre : Bool) (r : Option RampHandler) :
    SimT (startRampingT s up pre r) T fun T' s' => s'.btn = s.btn ∧ ∃ t, T ≤ t ∧ t ≤ T' ∧
      Beside T' s' { u with ramp := if pre then (if up then .preUp else .preDown) else (if up then .up else .down),
                            rampAt := t, period := 400 } := by
  unfold startRampingT
  cases pre
  · simp only [Bool.false_eq_true, if_false]
    refine SimT.bind (P := fun T' s' => T' = T ∧ s' = { s with menu := { s.menu with ramp := if up = true then .up else .down } })
      (SimT.pure ⟨rfl, rfl⟩) fun T0 s0 _ ⟨eT, e0⟩ => ?_
    subst eT
    refine SimT.bind (SimT.tick (by subst e0; exact h.now)) fun T1 s1 h1 e => SimT.pure ⟨by subst e; subst e0; rfl, T1, h1, Nat.le_refl _, ?_⟩
    subst e0
    subst e
    refine ⟨rfl, ⟨h.menu.screen, rfl, h.menu.err, h.menu.hold, fun hr => ?_, fun _ => ⟨rfl, rfl, Or.inl rfl⟩⟩, h.debug⟩
    cases up <;> rcases hr with hr | hr <;> cases hr
  · simp only [if_true]
    refine SimT.bind (SimT.tick h.now) fun T1 s1 h1 e => SimT.bindV fun t et => ?_
    subst e
    rw [timerArm_eq _ (by decide) (by decide), toU16_add _ (by decide)] at et
    cases et
    refine SimT.bind (P := fun T' s' => T' = T1 ∧ s' = { s with now := nowAt T1, menu := { s.menu with
        ramp := if up = true then .preUp else .preDown, rampPreTimer := nowAt (T1 + 1000) } })
      (SimT.pure ⟨rfl, by rw [← arm_now T1 1000]; rfl⟩) fun T0 s0 _ ⟨eT, e0⟩ => ?_
    subst eT
    refine SimT.bind (SimT.tick (by subst e0; rfl)) fun T2 s2 h2 e2 => SimT.pure ⟨by subst e2; subst e0; rfl, T0, h1, h2, ?_⟩
    subst e2
    subst e0
    refine ⟨rfl, ⟨h.menu.screen, rfl, h.menu.err, h.menu.hold, fun _ => rfl, fun hr => ?_⟩, h.debug⟩
    cases up <;> cases hr

end Verif
