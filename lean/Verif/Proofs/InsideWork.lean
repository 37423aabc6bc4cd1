import Verif.Proofs.Inside
/-
Each work function with ticks inside, compared to a call at one instant.
-/
namespace Verif
open Spec

variable {N : Nat} {Q : Int → Int → Int → Int → Int → Prop} {B : Int → Int → Int → Prop} {g : List Nat} {a : Sys}
  {τ : Times} {c : Conf}

/-- a call with the ticks `g` inside does, apart from the times, what a call does at the instant of its beginning with
    slightly other times remembered -/
def AtOnce (c : Conf) (s : Sys) (e : Ev) (g : List Nat) : Prop :=
  ∃ t, t.now = s.now ∧ SameBut g.sum s t ∧
    ((workT c s e g = none ∧ step c t e = none) ∨
      ∃ s' g' t', workT c s e g = some (s', g') ∧ step c t e = some t' ∧ SameBut g.sum s' t' ∧ t'.now = s.now ∧
        (0 ≤ s.now ∧ s.now ≤ 65535 → ∃ k : Nat, k + g'.sum = g.sum ∧ s'.now = toU16 (s.now + k)))

theorem Close.sameBut (h : Close N Q B g a τ) : SameBut N a (timeSet τ a) :=
  ⟨rfl, h.nowApart, h.store, h.avg, h.plaus0, h.plaus1, h.curr, h.iron, h.temp, h.timeout, h.ramp, h.pre, h.debounce,
    h.mux⟩

theorem AtOnce.of {Q'} {B'} {e : Ev} (τ : Times) (hn : τ.now = a.now) (h : Close g.sum Q' B' g a τ)
    (hs : Sim g.sum (AtQ a.now) AnyB (workT c a e) (step c (timeSet τ a) e) g) : AtOnce c a e g := by
  refine ⟨timeSet τ a, hn, h.sameBut, ?_⟩
  rcases hs with h | ⟨a', g', τ', h1, h2, h3⟩
  · exact .inl h
  · refine .inr ⟨a', g', _, h1, h2, h3.sameBut, h3.q, fun hr => ?_⟩
    obtain ⟨k, hk, e⟩ := h3.now
    have hq : τ'.now = a.now := h3.q
    have := h3.rng (by rw [hq]; exact hr)
    rw [hq] at hk
    exact ⟨k, e, by unfold toU16; omega⟩

theorem Close.refl (g : List Nat) (a : Sys) (h : Q a.menu.rampTimer a.menu.rampTimer a.menu.rampPreTimer a.menu.rampPreTimer a.now)
    (h' : B a.ct.biTimer a.ct.biTimer a.now) : Close g.sum Q B g a (timesOf a) where
  now := ⟨0, by simp [timesOf], by omega⟩
  rng := id
  store := apart_refl _ _
  avg := apart_refl _ _
  plaus0 := apart_refl _ _
  plaus1 := apart_refl _ _
  curr := apart_refl _ _
  iron := apart_refl _ _
  temp := apart_refl _ _
  timeout := apart_refl _ _
  ramp := apart_refl _ _
  pre := apart_refl _ _
  debounce := apart_refl _ _
  mux := apart_refl _ _
  q := h
  b := h'

theorem head_le_sum (g : List Nat) : g.headD 0 ≤ g.sum := by cases g <;> simp

/-- a time moved by at most the ticks inside -/
theorem apart_moved {n k : Nat} (h : k ≤ n) (x : Int) {y d : Int} (hd : (d - k) % 65536 = 0) (e : y = x - d) : Apart n x y :=
  ⟨k, by omega, by omega, by subst e; omega⟩

/-! ### display and settings -/

theorem displayWork_atOnce (c : Conf) (s : Sys) (g : List Nat) : AtOnce c s .displayWork g := by
  let κ : Int := toU16 (s.now + g.headD 0)
  let τ : Times := { timesOf s with mux := s.disp.muxTimer - (κ - s.now) }
  have h0 : Close g.sum (AtQ s.now) AnyB g s (timesOf s) := Close.refl g s rfl trivial
  have h : Close g.sum (AtQ s.now) AnyB g s τ :=
    { h0 with mux := apart_moved (head_le_sum g) _ (d := κ - s.now) (by simp only [κ]; unfold toU16; omega) rfl }
  refine AtOnce.of τ rfl h ?_
  refine Sim.tick h fun n hn h => Sim.lift ?_
  have e : timerExpired n s.disp.muxTimer = timerExpired s.now (s.disp.muxTimer - (κ - s.now)) :=
    expired_congr (by simp only [κ, hn]; omega)
  show Lk _ _ _ _ ((displayWork n s.ports s.disp).bind _)
    ((displayWork s.now s.ports { s.disp with muxTimer := s.disp.muxTimer - (κ - s.now) }).bind _)
  unfold displayWork
  simp only [e, timerAdd_eq _ (show (0 : Int) ≤ 1 by decide) (show (1 : Int) ≤ 32767 by decide)]
  by_cases hd : (!s.disp.enabled) = true
  · rw [if_pos hd, if_pos hd]
    exact .inr ⟨_, τ, rfl, rfl, h⟩
  · rw [if_neg hd, if_neg hd]
    by_cases hx : (!timerExpired s.now (s.disp.muxTimer - (κ - s.now))) = true
    · rw [if_pos hx, if_pos hx]
      exact .inr ⟨_, τ, rfl, rfl, h⟩
    · rw [if_neg hx, if_neg hx]
      simp only [Option.bind_eq_bind, Option.bind_some]
      cases s.disp.digit[s.disp.mux]? with
      | none => exact .inl ⟨rfl, rfl⟩
      | some x =>
        simp only [Option.bind_some]
        cases s.disp.digit[ringNext s.disp.mux 3]? with
        | none => exact .inl ⟨rfl, rfl⟩
        | some y =>
          simp only [Option.bind_some]
          cases ssegMultiplex s.ports x.sseg y.sseg with
          | none => exact .inl ⟨rfl, rfl⟩
          | some p =>
            exact .inr ⟨_, { τ with mux := toU16 (τ.mux + toU16 1) }, rfl, rfl, { h with mux := apart_add h.mux _ }⟩

theorem settingsWork_store {n n' x : Int} {q : SettingsSt} (e : timerExpired n q.storeTimer = timerExpired n' x) :
    (settingsWork c n' { q with storeTimer := x }).1 = { (settingsWork c n q).1 with storeTimer := x } := by
  obtain ⟨st, sr, ca, ix, off, er, ee, pr⟩ := q
  simp only at e
  unfold settingsWork
  simp only [e]
  cases sr
  · rfl
  · cases timerExpired n' x
    · rfl
    · cases c.eering <;> rfl

theorem settingsWork_atOnce (c : Conf) (s : Sys) (g : List Nat) : AtOnce c s .settingsWork g := by
  let κ : Int := toU16 (s.now + g.headD 0)
  let τ : Times := { timesOf s with store := s.set.storeTimer - (κ - s.now) }
  have h0 : Close g.sum (AtQ s.now) AnyB g s (timesOf s) := Close.refl g s rfl trivial
  have h : Close g.sum (AtQ s.now) AnyB g s τ :=
    { h0 with store := apart_moved (head_le_sum g) _ (d := κ - s.now) (by simp only [κ]; unfold toU16; omega) rfl }
  refine AtOnce.of τ rfl h ?_
  refine Sim.tick h fun n hn h => Sim.lift (.inr ?_)
  have e : timerExpired n s.set.storeTimer = timerExpired s.now (s.set.storeTimer - (κ - s.now)) :=
    expired_congr (by simp only [κ, hn]; omega)
  refine ⟨_, τ, rfl, ?_, ?_⟩
  · show some ({ timeSet τ s with set := (settingsWork c s.now { s.set with storeTimer := τ.store }).1 } : Sys) = _
    rw [settingsWork_store e]
    rfl
  · have hs : ((settingsWork c n s.set).1).storeTimer = s.set.storeTimer := by
      unfold settingsWork
      repeat' split
      all_goals rfl
    exact { h with store := by show Apart _ ((settingsWork c n s.set).1).storeTimer _; rw [hs]; exact h.store }

/-! ### menu -/

theorem menuIndicate_now (s : Sys) : (menuIndicate s).now = s.now := by
  have e1 : ∀ s : Sys, (stopRamping s).now = s.now := fun s => rfl
  unfold menuIndicate
  by_cases h1 : menuError s ≠ s.menu.dispErr
  · rw [if_pos h1]
    simp only []
    split <;> rfl
  · rw [if_neg h1]
    simp only []
    split <;> rfl

theorem menuWork_atOnce (c : Conf) (s : Sys) (g : List Nat) : AtOnce c s .menuWork g := by
  let κ : Int := toU16 (s.now + g.headD 0)
  let τ1 : Times := { timesOf s with timeout := s.menu.timeout - (κ - s.now) }
  have h0 : Close g.sum (AtQ s.now) AnyB g s (timesOf s) := Close.refl g s rfl trivial
  have h1 : Close g.sum (AtQ s.now) AnyB g s τ1 :=
    { h0 with timeout := apart_moved (head_le_sum g) _ (d := κ - s.now) (by simp only [κ]; unfold toU16; omega) rfl }
  have e1 : (toU16 (s.now + g.headD 0) - s.menu.timeout - (s.now - (s.menu.timeout - (κ - s.now)))) % 65536 = 0 := by
    simp only [κ]; omega
  -- the instant at which the timer of the ramp is looked at
  obtain ⟨κ2, k2, hk2, hκ2, hread⟩ : ∃ (κ2 : Int) (k2 : Nat), k2 ≤ g.sum ∧ (κ2 - s.now - k2) % 65536 = 0 ∧
      ∀ a' g', menuTimeoutsT c s g = some (a', g') → κ2 = toU16 (a'.now + g'.headD 0) := by
    rcases menuTimeouts_in (c := c) h1 e1 with ⟨hx, -⟩ | ⟨a', g', τ', hx, -, hc⟩
    · exact ⟨s.now, 0, by omega, by omega, fun a' g' hh => by rw [hx] at hh; cases hh⟩
    · obtain ⟨k, e, hk⟩ := hc.now
      have hb : τ'.now = s.now := hc.q
      have := head_le_sum g'
      refine ⟨toU16 (a'.now + g'.headD 0), k + g'.headD 0, by omega, ?_, fun a'' g'' hh => ?_⟩
      · rw [hb] at e
        unfold toU16; omega
      · rw [hx] at hh; cases hh; rfl
  let τ : Times := { τ1 with ramp := s.menu.rampTimer - (κ2 - s.now), pre := s.menu.rampPreTimer - (κ2 - s.now) }
  let Qr : Int → Int → Int → Int → Int → Prop := fun r ρ p π n =>
    (κ2 - r - (n - ρ)) % 65536 = 0 ∧ (κ2 - p - (n - π)) % 65536 = 0 ∧ n = s.now
  have h : Close g.sum Qr AnyB g s τ :=
    { h1 with
      ramp := apart_moved hk2 _ (d := κ2 - s.now) (by omega) rfl
      pre := apart_moved hk2 _ (d := κ2 - s.now) (by omega) rfl
      q := by
        show (κ2 - s.menu.rampTimer - (s.now - (s.menu.rampTimer - (κ2 - s.now)))) % 65536 = 0 ∧
          (κ2 - s.menu.rampPreTimer - (s.now - (s.menu.rampPreTimer - (κ2 - s.now)))) % 65536 = 0 ∧ s.now = s.now
        omega }
  refine AtOnce.of τ rfl h ?_
  show Sim _ _ _ (menuWorkT c s) (menuWork c (timeSet τ s)) g
  unfold menuWorkT menuWork
  refine Sim.bind (menuTimeouts_in h e1) fun a' g' τ' hr h => ?_
  obtain ⟨ei, h⟩ := menuIndicate_in h
  simp only [ei]
  have en := menuIndicate_now a'
  have hq : (κ2 - (menuIndicate a').menu.rampTimer - (τ'.now - τ'.ramp)) % 65536 = 0 ∧
    (κ2 - (menuIndicate a').menu.rampPreTimer - (τ'.now - τ'.pre)) % 65536 = 0 ∧ τ'.now = s.now := h.q
  rw [hread _ _ hr, ← en] at hq
  exact Sim.bind (menuRamp_in h hq.2.2 hq.1 hq.2.1) fun _ _ _ _ h => menuRefresh_in h

/-! ### buttons -/

theorem panelCalls_ne (prev pinb : BitVec 8) : ∀ x ∈ panelCalls prev pinb, x.1 ≠ .iron := by
  intro x hx
  simp only [panelCalls, List.flatMap_cons, List.flatMap_nil, List.append_nil, List.mem_append, List.mem_map] at hx
  rcases hx with ⟨_, _, e⟩ | ⟨_, _, e⟩ | ⟨_, _, e⟩ <;> subst e <;> simp

theorem buttonsWork_atOnce (c : Conf) (s : Sys) (g : List Nat) (pinb : BitVec 8) (hN : g.sum < 1000) :
    AtOnce c s (.buttonsWork pinb) g := by
  let κ : Int := toU16 (s.now + g.headD 0)
  let τ1 : Times := { timesOf s with debounce := s.btn.debounce - (κ - s.now) }
  have h0 : Close g.sum (AtQ s.now) AnyB g s (timesOf s) := Close.refl g s rfl trivial
  have h1 : Close g.sum (AtQ s.now) AnyB g s τ1 :=
    { h0 with debounce := apart_moved (head_le_sum g) _ (d := κ - s.now) (by simp only [κ]; unfold toU16; omega) rfl }
  have ex : timerExpired κ s.btn.debounce = timerExpired s.now (s.btn.debounce - (κ - s.now)) :=
    expired_congr (by simp only [κ]; omega)
  by_cases hx : timerExpired κ s.btn.debounce = true
  case neg =>
    refine AtOnce.of τ1 rfl h1 ?_
    show Sim _ _ _ (buttonsWorkT c s pinb) (buttonsWork c (timeSet τ1 s) pinb) g
    unfold buttonsWorkT buttonsWork
    refine Sim.tick h1 fun n hn h => ?_
    have hx1 : timerExpired n s.btn.debounce = false := by rw [hn]; exact Bool.eq_false_iff.mpr hx
    have e1 : buttonsSample n s.btn pinb = some (s.btn, []) := by
      unfold buttonsSample; rw [hx1]; rfl
    have e2 : buttonsSample s.now (timeSet τ1 s).btn pinb = some ((timeSet τ1 s).btn, []) := by
      unfold buttonsSample
      rw [show timerExpired s.now (timeSet τ1 s).btn.debounce = false from by
        rw [← hx1, hn]; exact ex.symm]
      rfl
    show Sim _ _ _ (liftM (buttonsSample n s.btn pinb) >>= _) ((buttonsSample s.now (timeSet τ1 s).btn pinb).bind _) _
    rw [e1, e2]
    exact Sim.pure h
  case pos =>
  -- the calls of the handlers
  let b : Buttons := { prev := buttonsRaw pinb, debounce := toU16 (s.btn.debounce + toU16 10) }
  let l := panelCalls s.btn.prev pinb
  let li := (pressCalls (s.btn.prev.getLsbD 0) (!pinb.getLsbD 0)).map fun e => (Button.iron, e)
  have eb : ∀ (n d : Int), timerExpired n d = true → buttonsSample n { s.btn with debounce := d } pinb =
      some ({ prev := buttonsRaw pinb, debounce := toU16 (d + toU16 10) }, l ++ li) := by
    intro n d hd
    unfold buttonsSample
    rw [show timerExpired n ({ s.btn with debounce := d } : Buttons).debounce = true from hd,
      timerAdd_eq _ (by decide) (by decide)]
    simp only [Bool.not_true, Bool.false_eq_true, if_false, Option.bind_eq_bind, Option.bind_some, buttonCalls_split]
    rfl
  have start : ∀ {B : Int → Int → Int → Prop} {τ : Times}, τ.debounce = s.btn.debounce - (κ - s.now) →
      Close g.sum (AtQ s.now) B g s τ →
      Close g.sum (AtQ s.now) B g.tail { s with now := κ, btn := b } { τ with debounce := toU16 (τ.debounce + toU16 10) } := by
    intro B τ hd h
    obtain ⟨k, e, hk⟩ := h.now
    have hs : g.headD 0 + g.tail.sum = g.sum := by cases g <;> simp
    refine { h with now := ⟨k + g.headD 0, ?_, ?_⟩, rng := fun _ => toU16_rng _, debounce := apart_add h.debounce _ }
    · show (κ - τ.now - ((k + g.headD 0 : Nat) : Int)) % 65536 = 0
      simp only [κ]; unfold toU16; omega
    · omega
  -- the instant at which the timer of the iron button is looked at
  obtain ⟨κ2, k2, hk2, hκ2, hread⟩ : ∃ (κ2 : Int) (k2 : Nat), k2 ≤ g.sum ∧ (κ2 - s.now - k2) % 65536 = 0 ∧
      ∀ a' g', l.foldlM (callButtonHandlersT c) { s with now := κ, btn := b } g.tail = some (a', g') →
        κ2 = toU16 (a'.now + g'.headD 0) := by
    rcases panel_in (c := c) l (panelCalls_ne _ _) (start rfl h1) with ⟨hx, -⟩ | ⟨a', g', τ', hx, -, hc⟩
    · exact ⟨s.now, 0, by omega, by omega, fun a' g' hh => by rw [hx] at hh; cases hh⟩
    · obtain ⟨k, e, hk⟩ := hc.now
      have hb : τ'.now = s.now := hc.q
      have := head_le_sum g'
      refine ⟨toU16 (a'.now + g'.headD 0), k + g'.headD 0, by omega, ?_, fun a'' g'' hh => ?_⟩
      · rw [hb] at e
        unfold toU16; omega
      · rw [hx] at hh; cases hh; rfl
  let τ : Times := { τ1 with iron := s.ct.biTimer - (κ2 - s.now) }
  let Bi : Int → Int → Int → Prop := fun r ρ n => (κ2 - r - (n - ρ)) % 65536 = 0
  have h : Close g.sum (AtQ s.now) Bi g s τ :=
    { h1 with
      iron := apart_moved hk2 _ (d := κ2 - s.now) (by omega) rfl
      b := by
        show (κ2 - s.ct.biTimer - (s.now - (s.ct.biTimer - (κ2 - s.now)))) % 65536 = 0
        omega }
  refine AtOnce.of τ rfl h ?_
  show Sim _ _ _ (buttonsWorkT c s pinb) (buttonsWork c (timeSet τ s) pinb) g
  unfold buttonsWorkT buttonsWork
  refine Sim.tick h fun n hn h' => ?_
  show Sim _ _ _ (liftM (buttonsSample n { s.btn with debounce := s.btn.debounce } pinb) >>= _)
    ((buttonsSample s.now { s.btn with debounce := τ.debounce } pinb).bind _) _
  rw [eb n _ (by rw [hn]; exact hx), eb s.now _ (by rw [← hx, ex])]
  subst hn
  refine Sim.someV ?_
  simp only [Option.bind_some, List.foldlM_append]
  refine Sim.bind (panel_in l (panelCalls_ne _ _) (start rfl h)) fun a' g' τ' hr h => ?_
  refine irons_in hN h _ _ ?_
  have hq : (κ2 - a'.ct.biTimer - (τ'.now - τ'.iron)) % 65536 = 0 := h.b
  rw [hread _ _ hr] at hq
  exact expired_congr hq

end Verif
