import Verif.Spec.Press
import Verif.Proofs.Press
import Verif.Props.Menu
/-
C67: selecting a preset.  C68: how a held button begins to change a value.  C69: the debug switch.
-/
namespace Verif.Props
open Spec

theorem pins_inv {c : Conf} {s : Sys} {T : Nat} {l : List (Nat × BitVec 8)} (h : PinHist c s T l) :
    Running c s ∧ s.now = nowAt T ∧ (∀ b, s.btn.prev.getLsbD (buttonPin b) = WasDown l b) := by
  induction h with
  | boot hv e =>
    obtain ⟨-, st, -, b, t, hb, -, rfl⟩ := (boot_ok hv).elim e
    refine ⟨Running.boot hv e, hb.now, fun b' => ?_⟩
    show b.btn.prev.getLsbD _ = _
    rw [hb.btn]
    cases b' <;> rfl
  | @tick s s' T l _ hs ih =>
    obtain ⟨i1, i2, i3⟩ := ih
    refine ⟨i1.step (e := .tick) rfl hs, ?_, ?_⟩
    · cases hs
      show timerTick s.now = _
      rw [i2]
      unfold timerTick nowAt toU16
      omega
    · cases hs; exact i3
  | @sample s s' T l pinb _ hx hs ih =>
    obtain ⟨i1, i2, i3⟩ := ih
    exact ⟨i1.step (e := .buttonsWork pinb) rfl hs,
      (step_now (Running.inv i1) hs (by intro h; cases h)).trans i2, sample_was hx.2 hs⟩
  | @other s e s' T l _ hp hs ht hx ih =>
    obtain ⟨i1, i2, i3⟩ := ih
    refine ⟨i1.step hp hs, (step_now (Running.inv i1) hs ht).trans i2, ?_⟩
    rw [(noSample_btn (Running.inv i1) hs hx).1]
    exact i3

/-- a sample in terms of the history -/
theorem hist_panel {c : Conf} {s s' : Sys} {T : Nat} {l : List (Nat × BitVec 8)} {pinb : BitVec 8}
    (h : PinHist c s T l) (hx : Samples s (.buttonsWork pinb) pinb) (hs : step c s (.buttonsWork pinb) = some s') :
    s'.panel = ((s.panel.block c s.now .set (WasDown l .set) (Down pinb .set)).block c s.now .minus
        (WasDown l .minus) (Down pinb .minus)).block c s.now .plus (WasDown l .plus) (Down pinb .plus) := by
  obtain ⟨i1, -, i3⟩ := pins_inv h
  have := sample_panel (Running.inv i1) hx.2 hs
  rw [← i3, ← i3, ← i3]
  exact this

theorem block_cases (p : Panel) (c : Conf) (now : Int) (b : Button) (l : List (Nat × BitVec 8)) (pinb : BitVec 8) :
    p.block c now b (WasDown l b) (Down pinb b) =
      if Pressed l pinb b then p.press c now b else if Released l pinb b then p.release c b else p := by
  have hp : Pressed l pinb b ↔ (WasDown l b = false ∧ Down pinb b = true) := Iff.rfl
  have hr : Released l pinb b ↔ (WasDown l b = true ∧ Down pinb b = false) := Iff.rfl
  unfold Panel.block
  cases hw : WasDown l b <;> cases hd : Down pinb b <;> rw [hw, hd] at hp hr <;> simp [hp, hr]

theorem press_cache (p : Panel) (c : Conf) (now : Int) (b : Button) :
    (p.press c now b).cache = p.cache ∧ (p.press c now b).state = p.state := by
  unfold Panel.press
  split
  · exact ⟨rfl, rfl⟩
  · split <;> first | exact ⟨rfl, rfl⟩ | (split <;> exact ⟨rfl, rfl⟩)

/-- In the preset screen the release of plus selects the next preset and the release of minus the previous one,
    in a circle of six; nothing else is changed.  In all other screens a sample of the buttons changes no
    setting.  (If at most one panel button is released in the sample.) -/
theorem C67_select (c : Conf) (s s' : Sys) (T : Nat) (l : List (Nat × BitVec 8)) (pinb : BitVec 8)
    (h : PinHist c s T l) (hx : Samples s (.buttonsWork pinb) pinb) (hs : step c s (.buttonsWork pinb) = some s')
    (h1 : OneRelease l pinb) :
    s'.set.cache =
      if s.menu.state = .selpreset ∧ Released l pinb .plus then
        { s.set.cache with active := (s.set.cache.active + 1) % 6 }
      else if s.menu.state = .selpreset ∧ Released l pinb .minus then
        { s.set.cache with active := (s.set.cache.active + 5) % 6 }
      else s.set.cache := by
  have hp := congrArg Panel.cache (hist_panel h hx hs)
  have hidx := (Running.inv (pins_inv h).1).set.lim.active
  have hnext : s.set.cache.presetsNext = { s.set.cache with active := (s.set.cache.active + 1) % 6 } := by
    unfold Settings.presetsNext ringNext
    congr 1
    simp only []
    split <;> omega
  have hprev : s.set.cache.presetsPrev = { s.set.cache with active := (s.set.cache.active + 5) % 6 } := by
    unfold Settings.presetsPrev ringPrev
    congr 1
    simp only []
    split <;> omega
  rw [← hnext, ← hprev]
  have key : ∀ p : Panel, (((p.block c s.now .set (WasDown l .set) (Down pinb .set)).block c s.now .minus
        (WasDown l .minus) (Down pinb .minus)).block c s.now .plus (WasDown l .plus) (Down pinb .plus)).cache =
      if p.state = .selpreset ∧ Released l pinb .plus then p.cache.presetsNext
      else if p.state = .selpreset ∧ Released l pinb .minus then p.cache.presetsPrev else p.cache := by
    intro p
    have excl : ∀ b, Released l pinb b → ¬ Pressed l pinb b := fun b hr hq =>
      absurd (hr.1.symm.trans hq.1) (by decide)
    have quiet : ∀ (p : Panel) (b : Button), ¬ Released l pinb b →
        (p.block c s.now b (WasDown l b) (Down pinb b)).cache = p.cache ∧
        (p.block c s.now b (WasDown l b) (Down pinb b)).state = p.state := by
      intro p b hr
      rw [block_cases, if_neg hr]
      split
      · exact press_cache p c s.now b
      · exact ⟨rfl, rfl⟩
    by_cases hset : Released l pinb .set
    · have n1 : ¬ Released l pinb .minus := fun hh => by cases h1 _ _ (by decide) (by decide) hset hh
      have n2 : ¬ Released l pinb .plus := fun hh => by cases h1 _ _ (by decide) (by decide) hset hh
      rw [(quiet _ .plus n2).1, (quiet _ .minus n1).1, if_neg (fun hh => n2 hh.2), if_neg (fun hh => n1 hh.2),
        block_cases, if_neg (excl _ hset), if_pos hset]
      rfl
    · by_cases hplus : Released l pinb .plus
      · have n1 : ¬ Released l pinb .minus := fun hh => by cases h1 _ _ (by decide) (by decide) hplus hh
        rw [block_cases _ _ _ .plus, if_neg (excl _ hplus), if_pos hplus]
        have q1 := quiet p .set hset
        have q2 := quiet (p.block c s.now .set (WasDown l .set) (Down pinb .set)) .minus n1
        generalize ((p.block c s.now .set (WasDown l .set) (Down pinb .set)).block c s.now .minus
          (WasDown l .minus) (Down pinb .minus)) = q at q2 ⊢
        rw [q1.1, q1.2] at q2
        unfold Panel.release
        simp only [q2.2]
        by_cases hc : p.state = .curtemp
        · rw [if_pos hc, if_neg (fun hh => by rw [hc] at hh; cases hh.1), if_neg (fun hh => n1 hh.2)]
          exact q2.1
        · rw [if_neg hc]
          by_cases hd : p.state = .selpreset
          · rw [if_pos hd, if_pos ⟨hd, hplus⟩, q2.1]
          · rw [if_neg hd, if_neg (fun hh => hd hh.1), if_neg (fun hh => hd hh.1)]
            exact q2.1
      · rw [(quiet _ .plus hplus).1, if_neg (fun hh => hplus hh.2)]
        have q1 := quiet p .set hset
        generalize p.block c s.now .set (WasDown l .set) (Down pinb .set) = q at q1 ⊢
        by_cases hminus : Released l pinb .minus
        · rw [block_cases, if_neg (excl _ hminus), if_pos hminus]
          unfold Panel.release
          simp only [q1.2]
          by_cases hc : p.state = .curtemp
          · rw [if_pos hc, if_neg (fun hh => by rw [hc] at hh; cases hh.1)]
            exact q1.1
          · rw [if_neg hc]
            by_cases hd : p.state = .selpreset
            · rw [if_pos hd, if_pos ⟨hd, hminus⟩, q1.1]
            · rw [if_neg hd, if_neg (fun hh => hd hh.1)]
              exact q1.1
        · rw [(quiet _ .minus hminus).1, if_neg (fun hh => hminus hh.2), q1.1]
  exact hp.trans (key s.panel)

/-- The release of plus or minus in the temperature screen opens the preset screen. -/
theorem C67_opens (c : Conf) (s s' : Sys) (T : Nat) (l : List (Nat × BitVec 8)) (pinb : BitVec 8)
    (h : PinHist c s T l) (hx : Samples s (.buttonsWork pinb) pinb) (hs : step c s (.buttonsWork pinb) = some s')
    (hst : s.menu.state = .curtemp) (h1 : Released l pinb .plus ∨ Released l pinb .minus)
    (h2 : ¬ Released l pinb .set) : s'.menu.state = .selpreset := by
  have hp := congrArg Panel.state (hist_panel h hx hs)
  refine Eq.trans hp ?_
  have excl : ∀ b, Released l pinb b → ¬ Pressed l pinb b := fun b hr hq =>
    absurd (hr.1.symm.trans hq.1) (by decide)
  have quiet : ∀ (p : Panel) (b : Button), ¬ Released l pinb b →
      (p.block c s.now b (WasDown l b) (Down pinb b)).state = p.state := by
    intro p b hr
    rw [block_cases, if_neg hr]
    split
    · exact (press_cache p c s.now b).2
    · rfl
  have open1 : ∀ (p : Panel) (b : Button), b = .plus ∨ b = .minus → Released l pinb b →
      (p.state = .curtemp ∨ p.state = .selpreset) →
      (p.block c s.now b (WasDown l b) (Down pinb b)).state = .selpreset := by
    intro p b hb hr hp
    rw [block_cases, if_neg (excl _ hr), if_pos hr]
    rcases hb with rfl | rfl <;> rcases hp with hp | hp <;> simp [Panel.release, hp]
  have q0 := quiet s.panel .set h2
  have q0 : (s.panel.block c s.now .set (WasDown l .set) (Down pinb .set)).state = .curtemp := q0.trans hst
  by_cases hm : Released l pinb .minus
  · have q1 := open1 _ .minus (Or.inr rfl) hm (Or.inl q0)
    by_cases hq : Released l pinb .plus
    · exact open1 _ .plus (Or.inl rfl) hq (Or.inr q1)
    · exact (quiet _ .plus hq).trans q1
  · exact open1 _ .plus (Or.inl rfl) (h1.resolve_right hm) (Or.inl ((quiet _ .minus hm).trans q0))

/-- No other event changes a setting, except the menu's work function (C46). -/
theorem C67_else (c : Conf) (s s' : Sys) (e : Ev) (h : Running c s) (hs : step c s e = some s')
    (h1 : ∀ pinb, ¬ Samples s e pinb) (h2 : e ≠ .menuWork) : SameVals s'.set.cache s.set.cache := by
  have hi := Running.inv h
  cases e with
  | tick => cases hs; rfl
  | adc x => cases hs; rfl
  | eeIsr =>
    obtain ⟨x, ex, hs⟩ := Option.bind_eq_some_iff.mp hs
    cases hs
    show SameVals x.cache _
    unfold eeIsr at ex
    obtain ⟨d, -, ex⟩ := Option.bind_eq_some_iff.mp ex
    simp only [] at ex
    by_cases h1 : (if c.eering = true then s.set.eeIndex else 0) < c.nrEe
    · rw [if_pos h1] at ex
      have ex := Option.some.inj ex
      subst ex
      by_cases h2 : eeReadByte c s.set.eeprom ((if c.eering = true then s.set.eeIndex else 0) * 64 + s.set.eeOff) = d
      · simp only [if_pos h2]; rfl
      · simp only [if_neg h2]; rfl
    · rw [if_neg h1] at ex
      cases ex
  | eeDone =>
    cases hs
    show SameVals (eeProgDone s.set).cache _
    unfold eeProgDone
    split <;> rfl
  | measureWork =>
    rcases measureWork_eff hi hs with ⟨-, rfl⟩ | ⟨-, p, pl, hm⟩
    · rfl
    · rw [hm.set]; rfl
  | menuWork => exact absurd rfl h2
  | displayWork => obtain ⟨_, -, hs⟩ := Option.bind_eq_some_iff.mp hs; cases hs; rfl
  | buttonsWork pinb =>
    have hx : timerExpired s.now s.btn.debounce = false := by
      cases hh : timerExpired s.now s.btn.debounce
      · rfl
      · exact absurd ⟨rfl, hh⟩ (h1 pinb)
    have hs : buttonsWork c s pinb = some s' := hs
    unfold buttonsWork buttonsSample at hs
    rw [hx] at hs
    cases hs
    rfl
  | settingsWork =>
    cases hs
    show SameVals (settingsWork c s.now s.set).1.cache _
    unfold settingsWork
    split
    · rfl
    · split
      · rfl
      · simp only []
        split <;> rfl

/-! ### C68 -/

private theorem press_ramp (p : Panel) (c : Conf) (now : Int) (up : Bool) :
    (p.press c now (rampButton up)).ramp = (startsRamp p.state up).getD p.ramp := by
  obtain ⟨st, r, pr, ca, de⟩ := p
  cases up <;> cases st <;> simp only [Panel.press, rampButton, startsRamp, waiting, going] <;>
    first | rfl | (cases c.debug <;> rfl)

/-- A press of plus or minus starts what the screen has; if no other panel button changes in the sample. -/
theorem C68_press (c : Conf) (s s' : Sys) (T : Nat) (l : List (Nat × BitVec 8)) (pinb : BitVec 8) (up : Bool)
    (h : PinHist c s T l) (hx : Samples s (.buttonsWork pinb) pinb) (hs : step c s (.buttonsWork pinb) = some s')
    (h1 : Pressed l pinb (rampButton up))
    (h2 : ∀ b, b ≠ .iron → b ≠ rampButton up → ¬ Pressed l pinb b ∧ ¬ Released l pinb b) :
    s'.menu.ramp = (startsRamp s.menu.state up).getD s.menu.ramp := by
  have hp := congrArg Panel.ramp (hist_panel h hx hs)
  refine Eq.trans hp ?_
  have still : ∀ (p : Panel) b, b ≠ .iron → b ≠ rampButton up →
      p.block c s.now b (WasDown l b) (Down pinb b) = p := by
    intro p b hb hb'
    rw [block_cases, if_neg (h2 b hb hb').1, if_neg (h2 b hb hb').2]
  rw [still _ .set (by decide) (by cases up <;> decide)]
  cases up
  · rw [still _ .plus (by decide) (by decide), block_cases, if_pos (c := Pressed l pinb .minus) h1]
    exact press_ramp s.panel c s.now false
  · rw [still _ .minus (by decide) (by decide), block_cases, if_pos (c := Pressed l pinb .plus) h1]
    exact press_ramp s.panel c s.now true

/-- Presses that change nothing: SET, and plus and minus where there is nothing to change. -/
theorem C68_hold (c : Conf) (s s' : Sys) (T : Nat) (l : List (Nat × BitVec 8)) (pinb : BitVec 8)
    (h : PinHist c s T l) (hx : Samples s (.buttonsWork pinb) pinb) (hs : step c s (.buttonsWork pinb) = some s')
    (h1 : ∀ b, b ≠ .iron → ¬ Released l pinb b) (h2 : ¬ Pressed l pinb .minus) (h3 : ¬ Pressed l pinb .plus) :
    s'.menu.ramp = s.menu.ramp := by
  have hp := congrArg Panel.ramp (hist_panel h hx hs)
  refine Eq.trans hp ?_
  rw [block_cases _ _ _ .plus, if_neg h3, if_neg (h1 _ (by decide)), block_cases _ _ _ .minus, if_neg h2,
    if_neg (h1 _ (by decide)), block_cases _ _ _ .set, if_neg (h1 _ (by decide))]
  split <;> rfl

private theorem block_wait {p : Panel} {c : Conf} {now : Int} {b : Button} {l : List (Nat × BitVec 8)} {pinb : BitVec 8}
    {up : Bool} (hb : b ≠ .iron) (h : (p.block c now b (WasDown l b) (Down pinb b)).ramp = waiting up) :
    (Pressed l pinb b ∧ b = rampButton up ∧ (p.block c now b (WasDown l b) (Down pinb b)).pre = toU16 (now + 1000)) ∨
    (¬ Released l pinb b ∧ p.ramp = waiting up ∧ (p.block c now b (WasDown l b) (Down pinb b)).pre = p.pre) := by
  rw [block_cases] at h ⊢
  by_cases h1 : Pressed l pinb b
  · have hn : ¬ Released l pinb b := fun hr => absurd (hr.1.symm.trans h1.1) (by decide)
    rw [if_pos h1] at h ⊢
    obtain ⟨st, r, pr, ca, de⟩ := p
    cases up <;> cases b <;> cases st <;> simp only [Panel.press, rampButton, startsRamp, waiting, going] at h ⊢ <;>
      first
      | exact absurd rfl hb
      | (cases h; done)
      | exact Or.inl ⟨h1, rfl, rfl⟩
      | exact Or.inr ⟨hn, h, rfl⟩
      | (cases hd : c.debug <;> rw [hd] at h <;> exact Or.inr ⟨hn, h, rfl⟩)
  · rw [if_neg h1] at h ⊢
    by_cases h2 : Released l pinb b
    · exfalso
      rw [if_pos h2] at h
      obtain ⟨st, r, pr, ca, de⟩ := p
      unfold Panel.release at h
      cases up <;> cases b <;> simp only [waiting] at h <;>
        first
        | exact absurd rfl hb
        | (cases h; done)
        | (split at h
           · cases h
           · split at h <;> cases h)
    · rw [if_neg h2] at h ⊢
      exact Or.inr ⟨h2, h, rfl⟩

theorem held_was {b : Button} {l : List (Nat × BitVec 8)} {t : Nat} (h : heldSince b l = some t) :
    WasDown l b = true := by
  cases l with
  | nil => cases h
  | cons x l =>
    obtain ⟨T, p⟩ := x
    unfold heldSince at h
    split at h
    · rename_i hd; exact hd
    · cases h

theorem after_ramp (er : Nat) (now : Int) (m : Menu) :
    (afterError er (afterTimeout now m)).ramp = .none ∨ (afterError er (afterTimeout now m)).ramp = m.ramp := by
  unfold afterError afterTimeout
  simp only []
  split <;> split <;> simp

theorem wait_inv {c : Conf} {s : Sys} {T : Nat} {l : List (Nat × BitVec 8)} (h : PinHist c s T l) :
    ∀ up, s.menu.ramp = waiting up →
      ∃ t, heldSince (rampButton up) l = some t ∧ t ≤ T ∧ s.menu.rampPreTimer = nowAt (t + 1000) := by
  induction h with
  | boot hv e =>
    obtain ⟨-, st, -, b, t, hb, -, rfl⟩ := (boot_ok hv).elim e
    obtain ⟨x, u, em, hx⟩ := hb.menu
    intro up (hr : b.menu.ramp = _)
    rw [em] at hr
    cases up <;> cases hr
  | @tick s s' T l _ hs ih =>
    cases hs
    intro up hr
    obtain ⟨t, h1, h2, h3⟩ := ih up hr
    exact ⟨t, h1, by omega, h3⟩
  | @sample s s' T l pinb h hx hs ih =>
    intro up hr
    have hp := hist_panel h hx hs
    have hnow := (pins_inv h).2.1
    have hr : s'.panel.ramp = waiting up := hr
    show ∃ t, _ ∧ _ ∧ s'.panel.pre = _
    rw [hp] at hr ⊢
    have harm : toU16 (s.now + 1000) = nowAt (T + 1000) := by
      rw [hnow]; unfold toU16 nowAt; omega
    have fresh : ∀ b, Pressed l pinb b → b = rampButton up → heldSince (rampButton up) ((T, pinb) :: l) = some T := by
      rintro b hb rfl
      unfold heldSince
      rw [if_pos hb.2, if_neg (by rw [hb.1]; decide)]
    have keep : (∀ b, b ≠ .iron → ¬ Released l pinb b) → ∀ t, heldSince (rampButton up) l = some t →
        heldSince (rampButton up) ((T, pinb) :: l) = some t := by
      intro hn t ht
      have hw := held_was ht
      unfold heldSince
      rw [if_pos ?_, if_pos hw]
      · exact ht
      · cases hd : Down pinb (rampButton up)
        · exact absurd ⟨hw, hd⟩ (hn _ (by cases up <;> decide))
        · rfl
    rcases block_wait (by decide) hr with ⟨g1, g2, g3⟩ | ⟨g1, g2, g3⟩
    · exact ⟨T, fresh _ g1 g2, Nat.le_refl _, g3.trans harm⟩
    · rcases block_wait (by decide) g2 with ⟨k1, k2, k3⟩ | ⟨k1, k2, k3⟩
      · exact ⟨T, fresh _ k1 k2, Nat.le_refl _, (g3.trans k3).trans harm⟩
      · rcases block_wait (by decide) k2 with ⟨j1, j2, -⟩ | ⟨j1, j2, j3⟩
        · cases up <;> cases j2
        · obtain ⟨t, h1, h2, h3⟩ := ih up j2
          refine ⟨t, keep ?_ t h1, h2, ((g3.trans k3).trans j3).trans h3⟩
          intro b hb
          cases b
          · exact j1
          · exact k1
          · exact g1
          · exact absurd rfl hb
  | @other s e s' T l h hp hs ht hx ih =>
    obtain ⟨i1, i2, i3⟩ := pins_inv h
    have hi := Running.inv i1
    intro up hr
    by_cases hm : e = .menuWork
    · subst hm
      obtain ⟨-, -, -, -, -, w⟩ := menuWork_eff hi s' hs
      cases w with
      | same w1 w2 w3 w4 w5 w6 =>
        rw [hr] at w3
        have a1 : (afterError (menuError s) (afterTimeout s.now s.menu)).ramp = s.menu.ramp := by
          rcases after_ramp (menuError s) s.now s.menu with hh | hh
          · rw [hh] at w3
            cases up <;> cases w3
          · exact hh
        have a2 : (afterError (menuError s) (afterTimeout s.now s.menu)).rampPreTimer = s.menu.rampPreTimer := by
          unfold afterError afterTimeout
          simp only []
          split <;> rfl
        obtain ⟨t, h1, h2, h3⟩ := ih up (a1.symm.trans w3.symm)
        exact ⟨t, h1, h2, by rw [w6, a2]; exact h3⟩
      | start w1 w2 w3 =>
        exfalso
        rw [hr] at w3
        rcases w3 with ⟨-, w3⟩ | ⟨-, w3⟩ <;> cases up <;> cases w3
      | step w1 w2 w3 w4 =>
        exfalso
        rw [hr] at w3
        rw [← w3] at w4
        cases up <;> cases w4
    · obtain ⟨-, -, u, hq⟩ := quiet_step hi hs hm hx
      rw [hq] at hr ⊢
      exact ih up hr

/-- A ramp that waits has its button down, and has been started by the sample in which the button went down. -/
theorem C68_waits (c : Conf) (s : Sys) (T : Nat) (l : List (Nat × BitVec 8)) (up : Bool)
    (h : PinHist c s T l) (hr : s.menu.ramp = waiting up) : ∃ t, heldSince (rampButton up) l = some t ∧ t ≤ T := by
  obtain ⟨t, h1, h2, -⟩ := wait_inv h up hr
  exact ⟨t, h1, h2⟩

/-- A ramp that waits is set going by the menu's work function as soon as the button has been held for one
    second, and not before; unless the screen or the displayed error changes, which ends it. -/
theorem C68_starts (c : Conf) (s s' : Sys) (T t : Nat) (l : List (Nat × BitVec 8)) (up : Bool)
    (h : PinHist c s T l) (hr : s.menu.ramp = waiting up) (hh : heldSince (rampButton up) l = some t)
    (hT : T < t + 33768) (hs : step c s .menuWork = some s') :
    (s'.menu.ramp = (if t + 1000 ≤ T then going up else waiting up) ∧ s'.menu.state = s.menu.state) ∨
    (s'.menu.ramp = .none ∧ (s'.menu.state ≠ s.menu.state ∨ s'.menu.dispErr ≠ s.menu.dispErr)) := by
  obtain ⟨t', h1, h2, h3⟩ := wait_inv h up hr
  rw [hh] at h1
  cases h1
  obtain ⟨i1, i2, i3⟩ := pins_inv h
  have hi := Running.inv i1
  obtain ⟨-, -, -, -, herr, w⟩ := menuWork_eff hi s' hs
  have hexp : timerExpired s.now s.menu.rampPreTimer = true ↔ t + 1000 ≤ T := by
    rw [i2, h3]
    unfold timerExpired timerCountSince nowAt toU16 toS16
    simp only [ge_iff_le, decide_eq_true_eq]
    omega
  by_cases hto : (holdTime s.menu.state).isSome ∧ timerExpired s.now s.menu.timeout = true
  · right
    have a1 : (afterError (menuError s) (afterTimeout s.now s.menu)).ramp = .none := by
      unfold afterError afterTimeout
      rw [if_pos hto]
      simp only [ite_self]
    have a2 : (afterError (menuError s) (afterTimeout s.now s.menu)).state = leadsTo s.menu.state := by
      unfold afterError afterTimeout
      rw [if_pos hto]
    cases w with
    | same w1 w2 w3 =>
      refine ⟨w3.trans a1, Or.inl ?_⟩
      rw [w1, a2]
      exact fun hq => leadsTo_ne hto.1 hq.symm
    | start w1 w2 w3 => rw [a1] at w3; rcases w3 with ⟨w3, -⟩ | ⟨w3, -⟩ <;> cases w3
    | step w1 w2 w3 w4 => rw [a1] at w4; cases w4
  · have a0 : afterTimeout s.now s.menu = s.menu := by unfold afterTimeout; rw [if_neg hto]
    rw [a0] at w
    by_cases he : menuError s = s.menu.dispErr
    · have a1 : (afterError (menuError s) s.menu).ramp = s.menu.ramp := by
        unfold afterError; rw [if_pos he]
      left
      cases w with
      | same w1 w2 w3 w4 w5 w6 w7 w8 w9 =>
        have : timerExpired s.now s.menu.rampPreTimer = false := by
          refine w9 ?_
          rw [a1, hr]
          cases up
          · exact Or.inr rfl
          · exact Or.inl rfl
        refine ⟨?_, w1⟩
        rw [w3, a1, hr, if_neg]
        rw [← hexp, this]
        decide
      | start w1 w2 w3 w4 =>
        refine ⟨?_, w1⟩
        rw [if_pos (hexp.mp w4)]
        rw [a1, hr] at w3
        rcases w3 with ⟨w3, w5⟩ | ⟨w3, w5⟩ <;> cases up <;> first | cases w3; done | exact w5
      | step w1 w2 w3 w4 =>
        rw [a1, hr] at w4
        cases up <;> cases w4
    · right
      have a1 : (afterError (menuError s) s.menu).ramp = .none := by
        unfold afterError; rw [if_neg he]
      cases w with
      | same w1 w2 w3 => exact ⟨w3.trans a1, Or.inr (by rw [herr]; exact he)⟩
      | start w1 w2 w3 => rw [a1] at w3; rcases w3 with ⟨w3, -⟩ | ⟨w3, -⟩ <;> cases w3
      | step w1 w2 w3 w4 => rw [a1] at w4; cases w4

/-! ### C69 -/

/-- The station starts in the temperature screen, with debugging off; if the build has debugging and SET is down at
    boot, it starts in the debug screen with debugging on. -/
theorem C69_boot (c : Conf) (ee : Nat → Nat) (pinb : BitVec 8) (s : Sys) (hv : ValidEeprom c ee)
    (e : boot c ee pinb = some s) :
    s.debugEn = (c.debug && Down pinb .set) ∧ s.menu.state = if s.debugEn then .debug else .curtemp := by
  have hdown : decide (buttonIsPressed pinb .set ≠ 0) = Down pinb .set := by
    clear e
    unfold buttonIsPressed Down
    revert pinb
    decide
  have h1 : (c.debug = true ∧ Down pinb .set = true → s.menu.state = .debug ∧ s.debugEn = true) ∧
      (¬ (c.debug = true ∧ Down pinb .set = true) → s.menu.state = .curtemp) := by
    have post : Post (boot c ee pinb) fun s =>
        (c.debug = true ∧ Down pinb .set = true → s.menu.state = .debug ∧ s.debugEn = true) ∧
        (¬ (c.debug = true ∧ Down pinb .set = true) → s.menu.state = .curtemp) := by
      unfold boot
      refine Post.bindAny fun _ => Post.bindAny fun _ => Post.bindAny fun _ => Post.bindAny fun _ => Post.bindAny fun s1 => ?_
      rw [hdown]
      refine Post.bind (P := fun s =>
        (c.debug = true ∧ Down pinb .set = true → s.menu.state = .debug ∧ s.debugEn = true) ∧
        (¬ (c.debug = true ∧ Down pinb .set = true) → s.menu.state = .curtemp)) ?_ ?_
      · have home : ∀ s, Post (menuSetState c s .curtemp) fun s' => s'.menu.state = .curtemp := fun s =>
          (menuSetState_eff rfl).mono fun s' hh => by
            rcases hh with ⟨hh, rfl⟩ | ⟨-, hh, -⟩
            · exact hh
            · obtain ⟨u, hu⟩ := hh.menu
              rw [hu]
        unfold menuInit
        cases hd : c.debug
        · exact (home _).mono fun s' hh => ⟨fun hq => absurd hq.1 (by decide), fun _ => hh⟩
        · cases hk : Down pinb .set
          · exact (home _).mono fun s' hh => ⟨fun hq => absurd hq.2 (by decide), fun _ => hh⟩
          · simp only [if_true]
            refine Post.bind (P := fun s => s.debugEn = true) ?_ fun s2 h2 => ?_
            · unfold debugEnable
              rw [if_pos hd]
              exact Post.bindAny fun _ => Post.pure rfl
            · refine (menuSetState_eff (t := .debug) hd).mono fun s' hh => ⟨fun _ => ?_, fun hq => (hq ⟨trivial, trivial⟩).elim⟩
              rcases hh with ⟨hh, rfl⟩ | ⟨-, hh, -⟩
              · exact ⟨hh, h2⟩
              · obtain ⟨u, hu⟩ := hh.menu
                rw [hu]
                exact ⟨rfl, hh.debugEn.trans h2⟩
      · intro s2 h2
        unfold measureStart
        exact Post.bindAny fun _ => Post.pure h2
    exact post s e
  obtain ⟨-, st, -, b, t, hb, -, rfl⟩ := (boot_ok hv).elim e
  by_cases hh : c.debug = true ∧ Down pinb .set = true
  · obtain ⟨k1, k2⟩ := h1.1 hh
    rw [k2, hh.1, hh.2]
    exact ⟨rfl, k1⟩
  · have k1 : b.menu.state = .curtemp := h1.2 hh
    obtain ⟨t', u, em, ht⟩ := hb.menu
    rw [em] at k1
    cases k1
    have k2 : b.debugEn = false := by
      rcases ht with ⟨-, ht⟩ | ⟨ht, -⟩
      · exact ht
      · cases ht
    constructor
    · show b.debugEn = _
      rw [k2]
      cases hd : c.debug
      · rfl
      · cases hk : Down pinb .set
        · rfl
        · exact absurd ⟨hd, hk⟩ hh
    · show b.menu.state = if b.debugEn then _ else _
      rw [k2, em]
      rfl

/-- In the debug screen plus switches debugging on and minus switches it off; plus wins if both are pressed in
    one sample.  (If SET is not released in the sample.) -/
theorem C69_switch (c : Conf) (s s' : Sys) (T : Nat) (l : List (Nat × BitVec 8)) (pinb : BitVec 8)
    (h : PinHist c s T l) (hx : Samples s (.buttonsWork pinb) pinb) (hs : step c s (.buttonsWork pinb) = some s')
    (hst : s.menu.state = .debug) (h1 : ¬ Released l pinb .set) :
    s'.debugEn = (if Pressed l pinb .plus then true else if Pressed l pinb .minus then false else s.debugEn) ∧
    s'.menu.state = .debug := by
  have hc : c.debug = true := by
    have := (Running.inv (pins_inv h).1).menu.screen
    rw [hst] at this
    exact this
  have hp := hist_panel h hx hs
  have e1 := congrArg Panel.debugEn hp
  have e2 := congrArg Panel.state hp
  have hset : s.panel.block c s.now .set (WasDown l .set) (Down pinb .set) = s.panel := by
    rw [block_cases, if_neg h1]
    split <;> rfl
  rw [hset] at e1 e2
  have one : ∀ (p : Panel) (b : Button), b = .plus ∨ b = .minus → p.state = .debug →
      (p.block c s.now b (WasDown l b) (Down pinb b)).state = .debug ∧
      (p.block c s.now b (WasDown l b) (Down pinb b)).debugEn =
        if Pressed l pinb b then decide (b = .plus) else p.debugEn := by
    intro p b hb hp
    rw [block_cases]
    obtain ⟨st, r, pr, ca, de⟩ := p
    dsimp only at hp
    subst hp
    by_cases h1 : Pressed l pinb b
    · rw [if_pos h1, if_pos h1]
      rcases hb with rfl | rfl <;> simp [Panel.press, hc]
    · rw [if_neg h1, if_neg h1]
      split
      · rcases hb with rfl | rfl <;> simp [Panel.release]
      · exact ⟨rfl, rfl⟩
  obtain ⟨k1, k2⟩ := one s.panel .minus (Or.inr rfl) hst
  obtain ⟨k3, k4⟩ := one _ .plus (Or.inl rfl) k1
  rw [k4] at e1
  rw [k2] at e1
  exact ⟨e1, e2.trans k3⟩

/-- Nothing else switches debugging: not a sample in another screen, unless the release of SET in that sample leads
    to the debug screen, and no other event. -/
theorem C69_else (c : Conf) (s s' : Sys) (e : Ev) (h : Running c s) (hs : step c s e = some s')
    (h1 : (∀ pinb, ¬ Samples s e pinb) ∨ (s.menu.state ≠ .debug ∧ nextScreen c s.menu.state ≠ .debug)) :
    s'.debugEn = s.debugEn := by
  have hi := Running.inv h
  by_cases hx : ∃ pinb, Samples s e pinb
  · obtain ⟨pinb, hx⟩ := hx
    obtain ⟨h2, h3⟩ := h1.resolve_left fun hh => hh pinb hx
    obtain ⟨rfl, hx⟩ := hx
    rw [nextScreen_eq] at h3
    refine (congrArg Panel.debugEn (sample_panel hi hx hs)).trans ?_
    have one : ∀ (p : Panel) (b : Button) (w d : Bool), p.state ≠ .debug → nextMenuState c p.state ≠ .debug →
        ∀ p', p.block c s.now b w d = p' → p'.debugEn = p.debugEn ∧ p'.state ≠ .debug ∧
          (b ≠ .set → nextMenuState c p'.state ≠ .debug ) := by
      rintro p b w d hp hn p' rfl
      have hpr : (p.press c s.now b).debugEn = p.debugEn := by
        obtain ⟨st, r, pr, ca, de⟩ := p
        cases b <;> cases st <;> first | exact absurd rfl hp | rfl
      unfold Panel.block
      split
      · exact ⟨hpr, by rw [(press_cache p c s.now b).2]; exact hp, fun _ => by rw [(press_cache p c s.now b).2]; exact hn⟩
      · split
        · cases b
          · refine ⟨rfl, ?_, fun hh => absurd rfl hh⟩
            show (if p.debugEn then p.state else nextMenuState c p.state) ≠ _
            split
            · exact hp
            · exact hn
          · simp only [Panel.release]
            split
            · exact ⟨rfl, by show MenuState.selpreset ≠ _; decide, fun _ => by show nextMenuState c .selpreset ≠ _; unfold nextMenuState; simp⟩
            · split
              · exact ⟨rfl, hp, fun _ => hn⟩
              · exact ⟨rfl, hp, fun _ => hn⟩
          · simp only [Panel.release]
            split
            · exact ⟨rfl, by show MenuState.selpreset ≠ _; decide, fun _ => by show nextMenuState c .selpreset ≠ _; unfold nextMenuState; simp⟩
            · split
              · exact ⟨rfl, hp, fun _ => hn⟩
              · exact ⟨rfl, hp, fun _ => hn⟩
          · exact ⟨rfl, hp, fun _ => hn⟩
        · exact ⟨rfl, hp, fun _ => hn⟩
    have one' : ∀ (p : Panel) (b : Button) (w d : Bool), b ≠ .set → p.state ≠ .debug →
        ∀ p', p.block c s.now b w d = p' → p'.debugEn = p.debugEn ∧ p'.state ≠ .debug := by
      rintro p b w d hb hp p' rfl
      have hpr : (p.press c s.now b).debugEn = p.debugEn := by
        obtain ⟨st, r, pr, ca, de⟩ := p
        cases b <;> cases st <;> first | exact absurd rfl hp | rfl
      unfold Panel.block
      split
      · exact ⟨hpr, by rw [(press_cache p c s.now b).2]; exact hp⟩
      · split
        · cases b
          · exact absurd rfl hb
          · simp only [Panel.release]
            split
            · exact ⟨rfl, by show MenuState.selpreset ≠ _; decide⟩
            · split <;> exact ⟨rfl, hp⟩
          · simp only [Panel.release]
            split
            · exact ⟨rfl, by show MenuState.selpreset ≠ _; decide⟩
            · split <;> exact ⟨rfl, hp⟩
          · exact ⟨rfl, hp⟩
        · exact ⟨rfl, hp⟩
    obtain ⟨a1, a2, -⟩ := one s.panel .set _ _ h2 h3 _ rfl
    obtain ⟨b1, b2⟩ := one' _ .minus _ _ (by decide) a2 _ rfl
    obtain ⟨c1, -⟩ := one' _ .plus _ _ (by decide) b2 _ rfl
    rw [c1, b1, a1]
    rfl
  · exact (noSample_btn hi hs fun pinb hh => hx ⟨pinb, hh⟩).2

/-- While debugging is on, the debug screen stays. -/
theorem C69_screen (c : Conf) (s : Sys) (h : Running c s) (hd : s.debugEn = true) :
    s.menu.state = .debug ∧ c.debug = true := by
  have hi := Running.inv h
  have h1 := hi.dbg hd
  have := hi.menu.screen
  rw [h1] at this
  exact ⟨h1, this⟩

/-! ### Examples -/

private theorem oneRelease {l : List (Nat × BitVec 8)} {pinb : BitVec 8} (h1 : ¬ Released l pinb .set)
    (h2 : ¬ Released l pinb .minus) : OneRelease l pinb := by
  intro b b' hb hb' h h'
  cases b <;> cases b' <;> first
    | rfl
    | exact absurd rfl hb
    | exact absurd rfl hb'
    | exact absurd h h1
    | exact absurd h h2
    | exact absurd h' h1
    | exact absurd h' h2

set_option maxRecDepth 100000 in
/-- The hypotheses of `C67_opens` and `C67_select` are met: a first touch of plus opens the preset screen, a second one
    selects the preset after the shipped one. -/
example : (∃ s s' T l, PinHist .m88p s T l ∧ Samples s (.buttonsWork 0xFF) 0xFF ∧
      step .m88p s (.buttonsWork 0xFF) = some s' ∧ s.menu.state = .curtemp ∧ Released l 0xFF .plus ∧
      ¬ Released l 0xFF .set ∧ s'.menu.state = .selpreset) ∧
    (∃ s s' T l, PinHist .m88p s T l ∧ Samples s (.buttonsWork 0xFF) 0xFF ∧
      step .m88p s (.buttonsWork 0xFF) = some s' ∧ OneRelease l 0xFF ∧ s.menu.state = .selpreset ∧
      Released l 0xFF .plus ∧ s.set.cache.active = 3 ∧ s'.set.cache.active = 4) := by
  constructor
  · obtain ⟨x, h, hP⟩ := panelRun_any (c := .m88p) (pinb := 0xFF)
      (es := [(5, .buttonsWork 0xEF), (10, .menuWork)])
      (P := fun x => timerExpired x.s.now x.s.btn.debounce && decide (x.s.menu.state = .curtemp) &&
        decide (Released x.l 0xFF .plus) && decide (¬ Released x.l 0xFF .set) &&
        (step .m88p x.s (.buttonsWork 0xFF)).any fun (s' : Sys) => decide (s'.menu.state = .selpreset))
      validEeprom_m88p (by decide)
    simp only [Bool.and_eq_true, decide_eq_true_eq] at hP
    obtain ⟨⟨⟨⟨p1, p2⟩, p3⟩, p4⟩, p5⟩ := hP
    match e : step .m88p x.s (.buttonsWork 0xFF) with
    | none => rw [e] at p5; cases p5
    | some s' =>
      rw [e] at p5
      simp only [Option.any_some, decide_eq_true_eq] at p5
      exact ⟨x.s, s', x.T, x.l, h.pin, ⟨rfl, p1⟩, e, p2, p3, p4, p5⟩
  · obtain ⟨x, h, hP⟩ := panelRun_any (c := .m88p) (pinb := 0xFF)
      (es := [(5, .buttonsWork 0xEF), (10, .buttonsWork 0xFF), (100, .buttonsWork 0xEF), (10, .menuWork)])
      (P := fun x => timerExpired x.s.now x.s.btn.debounce && decide (¬ Released x.l 0xFF .set) &&
        decide (¬ Released x.l 0xFF .minus) && decide (x.s.menu.state = .selpreset) &&
        decide (Released x.l 0xFF .plus) && decide (x.s.set.cache.active = 3) &&
        (step .m88p x.s (.buttonsWork 0xFF)).any fun (s' : Sys) => decide (s'.set.cache.active = 4))
      validEeprom_m88p (by decide)
    simp only [Bool.and_eq_true, decide_eq_true_eq] at hP
    obtain ⟨⟨⟨⟨⟨⟨p1, p2⟩, p3⟩, p4⟩, p5⟩, p6⟩, p7⟩ := hP
    match e : step .m88p x.s (.buttonsWork 0xFF) with
    | none => rw [e] at p7; cases p7
    | some s' =>
      rw [e] at p7
      simp only [Option.any_some, decide_eq_true_eq] at p7
      exact ⟨x.s, s', x.T, x.l, h.pin, ⟨rfl, p1⟩, e, oneRelease p2 p3, p4, p5, p6, p7⟩

set_option maxRecDepth 100000 in
/-- The hypotheses of `C68_press` are met: plus goes down in the temperature screen, no other button moves. -/
example : ∃ s s' T l, PinHist .m88p s T l ∧ Samples s (.buttonsWork 0xEF) 0xEF ∧
    step .m88p s (.buttonsWork 0xEF) = some s' ∧ Pressed l 0xEF (rampButton true) ∧
    (∀ b, b ≠ .iron → b ≠ rampButton true → ¬ Pressed l 0xEF b ∧ ¬ Released l 0xEF b) ∧ s'.menu.ramp = .preUp := by
  obtain ⟨x, h, hP⟩ := panelRun_any (c := .m88p) (pinb := 0xFF)
    (es := [(5, .buttonsWork 0xFF), (10, .menuWork)])
    (P := fun x => timerExpired x.s.now x.s.btn.debounce && decide (Pressed x.l 0xEF .plus) &&
      decide (¬ Pressed x.l 0xEF .set ∧ ¬ Released x.l 0xEF .set) &&
      decide (¬ Pressed x.l 0xEF .minus ∧ ¬ Released x.l 0xEF .minus) &&
      (step .m88p x.s (.buttonsWork 0xEF)).any fun (s' : Sys) => decide (s'.menu.ramp = .preUp))
    validEeprom_m88p (by decide)
  simp only [Bool.and_eq_true, decide_eq_true_eq] at hP
  obtain ⟨⟨⟨⟨p1, p2⟩, p3⟩, p4⟩, p5⟩ := hP
  match e : step .m88p x.s (.buttonsWork 0xEF) with
  | none => rw [e] at p5; cases p5
  | some s' =>
    rw [e] at p5
    simp only [Option.any_some, decide_eq_true_eq] at p5
    refine ⟨x.s, s', x.T, x.l, h.pin, ⟨rfl, p1⟩, e, p2, fun b hb hb' => ?_, p5⟩
    cases b
    · exact p3
    · exact p4
    · exact absurd rfl hb'
    · exact absurd rfl hb

set_option maxRecDepth 100000 in
/-- The hypotheses of `C68_hold` are met: plus stays down in the second sample. -/
example : ∃ s s' T l, PinHist .m88p s T l ∧ Samples s (.buttonsWork 0xEF) 0xEF ∧
    step .m88p s (.buttonsWork 0xEF) = some s' ∧ (∀ b, b ≠ .iron → ¬ Released l 0xEF b) ∧
    ¬ Pressed l 0xEF .minus ∧ ¬ Pressed l 0xEF .plus ∧ s.menu.ramp = .preUp := by
  obtain ⟨x, h, hP⟩ := panelRun_any (c := .m88p) (pinb := 0xFF)
    (es := [(5, .buttonsWork 0xEF), (10, .menuWork)])
    (P := fun x => timerExpired x.s.now x.s.btn.debounce && decide (¬ Released x.l 0xEF .set) &&
      decide (¬ Released x.l 0xEF .minus) && decide (¬ Released x.l 0xEF .plus) &&
      decide (¬ Pressed x.l 0xEF .minus) && decide (¬ Pressed x.l 0xEF .plus) && decide (x.s.menu.ramp = .preUp) &&
      (step .m88p x.s (.buttonsWork 0xEF)).isSome)
    validEeprom_m88p (by decide)
  simp only [Bool.and_eq_true, decide_eq_true_eq] at hP
  obtain ⟨⟨⟨⟨⟨⟨⟨p1, p2⟩, p3⟩, p4⟩, p5⟩, p6⟩, p7⟩, p8⟩ := hP
  obtain ⟨s', e⟩ := Option.isSome_iff_exists.mp p8
  refine ⟨x.s, s', x.T, x.l, h.pin, ⟨rfl, p1⟩, e, fun b hb => ?_, p5, p6, p7⟩
  cases b
  · exact p2
  · exact p3
  · exact p4
  · exact absurd rfl hb

set_option maxRecDepth 100000 in
/-- The hypotheses of `C68_waits` and `C68_starts` are met: plus is down from the sample at 5 ms on; at 1004 ms the
    menu's work function leaves the ramp waiting, at 1005 ms it sets it going. -/
example : ∃ s s' u u' l l', PinHist .m88p s 1004 l ∧ s.menu.ramp = waiting true ∧
    heldSince (rampButton true) l = some 5 ∧ step .m88p s .menuWork = some s' ∧ s'.menu.ramp = .preUp ∧
    PinHist .m88p u 1005 l' ∧ u.menu.ramp = waiting true ∧ heldSince (rampButton true) l' = some 5 ∧
    step .m88p u .menuWork = some u' ∧ u'.menu.ramp = .up := by
  obtain ⟨x, h, hP⟩ := panelRun_any (c := .m88p) (pinb := 0xFF)
    (es := [(5, .buttonsWork 0xEF), (999, .buttonsWork 0xEF)])
    (P := fun x => decide (x.T = 1004) && decide (x.s.menu.ramp = .preUp) && decide (heldSince .plus x.l = some 5) &&
      (step .m88p x.s .menuWork).any fun (s' : Sys) => decide (s'.menu.ramp = .preUp))
    validEeprom_m88p (by decide)
  obtain ⟨y, h', hP'⟩ := panelRun_any (c := .m88p) (pinb := 0xFF)
    (es := [(5, .buttonsWork 0xEF), (1000, .buttonsWork 0xEF)])
    (P := fun x => decide (x.T = 1005) && decide (x.s.menu.ramp = .preUp) && decide (heldSince .plus x.l = some 5) &&
      (step .m88p x.s .menuWork).any fun (s' : Sys) => decide (s'.menu.ramp = .up))
    validEeprom_m88p (by decide)
  simp only [Bool.and_eq_true, decide_eq_true_eq] at hP hP'
  obtain ⟨⟨⟨p1, p2⟩, p3⟩, p4⟩ := hP
  obtain ⟨⟨⟨q1, q2⟩, q3⟩, q4⟩ := hP'
  match e : step .m88p x.s .menuWork, e' : step .m88p y.s .menuWork with
  | none, _ => rw [e] at p4; cases p4
  | some _, none => rw [e'] at q4; cases q4
  | some s', some u' =>
    rw [e] at p4
    rw [e'] at q4
    simp only [Option.any_some, decide_eq_true_eq] at p4 q4
    exact ⟨x.s, s', y.s, u', x.l, y.l, p1 ▸ h.pin, p2, p3, e, p4, q1 ▸ h'.pin, q2, q3, e', q4⟩

set_option maxRecDepth 100000 in
/-- The hypotheses of `C69_boot` are met. -/
example : ValidEeprom .m328p (shippedEeprom .m328p) ∧
    ∃ s, boot .m328p (shippedEeprom .m328p) 0xFB = some s ∧ s.debugEn = true := by
  refine ⟨validEeprom_m328p, ?_⟩
  have h : (boot .m328p (shippedEeprom .m328p) 0xFB).any (fun s => s.debugEn) = true := by decide
  match e : boot .m328p (shippedEeprom .m328p) 0xFB with
  | none => rw [e] at h; cases h
  | some s =>
    rw [e] at h
    exact ⟨s, rfl, h⟩

set_option maxRecDepth 100000 in
/-- The hypotheses of `C67_else` and `C69_else` are met: a call of the settings' work function, and a sample in the
    temperature screen, from which SET leads to the idle temperature. -/
example : ∃ s s' s'', Running .m328p s ∧ step .m328p s .settingsWork = some s' ∧
    (∀ pinb, ¬ Samples s .settingsWork pinb) ∧ step .m328p s (.buttonsWork 0xEF) = some s'' ∧
    s.menu.state ≠ .debug ∧ nextScreen .m328p s.menu.state ≠ .debug := by
  obtain ⟨x, h, hP⟩ := panelRun_any (c := .m328p) (pinb := 0xFF)
    (es := [(5, .buttonsWork 0xFF), (10, .menuWork)])
    (P := fun x => (step .m328p x.s .settingsWork).isSome && (step .m328p x.s (.buttonsWork 0xEF)).isSome &&
      decide (x.s.menu.state ≠ .debug) && decide (nextScreen .m328p x.s.menu.state ≠ .debug))
    validEeprom_m328p (by decide)
  simp only [Bool.and_eq_true, decide_eq_true_eq] at hP
  obtain ⟨⟨⟨p1, p2⟩, p3⟩, p4⟩ := hP
  obtain ⟨s', e⟩ := Option.isSome_iff_exists.mp p1
  obtain ⟨s'', e'⟩ := Option.isSome_iff_exists.mp p2
  exact ⟨x.s, s', s'', (pins_inv h.pin).1, e, fun _ hh => (by cases hh.1), e', p3, p4⟩

set_option maxRecDepth 100000 in
/-- The hypotheses of `C69_switch` and `C69_screen` are met: SET was down at boot, and minus switches debugging off. -/
example : ∃ s s' T l, PinHist .m328p s T l ∧ Samples s (.buttonsWork 0xF3) 0xF3 ∧
    step .m328p s (.buttonsWork 0xF3) = some s' ∧ s.menu.state = .debug ∧ ¬ Released l 0xF3 .set ∧
    s.debugEn = true ∧ Pressed l 0xF3 .minus ∧ s'.debugEn = false := by
  obtain ⟨x, h, hP⟩ := panelRun_any (c := .m328p) (pinb := 0xFB)
    (es := [(5, .buttonsWork 0xFB), (10, .menuWork)])
    (P := fun x => timerExpired x.s.now x.s.btn.debounce && decide (x.s.menu.state = .debug) &&
      decide (¬ Released x.l 0xF3 .set) && decide (x.s.debugEn = true) && decide (Pressed x.l 0xF3 .minus) &&
      (step .m328p x.s (.buttonsWork 0xF3)).any fun (s' : Sys) => decide (s'.debugEn = false))
    validEeprom_m328p (by decide)
  simp only [Bool.and_eq_true, decide_eq_true_eq] at hP
  obtain ⟨⟨⟨⟨⟨p1, p2⟩, p3⟩, p4⟩, p5⟩, p6⟩ := hP
  match e : step .m328p x.s (.buttonsWork 0xF3) with
  | none => rw [e] at p6; cases p6
  | some s' =>
    rw [e] at p6
    simp only [Option.any_some, decide_eq_true_eq] at p6
    exact ⟨x.s, s', x.T, x.l, h.pin, ⟨rfl, p1⟩, e, p2, p3, p4, p5, p6⟩

end Verif.Props
