import Verif.Proofs.RampHold
import Verif.Proofs.Demo
import Verif.Props.Timer
/-
C44: the way through the menu.  C46: values changed by a held button.
-/
namespace Verif.Props
open Spec

private theorem boot_facts {c : Conf} {ee : Nat → Nat} {pinb : BitVec 8} {s : Sys} (hv : ValidEeprom c ee)
    (e : boot c ee pinb = some s) :
    Running c s ∧ s.now = nowAt 0 ∧ ∀ b, s.btn.prev.getLsbD (buttonPin b) = WasDown [] b := by
  obtain ⟨-, st, -, b, t, hb, -, rfl⟩ := (boot_ok hv).elim e
  refine ⟨Running.boot hv e, hb.now, fun b' => ?_⟩
  show b.btn.prev.getLsbD _ = _
  rw [hb.btn]
  cases b' <;> rfl

private theorem tick_now {c : Conf} {s s' : Sys} {T : Nat} (h : s.now = nowAt T) (hs : step c s .tick = some s') :
    s' = { s with now := nowAt (T + 1) } := by
  cases hs
  show { s with now := timerTick s.now } = _
  rw [h]
  unfold timerTick nowAt toU16
  congr 1
  omega

private theorem not_tick {c : Conf} {s s' : Sys} {T : Nat} {pinb : BitVec 8} (hi : Inv c s) (h : s.now = nowAt T)
    (hs : step c s (.buttonsWork pinb) = some s') : s'.now = nowAt T :=
  (step_now hi hs (by intro h; cases h)).trans h

theorem nextScreen_eq {c : Conf} {t : MenuState} : nextScreen c t = nextMenuState c t := by
  unfold nextScreen nextMenuState
  cases t <;> cases h1 : c.idle <;> cases h2 : c.debug <;> cases h3 : c.adj <;> cases h4 : c.kconf <;>
    simp [screenOrder, List.dropWhile, List.find?, ScreenExists, h1, h2, h3, h4]

private theorem released {l : List (Nat × BitVec 8)} {pinb prev : BitVec 8}
    (h : ∀ b, prev.getLsbD (buttonPin b) = WasDown l b) (b : Button) :
    Released l pinb b ↔ (prev.getLsbD (buttonPin b) = true ∧ pinb.getLsbD (buttonPin b) = true) := by
  unfold Released
  rw [h b, ← down_pin]
  simp

/-- the place of a screen in the order; the preset screens count as the last one -/
private def place : MenuState → Nat
  | .curtemp => 0 | .idletemp => 1 | .debug => 2 | .adjPre => 3 | .adj => 4 | .kpPre => 5 | .kp => 6
  | .kiPre => 7 | .ki => 8 | .kdPre => 9 | .kd => 10 | .selpreset => 10 | .chgpreset => 10

private theorem place_le (t : MenuState) : place t ≤ 10 := by cases t <;> decide

private theorem place_next {c : Conf} (t : MenuState) :
    nextMenuState c t = .curtemp ∨ place t < place (nextMenuState c t) := by
  unfold nextMenuState
  cases t <;> cases c.idle <;> cases c.debug <;> cases c.adj <;> cases c.kconf <;> decide

private theorem count_inv {c : Conf} {s : Sys} {l : List (Nat × BitVec 8)} {n : Nat} (h : SetCount c s l n) :
    Running c s ∧ (∀ b, s.btn.prev.getLsbD (buttonPin b) = WasDown l b) ∧ n ≤ place s.menu.state := by
  induction h with
  | boot hv e =>
    obtain ⟨h1, -, h3⟩ := boot_facts hv e
    exact ⟨h1, h3, Nat.zero_le _⟩
  | @sample s s' l n pinb T _ hx hs ih =>
    obtain ⟨i1, i2, i3⟩ := ih
    have hi := Running.inv i1
    obtain ⟨p1, p2, p3⟩ := sample_state hi hx.2 hs
    refine ⟨i1.step (e := .buttonsWork pinb) rfl hs, sample_was hx.2 hs, ?_⟩
    split
    · exact Nat.zero_le _
    · rename_i hc
      split
      · rename_i hr
        rw [released i2 .set, released i2 .minus, released i2 .plus] at hr
        rw [p3 hr.2.1.1 hr.2.1.2 hr.1 hr.2.2.1 hr.2.2.2] at hc ⊢
        have := (place_next (c := c) s.menu.state).resolve_left hc
        omega
      · by_cases hq : ¬ (s.btn.prev.getLsbD 2 = true ∧ pinb.getLsbD 2 = true) ∨ s.debugEn = true
        · rcases p1 hq with h | ⟨-, h⟩
          · rw [h]; exact i3
          · rw [h]; exact Nat.le_trans i3 (place_le _)
        · have : (s.btn.prev.getLsbD 2 = true ∧ pinb.getLsbD 2 = true) ∧ s.debugEn = false := by
            simpa using hq
          rcases p2 this.1.1 this.1.2 this.2 with h | ⟨-, h⟩
          · rw [h] at hc ⊢
            have := (place_next (c := c) s.menu.state).resolve_left hc
            omega
          · rw [h]; exact Nat.le_trans i3 (place_le _)
  | @other s e s' l n _ hp hs hx ih =>
    obtain ⟨i1, i2, i3⟩ := ih
    have hi := Running.inv i1
    refine ⟨i1.step hp hs, by rw [(noSample_btn hi hs hx).1]; exact i2, ?_⟩
    split
    · exact Nat.zero_le _
    · rename_i hc
      by_cases hm : e = .menuWork
      · subst hm
        rcases menuWork_state hi hs with h | ⟨h1, h⟩ | ⟨-, h⟩
        · rw [h]; exact i3
        · rw [h] at hc ⊢
          revert i3 hc h1
          cases s.menu.state <;> simp [place, leadsTo, holdTime] <;> omega
        · rw [h]; exact Nat.le_trans i3 (place_le _)
      · obtain ⟨-, -, u, h⟩ := quiet_step hi hs hm hx
        rw [h]; exact i3

theorem setCount_running {c : Conf} {s : Sys} {l : List (Nat × BitVec 8)} {n : Nat} (h : SetCount c s l n) :
    Running c s :=
  (count_inv h).1

/-- A release of SET, seen in a sample in which no other panel button is released, leads to the next screen
    that the build has, and after the last one to the temperature. -/
theorem C44_release (c : Conf) (s s' : Sys) (l : List (Nat × BitVec 8)) (n : Nat) (pinb : BitVec 8)
    (h : SetCount c s l n) (hx : Samples s (.buttonsWork pinb) pinb)
    (hs : step c s (.buttonsWork pinb) = some s') (hd : s.debugEn = false)
    (h1 : Released l pinb .set) (h2 : ¬ Released l pinb .minus) (h3 : ¬ Released l pinb .plus) :
    s'.menu.state = nextScreen c s.menu.state := by
  obtain ⟨i1, i2, -⟩ := count_inv h
  obtain ⟨-, -, p3⟩ := sample_state (Running.inv i1) hx.2 hs
  rw [released i2] at h1 h2 h3
  rw [nextScreen_eq]
  exact p3 h1.1 h1.2 hd h2 h3

/-- Whatever happens in between, the temperature is displayed again after at most ten releases of SET. -/
theorem C44_back (c : Conf) (s : Sys) (l : List (Nat × BitVec 8)) (n : Nat) (h : SetCount c s l n) :
    n ≤ 10 :=
  Nat.le_trans (count_inv h).2.2 (place_le _)

/-- Only screens of the build are ever displayed. -/
theorem C44_exists (c : Conf) (s : Sys) (h : Running c s) : ScreenExists c s.menu.state = true :=
  (Running.inv h).menu.screen

theorem screen_inv {c : Conf} {s : Sys} {T a : Nat} {l : List (Nat × BitVec 8)} (h : ScreenHist c s T l a) :
    Running c s ∧ s.now = nowAt T ∧ (∀ b, s.btn.prev.getLsbD (buttonPin b) = WasDown l b) ∧ a ≤ T ∧
    (∀ L, holdTime s.menu.state = some L → s.menu.timeout = nowAt (a + L)) := by
  have fresh : ∀ (T : Nat) (m : Menu), Fresh (nowAt T) m → ∀ L, holdTime m.state = some L → m.timeout = nowAt (T + L) := by
    intro T m hf L hL
    unfold Fresh entryTimeout at hf
    rw [hL] at hf
    rw [hf]
    unfold nowAt toU16
    simp only []
    omega
  induction h with
  | boot hv e =>
    obtain ⟨h1, h2, h3⟩ := boot_facts hv e
    refine ⟨h1, h2, h3, Nat.le_refl _, ?_⟩
    obtain ⟨-, st, -, b, t, hb, -, rfl⟩ := (boot_ok hv).elim e
    obtain ⟨x, u, em, hx⟩ := hb.menu
    intro L (hL : holdTime b.menu.state = some L)
    rw [em] at hL
    rcases hx with ⟨rfl, -⟩ | ⟨rfl, -⟩ <;> cases hL
  | @tick s s' T l a _ hs ih =>
    obtain ⟨i1, i2, i3, i4, i5⟩ := ih
    have := tick_now i2 hs
    have h1 := i1.step (e := .tick) rfl hs
    subst this
    exact ⟨h1, rfl, i3, by omega, i5⟩
  | @sample s s' T l a pinb _ hx hs ih =>
    obtain ⟨i1, i2, i3, i4, i5⟩ := ih
    have hi := Running.inv i1
    refine ⟨i1.step (e := .buttonsWork pinb) rfl hs, not_tick hi i2 hs, sample_was hx.2 hs, by split <;> omega, ?_⟩
    obtain ⟨called, hc, ec⟩ := sample_screen hi hx.2 hs
    have et : touched l pinb = called := by
      rw [ec]
      simp only [touched, List.any_cons, List.any_nil, ← i3, ← down_pin]
      simp only [buttonPin, Bool.or_comm]
    rw [et]
    rcases hc with ⟨g1, g2, g3⟩ | ⟨g1, g2, g3⟩
    · have : ¬ (s'.menu.state ≠ s.menu.state ∨ holdTime s.menu.state = some 3000 ∧ called = true) := by
        rintro (h | ⟨h1, h2⟩)
        · exact h g1
        · exact g3 h2 h1
      rw [if_neg this, g1, g2]
      exact i5
    · rw [i2] at g2
      intro L hL
      split
      · exact fresh _ _ g2 L hL
      · rename_i hh
        exfalso
        have h1 : s'.menu.state = s.menu.state := Classical.byContradiction fun h => hh (Or.inl h)
        have h2 : holdTime s.menu.state ≠ some 3000 := fun h => hh (Or.inr ⟨h, g1⟩)
        rw [h1] at g3
        rcases (by revert h2; cases s.menu.state <;> simp [holdTime] :
          holdTime s.menu.state = some 1500 ∨ holdTime s.menu.state = none) with h | h
        · exact g3 h rfl
        · rw [h1, h] at hL; cases hL
  | @other s e s' T l a _ hp hs hn hx ih =>
    obtain ⟨i1, i2, i3, i4, i5⟩ := ih
    have hi := Running.inv i1
    refine ⟨i1.step hp hs, (step_now hi hs hn).trans i2, by rw [(noSample_btn hi hs hx).1]; exact i3,
      by split <;> omega, ?_⟩
    intro L hL
    by_cases hm : e = .menuWork
    · subst hm
      have hT := menuWork_timeout hi hs
      rw [i2] at hT
      split
      · rename_i hh
        exact fresh _ _ (hT.resolve_left fun h => hh h.1).2 L hL
      · rename_i hh
        have hh : s'.menu.state = s.menu.state := Classical.byContradiction hh
        rw [hh] at hL
        rcases hT with ⟨-, h⟩ | h
        · rw [h]; exact i5 L hL
        · exact absurd hh h.1
    · obtain ⟨-, -, u, h⟩ := quiet_step hi hs hm hx
      rw [h] at hL ⊢
      rw [if_neg (by simp)]
      exact i5 L hL

/-- The screens with limited time are left by the menu's work function as soon as their time is over, and not
    before; except that a held button which changes the preset opens the screen that shows the change. -/
theorem C44_timeout (c : Conf) (s s' : Sys) (T a L : Nat) (l : List (Nat × BitVec 8)) (h : ScreenHist c s T l a)
    (hL : holdTime s.menu.state = some L) (hT : T < a + L + 32768) (hs : step c s .menuWork = some s') :
    (a + L ≤ T → s'.menu.state = leadsTo s.menu.state) ∧
    (T < a + L → s'.menu.state = s.menu.state ∨ (s.menu.state = .selpreset ∧ s'.menu.state = .chgpreset)) := by
  obtain ⟨i1, i2, i3, i4, i5⟩ := screen_inv h
  have hi := Running.inv i1
  obtain ⟨-, -, -, -, -, hw⟩ := menuWork_eff hi s' hs
  have hx : timerExpired s.now s.menu.timeout = decide (a + L ≤ T) := by
    rw [i2, i5 L hL]
    have hL2 : L ≤ 3000 := by revert hL; cases s.menu.state <;> simp [holdTime] <;> omega
    unfold timerExpired timerCountSince toU16 toS16 nowAt
    rw [decide_eq_decide]
    omega
  constructor
  · intro hh
    rw [decide_eq_true hh] at hx
    have ha : afterTimeout s.now s.menu = { s.menu with
        state := leadsTo s.menu.state, timeout := entryTimeout s.now (leadsTo s.menu.state) s.menu.timeout, ramp := .none } := by
      unfold afterTimeout
      rw [if_pos ⟨by rw [hL]; rfl, hx⟩]
    rw [ha] at hw
    cases hw with
    | same a1 => exact a1
    | start a1 => exact a1
    | step a1 a2 a3 a4 =>
      exfalso
      revert a4
      unfold afterError
      simp only [ite_self]
      decide
  · intro hh
    rw [decide_eq_false (by omega)] at hx
    rcases menuWork_state hi hs with h | ⟨h1, h⟩ | ⟨h1, h⟩
    · exact Or.inl h
    · exfalso
      have ha : afterTimeout s.now s.menu = s.menu := by
        unfold afterTimeout
        rw [if_neg (by rw [hx]; simp)]
      rw [ha] at hw
      have hne := leadsTo_ne h1
      rw [← h] at hne
      cases hw with
      | same a1 => exact hne a1.symm
      | start a1 => exact hne a1.symm
      | step a1 =>
        have : (stepMenu s.now (afterError (menuError s) s.menu)).state = s'.menu.state := a1.symm
        rw [h] at this
        revert this h1
        unfold stepMenu afterError
        cases s.menu.state <;> simp [holdTime, leadsTo]
    · rcases h1 with h1 | h1
      · rw [h1] at hL; cases hL
      · exact Or.inr ⟨h1, h⟩

theorem ramp_inv {c : Conf} {s : Sys} {T : Nat} {r : Option (Nat × Nat)} (h : RampHist c s T r) :
    Running c s ∧ s.now = nowAt T ∧ Ramping s.menu.ramp = r.isSome ∧
    ∀ t k, r = some (t, k) → s.menu.rampTimer = nowAt (t + due k) ∧ s.menu.period = (due (k + 1) : Int) - due k ∧
      t + due k ≤ T + 400 := by
  induction h with
  | boot hv e =>
    obtain ⟨h1, h2, h3⟩ := boot_facts hv e
    refine ⟨h1, h2, ?_, by simp⟩
    obtain ⟨-, st, -, b, t, hb, -, rfl⟩ := (boot_ok hv).elim e
    obtain ⟨x, u, em, hx⟩ := hb.menu
    show Ramping b.menu.ramp = _
    rw [em]
    rfl
  | @tick s s' T r _ hs ih =>
    obtain ⟨i1, i2, i3, i4⟩ := ih
    have := tick_now i2 hs
    have h1 := i1.step (e := .tick) rfl hs
    subst this
    refine ⟨h1, rfl, i3, fun t k hr => ?_⟩
    obtain ⟨j1, j2, j3⟩ := i4 t k hr
    exact ⟨j1, j2, by omega⟩
  | @start s e s' T r _ hp hs hn hR hne ih =>
    obtain ⟨i1, i2, i3, i4⟩ := ih
    have hi := Running.inv i1
    refine ⟨i1.step hp hs, (step_now hi hs hn).trans i2, hR, ?_⟩
    have key := ramp_start i1 hs hR hne
    intro t k hr
    cases hr
    refine ⟨by rw [key.1, i2]; rfl, by rw [key.2]; rfl, ?_⟩
    show T + 0 ≤ _
    omega
  | @stop s e s' T r _ hp hs hn hR ih =>
    obtain ⟨i1, i2, i3, i4⟩ := ih
    have hi := Running.inv i1
    exact ⟨i1.step hp hs, (step_now hi hs hn).trans i2, hR, by simp⟩
  | @work s s' T t k _ hs hk hT ih =>
    obtain ⟨i1, i2, i3, i4⟩ := ih
    have hi := Running.inv i1
    obtain ⟨j1, j2, j3⟩ := i4 t k rfl
    refine ⟨i1.step (e := .menuWork) rfl hs, (menuWork_btn hi hs).2.1.trans i2, by rw [hk]; exact i3, ?_⟩
    intro t' k' he
    obtain ⟨d1, d2, d3⟩ := due_succ k
    have hx := due_expired j3 (by omega)
    rw [← i2, ← j1] at hx
    rcases ramp_work hi hs i3 hk with ⟨q1, q2, q3, -⟩ | ⟨q1, q2, q3, -⟩
    · rw [q1] at hx
      have hle : ¬ t + due k ≤ T := by simpa using hx.symm
      rw [if_neg hle] at he
      cases he
      rw [q2, q3]
      exact ⟨j1, j2, j3⟩
    · rw [q1] at hx
      have hle : t + due k ≤ T := by simpa using hx.symm
      rw [if_pos hle] at he
      cases he
      rw [q2, q3, j1, j2]
      refine ⟨?_, d3, by omega⟩
      unfold nowAt toU16
      omega
  | @other s e s' T r _ hp hs hn hm hk ih =>
    obtain ⟨i1, i2, i3, i4⟩ := ih
    have hi := Running.inv i1
    refine ⟨i1.step hp hs, (step_now hi hs hn).trans i2, by rw [hk]; exact i3, ?_⟩
    intro t k hr
    obtain ⟨j1, j2, j3⟩ := i4 t k hr
    obtain ⟨k1, k2⟩ := ramp_kept i1 hs hm hk (by rw [i3, hr]; rfl)
    rw [k1, k2]
    exact ⟨j1, j2, j3⟩

/-- While a value is ramped, the call of the menu's work function changes it exactly if the next step is due,
    and then by one unit in the direction of the ramp, within the limits of the value. -/
theorem C46_steps (c : Conf) (s s' : Sys) (T t k : Nat) (h : RampHist c s T (some (t, k)))
    (hs : step c s .menuWork = some s') (hk : s'.menu.ramp = s.menu.ramp) (hT : T < t + due k + 32768) :
    (T < t + due k → s'.set.cache = s.set.cache) ∧
    (t + due k ≤ T → ∃ v inc lo hi, valueRange s.menu.state = some (inc, lo, hi) ∧
      valueIn s.set.cache s.ct.boost s.menu.state = some v ∧
      s'.set.cache = withValue s.set.cache s.ct.boost
        (max lo (min hi (if s.menu.ramp = .up then v + inc else v - inc))) s.menu.state) := by
  obtain ⟨i1, i2, i3, i4⟩ := ramp_inv h
  obtain ⟨j1, j2, j3⟩ := i4 t k rfl
  have hi := Running.inv i1
  have hx := due_expired j3 (by omega)
  rw [← i2, ← j1] at hx
  rcases ramp_work hi hs i3 hk with ⟨q1, -, -, q⟩ | ⟨q1, -, -, q⟩
  · rw [q1] at hx
    have hle : ¬ t + due k ≤ T := by simpa using hx.symm
    exact ⟨fun _ => q, fun h => absurd h hle⟩
  · rw [q1] at hx
    have hle : t + due k ≤ T := by simpa using hx.symm
    refine ⟨fun h => by omega, fun _ => ?_⟩
    obtain ⟨v, inc, lo, hi, q1, q2, q3⟩ := q
    refine ⟨v, inc, lo, hi, q1, q2, ?_⟩
    simpa using q3

/-- The distance of the steps is halved down to 25 ms and is never shorter. -/
theorem C46_distance (k : Nat) : due 0 = 0 ∧ due 1 = 400 ∧ due (k + 2) - due (k + 1) = max 25 ((due (k + 1) - due k) / 2) := by
  refine ⟨rfl, rfl, ?_⟩
  match k with
  | 0 | 1 | 2 => rfl
  | 3 => rfl
  | k + 4 =>
    have h1 : due (k + 4 + 1) = due (k + 4) + 25 := rfl
    have h2 : due (k + 4 + 2) = due (k + 4 + 1) + 25 := rfl
    rw [h2, h1]
    omega

/-- The menu's work function changes no value unless a ramp is and stays in progress. -/
theorem C46_else (c : Conf) (s s' : Sys) (h : Running c s) (hs : step c s .menuWork = some s')
    (hr : Ramping s.menu.ramp = false ∨ s'.menu.ramp ≠ s.menu.ramp) : s'.set.cache = s.set.cache := by
  have hi := Running.inv h
  obtain ⟨-, -, -, -, -, hw⟩ := menuWork_eff hi s' hs
  have w1 := work_ramp (s := s)
  cases hw with
  | same _ _ _ _ _ _ a7 => exact a7
  | start _ _ _ _ _ _ a7 => exact a7
  | step _ _ a3 a4 =>
    exfalso
    rcases w1 with w1 | w1
    · rw [w1] at a3 a4
      rcases hr with hr | hr
      · rw [hr] at a4; cases a4
      · exact hr a3
    · rw [w1] at a4; cases a4

private theorem hist_running {c : Conf} {s : Sys} {T : Nat} {l : List (Nat × BitVec 8)} (h : PinHist c s T l) :
    Running c s ∧ ∀ b, s.btn.prev.getLsbD (buttonPin b) = WasDown l b := by
  induction h with
  | boot hv e => exact ⟨(boot_facts hv e).1, (boot_facts hv e).2.2⟩
  | tick _ hs ih =>
    refine ⟨ih.1.step (e := .tick) rfl hs, ?_⟩
    cases hs
    exact ih.2
  | sample _ hx hs ih => exact ⟨ih.1.step (e := .buttonsWork _) rfl hs, sample_was hx.2 hs⟩
  | other _ hp hs hn hx ih =>
    exact ⟨ih.1.step hp hs, by rw [(noSample_btn (Running.inv ih.1) hs hx).1]; exact ih.2⟩

/-- A ramp goes up only while plus is down in the newest sample, and down only while minus is. -/
theorem C46_held (c : Conf) (s : Sys) (T : Nat) (l : List (Nat × BitVec 8)) (h : PinHist c s T l) :
    (s.menu.ramp = .up → WasDown l .plus = true) ∧ (s.menu.ramp = .down → WasDown l .minus = true) := by
  obtain ⟨h1, h2⟩ := hist_running h
  rw [← h2, ← h2]
  exact ⟨fun e => held_inv h1 true (by rw [e]; rfl), fun e => held_inv h1 false (by rw [e]; rfl)⟩

/-- The release of any panel button ends the ramp; there is one afterwards only if its button has been pressed
    in the same sample. -/
theorem C46_release (c : Conf) (s s' : Sys) (T : Nat) (l : List (Nat × BitVec 8)) (pinb : BitVec 8) (b : Button)
    (h : PinHist c s T l) (hx : Samples s (.buttonsWork pinb) pinb) (hs : step c s (.buttonsWork pinb) = some s')
    (hb : b ≠ .iron) (hr : Released l pinb b) :
    (s'.menu.ramp = .up → WasDown l .plus = false ∧ Down pinb .plus = true) ∧
    (s'.menu.ramp = .down → WasDown l .minus = false ∧ Down pinb .minus = true) := by
  obtain ⟨h1, h2⟩ := hist_running h
  rw [released h2] at hr
  obtain ⟨p1, -, p3⟩ := sample_ramp (Running.inv h1) hx.2 hs (held_inv h1)
  have p3 := p3 ⟨buttonPin b, by cases b <;> simp_all [buttonPin], hr⟩
  rw [← h2, ← h2, ← down_pin, ← down_pin]
  constructor
  · intro e
    rw [e] at p1 p3
    rcases p3 with p | ⟨-, -, up, p, q⟩
    · cases p
    · cases p
      exact ⟨q, congrArg (!·) (p1 true rfl)⟩
  · intro e
    rw [e] at p1 p3
    rcases p3 with p | ⟨-, -, up, p, q⟩
    · cases p
    · cases p
      exact ⟨q, congrArg (!·) (p1 false rfl)⟩

/-! Runs with their histories, for the examples. -/

structure PanelRun where
  s : Sys
  T : Nat
  l : List (Nat × BitVec 8)
  a : Nat
  n : Nat
  r : Option (Nat × Nat)

structure PanelRun.Ok (c : Conf) (x : PanelRun) : Prop where
  pin : PinHist c x.s x.T x.l
  screen : ScreenHist c x.s x.T x.l x.a
  count : SetCount c x.s x.l x.n
  ramp : RampHist c x.s x.T x.r

def PanelRun.tick (x : PanelRun) : PanelRun :=
  { x with s := { x.s with now := timerTick x.s.now }, T := x.T + 1, n := if x.s.menu.state = .curtemp then 0 else x.n }

theorem PanelRun.Ok.tick {c : Conf} {x : PanelRun} (h : x.Ok c) : x.tick.Ok c where
  pin := h.pin.tick rfl
  screen := h.screen.tick rfl
  count := h.count.other (e := .tick) rfl rfl fun p hp => by cases hp.1
  ramp := h.ramp.tick rfl

/-- `k` ticks -/
def PanelRun.wait (x : PanelRun) (k : Nat) : PanelRun :=
  match k with
  | 0 => x
  | _ + 1 => { x with s := { x.s with now := nowAt (x.T + k) }, T := x.T + k, n := if x.s.menu.state = .curtemp then 0 else x.n }

theorem PanelRun.Ok.wait {c : Conf} {x : PanelRun} (h : x.Ok c) (k : Nat) : (x.wait k).Ok c := by
  induction k with
  | zero => exact h
  | succ k ih =>
    have h1 := ih.tick
    have hn : (x.wait k).s.now = nowAt (x.wait k).T := (screen_inv ih.screen).2.1
    have ht : timerTick (x.wait k).s.now = nowAt (x.T + (k + 1)) := by
      rw [hn]
      cases k with
      | zero => unfold timerTick PanelRun.wait nowAt toU16; simp only []; omega
      | succ k => unfold timerTick PanelRun.wait nowAt toU16; simp only []; omega
    have : (x.wait k).tick = x.wait (k + 1) := by
      unfold PanelRun.tick
      rw [ht]
      cases k with
      | zero => rfl
      | succ k =>
        unfold PanelRun.wait
        simp only [ite_self, Nat.add_assoc]
        congr 1
        split <;> rfl
    rw [← this]
    exact h1

/-- one event that is not a tick -/
def PanelRun.ev (c : Conf) (x : PanelRun) (e : Ev) : Option PanelRun :=
  if possible x.s e = false ∨ e = .tick then none
  else (step c x.s e).bind fun s' =>
    let r : Option (Option (Nat × Nat)) :=
      if Ramping s'.menu.ramp = false then some none
      else if s'.menu.ramp ≠ x.s.menu.ramp then some (some (x.T, 0))
      else if e = .menuWork then
        match x.r with
        | some (t, k) => if x.T < t + due k + 32768 then some (some (t, if t + due k ≤ x.T then k + 1 else k)) else none
        | none => none
      else some x.r
    r.bind fun r =>
    let other : PanelRun := ⟨s', x.T, x.l, if s'.menu.state ≠ x.s.menu.state then x.T else x.a,
      if s'.menu.state = .curtemp then 0 else x.n, r⟩
    match e with
    | .buttonsWork pinb =>
      if timerExpired x.s.now x.s.btn.debounce = true then
        some ⟨s', x.T, (x.T, pinb) :: x.l,
          if s'.menu.state ≠ x.s.menu.state ∨ (holdTime x.s.menu.state = some 3000 ∧ touched x.l pinb = true) then x.T else x.a,
          (if s'.menu.state = .curtemp then 0
           else if x.s.debugEn = false ∧ Released x.l pinb .set ∧ ¬ Released x.l pinb .minus ∧ ¬ Released x.l pinb .plus
           then x.n + 1 else x.n), r⟩
      else some other
    | _ => some other

theorem PanelRun.Ok.ev {c : Conf} {x y : PanelRun} {e : Ev} (h : x.Ok c) (he : x.ev c e = some y) : y.Ok c := by
  unfold PanelRun.ev at he
  split at he
  · cases he
  · rename_i hpt
    have hp : possible x.s e = true := by
      cases hh : possible x.s e
      · exact absurd (Or.inl hh) hpt
      · rfl
    have ht : e ≠ .tick := fun hh => hpt (Or.inr hh)
    obtain ⟨s', hs, he⟩ := Option.bind_eq_some_iff.mp he
    obtain ⟨r, hr, he⟩ := Option.bind_eq_some_iff.mp he
    have hramp : RampHist c s' x.T r := by
      split at hr
      · rename_i h1
        cases hr
        exact h.ramp.stop hp hs ht h1
      · rename_i h1
        have h1 : Ramping s'.menu.ramp = true := by simpa using h1
        split at hr
        · rename_i h2
          cases hr
          exact h.ramp.start hp hs ht h1 h2
        · rename_i h2
          have h2 : s'.menu.ramp = x.s.menu.ramp := Classical.byContradiction h2
          split at hr
          · rename_i h3
            subst h3
            split at hr
            · rename_i t k h4
              split at hr
              · rename_i h5
                cases hr
                exact RampHist.work (h4 ▸ h.ramp) hs h2 h5
              · cases hr
            · cases hr
          · rename_i h3
            cases hr
            exact h.ramp.other hp hs ht h3 h2
    have other : (∀ pinb, ¬ Samples x.s e pinb) →
        PanelRun.Ok c ⟨s', x.T, x.l, if s'.menu.state ≠ x.s.menu.state then x.T else x.a,
          if s'.menu.state = .curtemp then 0 else x.n, r⟩ := fun hx =>
      ⟨h.pin.other hp hs ht hx, h.screen.other hp hs ht hx, h.count.other hp hs hx, hramp⟩
    cases e with
    | buttonsWork pinb =>
      by_cases hx : timerExpired x.s.now x.s.btn.debounce = true
      · simp only [if_pos hx] at he
        cases he
        exact ⟨h.pin.sample ⟨rfl, hx⟩ hs, h.screen.sample ⟨rfl, hx⟩ hs, h.count.sample x.T ⟨rfl, hx⟩ hs, hramp⟩
      · simp only [if_neg hx] at he
        cases he
        exact other fun p hh => hx hh.2
    | _ =>
      cases he
      exact other fun p hh => by cases hh.1

/-- ticks and events in turn -/
def PanelRun.run (c : Conf) (x : PanelRun) : List (Nat × Ev) → Option PanelRun
  | [] => some x
  | (k, e) :: es => ((x.wait k).ev c e).bind fun y => y.run c es

theorem PanelRun.Ok.run {c : Conf} {x y : PanelRun} (h : x.Ok c) {es : List (Nat × Ev)} (he : x.run c es = some y) :
    y.Ok c := by
  induction es generalizing x with
  | nil => cases he; exact h
  | cons e es ih =>
    obtain ⟨z, e1, e2⟩ := Option.bind_eq_some_iff.mp he
    exact ih ((h.wait _).ev e1) e2

theorem panelRun_any {c : Conf} {pinb : BitVec 8} {es : List (Nat × Ev)} {P : PanelRun → Bool}
    (hv : ValidEeprom c (shippedEeprom c))
    (h : ((boot c (shippedEeprom c) pinb).bind fun s => PanelRun.run c ⟨s, 0, [], 0, 0, none⟩ es).any P = true) :
    ∃ x, PanelRun.Ok c x ∧ P x = true := by
  match e : boot c (shippedEeprom c) pinb with
  | none => rw [e] at h; cases h
  | some b =>
    rw [e, Option.bind_some] at h
    match e' : PanelRun.run c ⟨b, 0, [], 0, 0, none⟩ es with
    | none => rw [e'] at h; cases h
    | some x =>
      rw [e'] at h
      refine ⟨x, PanelRun.Ok.run ⟨PinHist.boot hv e, ScreenHist.boot hv e, SetCount.boot hv e, RampHist.boot hv e⟩ e', h⟩

set_option maxRecDepth 100000 in
/-- The hypotheses of `C44_release` and `C44_back` are met: SET is pressed and released twice, the third
    release leads on from the debug screen to the calibration. -/
example : ∃ s s' l, SetCount .m328p s l 2 ∧ Samples s (.buttonsWork 0xFF) 0xFF ∧
    step .m328p s (.buttonsWork 0xFF) = some s' ∧ s.debugEn = false ∧ Released l 0xFF .set ∧
    ¬ Released l 0xFF .minus ∧ ¬ Released l 0xFF .plus ∧ s.menu.state = .debug ∧ s'.menu.state = .adjPre ∧
    nextScreen .m328p .debug = .adjPre := by
  obtain ⟨x, h, hP⟩ := panelRun_any (c := .m328p) (pinb := 0xFF)
    (es := [(0, .buttonsWork 0xFB), (10, .buttonsWork 0xFF), (10, .buttonsWork 0xFB), (10, .buttonsWork 0xFF),
      (10, .buttonsWork 0xFB), (10, .menuWork)])
    (P := fun x => decide (x.n = 2) && timerExpired x.s.now x.s.btn.debounce && !x.s.debugEn &&
      decide (Released x.l 0xFF .set) && decide (¬ Released x.l 0xFF .minus) && decide (¬ Released x.l 0xFF .plus) &&
      decide (x.s.menu.state = .debug) &&
      (step .m328p x.s (.buttonsWork 0xFF)).any fun (s' : Sys) => decide (s'.menu.state = .adjPre))
    validEeprom_m328p (by decide)
  simp only [Bool.and_eq_true, decide_eq_true_eq] at hP
  obtain ⟨⟨⟨⟨⟨⟨⟨p1, p2⟩, p3⟩, p4⟩, p5⟩, p6⟩, p7⟩, p8⟩ := hP
  match e : step .m328p x.s (.buttonsWork 0xFF) with
  | none => rw [e] at p8; cases p8
  | some s' =>
    rw [e] at p8
    simp only [Option.any_some, decide_eq_true_eq] at p8
    exact ⟨x.s, s', x.l, p1 ▸ h.count, ⟨rfl, p2⟩, e, by simpa using p3, p4, p5, p6, p7, p8, rfl⟩

set_option maxRecDepth 100000 in
/-- The hypotheses of `C44_timeout` are met: the screen of the idle temperature, kept alive by a touch
    of plus 30 ms after boot, is left 3 s after that. -/
example : ∃ s s' l, ScreenHist .m88p s 3030 l 30 ∧ holdTime s.menu.state = some 3000 ∧ 3030 < 30 + 3000 + 32768 ∧
    step .m88p s .menuWork = some s' ∧ s.menu.state = .idletemp ∧ s'.menu.state = .curtemp := by
  obtain ⟨x, h, hP⟩ := panelRun_any (c := .m88p) (pinb := 0xFF)
    (es := [(0, .buttonsWork 0xFB), (10, .buttonsWork 0xFF), (10, .buttonsWork 0xEF), (10, .buttonsWork 0xFF),
      (2970, .menuWork), (30, .buttonsWork 0xFF)])
    (P := fun x => decide (x.T = 3030) && decide (x.a = 30) && decide (x.s.menu.state = .idletemp) &&
      (step .m88p x.s .menuWork).any fun (s' : Sys) => decide (s'.menu.state = .curtemp))
    validEeprom_m88p (by decide)
  simp only [Bool.and_eq_true, decide_eq_true_eq] at hP
  obtain ⟨⟨⟨p1, p2⟩, p3⟩, p4⟩ := hP
  match e : step .m88p x.s .menuWork with
  | none => rw [e] at p4; cases p4
  | some s' =>
    rw [e] at p4
    simp only [Option.any_some, decide_eq_true_eq] at p4
    refine ⟨x.s, s', x.l, ?_, by rw [p3]; rfl, by omega, e, p3, p4⟩
    have := h.screen
    rw [p1, p2] at this
    exact this

set_option maxRecDepth 100000 in
/-- The hypotheses of `C46_steps`, `C46_held` and `C46_release` are met: in the screen of the idle temperature
    plus is held; the ramp begins with the sample at 20 ms and its third step, due at 620 ms,
    raises the idle temperature from 152 C to 153 C; the release of SET ends the ramp. -/
example : ∃ s s' s'' l, RampHist .m88p s 625 (some (20, 2)) ∧ step .m88p s .menuWork = some s' ∧
    s'.menu.ramp = s.menu.ramp ∧ 625 < 20 + due 2 + 32768 ∧ 20 + due 2 ≤ 625 ∧ s.menu.ramp = .up ∧
    s.set.cache.idleSp = 152 * 64 ∧ s'.set.cache.idleSp = 153 * 64 ∧
    PinHist .m88p s 625 l ∧ Samples s (.buttonsWork 0xEF) 0xEF ∧ step .m88p s (.buttonsWork 0xEF) = some s'' ∧
    Released l 0xEF .set ∧ s''.menu.ramp = .none := by
  obtain ⟨x, h, hP⟩ := panelRun_any (c := .m88p) (pinb := 0xFF)
    (es := [(0, .buttonsWork 0xFB), (10, .buttonsWork 0xFF), (10, .buttonsWork 0xEF), (0, .menuWork), (30, .menuWork),
      (380, .menuWork), (150, .buttonsWork 0xEB), (10, .menuWork), (35, .settingsWork)])
    (P := fun x => decide (x.T = 625) && decide (x.r = some (20, 2)) && decide (x.s.menu.ramp = .up) &&
      decide (x.s.set.cache.idleSp = 152 * 64) && timerExpired x.s.now x.s.btn.debounce &&
      decide (Released x.l 0xEF .set) &&
      ((step .m88p x.s .menuWork).any fun (s' : Sys) => decide (s'.menu.ramp = x.s.menu.ramp) &&
        decide (s'.set.cache.idleSp = 153 * 64)) &&
      ((step .m88p x.s (.buttonsWork 0xEF)).any fun (s' : Sys) => decide (s'.menu.ramp = .none)))
    validEeprom_m88p (by decide)
  simp only [Bool.and_eq_true, decide_eq_true_eq] at hP
  obtain ⟨⟨⟨⟨⟨⟨⟨p1, p2⟩, p3⟩, p4⟩, p5⟩, p6⟩, p7⟩, p8⟩ := hP
  have hr := h.ramp
  have hp := h.pin
  rw [p1] at hr hp
  rw [p2] at hr
  match e : step .m88p x.s .menuWork, e' : step .m88p x.s (.buttonsWork 0xEF) with
  | none, _ => rw [e] at p7; cases p7
  | some _, none => rw [e'] at p8; cases p8
  | some s', some s'' =>
    rw [e] at p7
    rw [e'] at p8
    simp only [Option.any_some, Bool.and_eq_true, decide_eq_true_eq] at p7 p8
    exact ⟨x.s, s', s'', x.l, hr, e, p7.1, by decide, by decide, p3, p4, p7.2, hp, ⟨rfl, p5⟩, e', p6, p8⟩

end Verif.Props
