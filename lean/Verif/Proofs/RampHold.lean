import Verif.Proofs.Sample
import Verif.Props.Timer
/-
The ramp of a held button: its timer and its steps.
-/
namespace Verif.Props
open Spec

/-- who ramps holds the button down -/
theorem held_inv {c : Conf} {s : Sys} (h : Running c s) :
    ∀ up, Dir s.menu.ramp = some up → s.btn.prev.getLsbD (dirPin up) = true := by
  induction h with
  | boot hv e =>
    obtain ⟨-, st, -, b, t, hb, -, rfl⟩ := (boot_ok hv).elim e
    obtain ⟨x, u, em, -⟩ := hb.menu
    intro up (hu : Dir b.menu.ramp = some up)
    rw [em] at hu
    cases hu
  | @step s e s' hr hp hs ih =>
    have hi := Running.inv hr
    by_cases hm : e = .menuWork
    · subst hm
      rw [(menuWork_btn hi hs).1]
      obtain ⟨-, -, -, -, -, hw⟩ := menuWork_eff hi s' hs
      have hm : ∀ up, Dir (afterError (menuError s) (afterTimeout s.now s.menu)).ramp = some up →
          Dir s.menu.ramp = some up := by
        intro up
        unfold afterError afterTimeout
        split <;> split <;> first | exact id | exact fun h => by cases h
      intro up hu
      refine ih up (hm up ?_)
      rw [← hu]
      cases hw with
      | same _ _ a3 => rw [a3]
      | start _ _ a3 => rcases a3 with ⟨a, b⟩ | ⟨a, b⟩ <;> rw [a, b] <;> rfl
      | step _ _ a3 => rw [a3]
    · by_cases hb : ∃ pinb, Samples s e pinb
      · obtain ⟨pinb, rfl, hx⟩ := hb
        obtain ⟨p1, -, -⟩ := sample_ramp hi hx hs ih
        intro up hu
        rw [sample_btn hx hs]
        have := p1 up hu
        cases up
        · exact (buttonsRaw_bit .minus pinb).trans (by rw [show buttonPin .minus = 3 from rfl]; exact congrArg (!·) this)
        · exact (buttonsRaw_bit .plus pinb).trans (by rw [show buttonPin .plus = 4 from rfl]; exact congrArg (!·) this)
      · obtain ⟨h1, -, u, h3⟩ := quiet_step hi hs hm fun pinb h => hb ⟨pinb, h⟩
        rw [h1, h3]
        exact ih

theorem due_succ (k : Nat) :
    due k + 25 ≤ due (k + 1) ∧ due (k + 1) ≤ due k + 400 ∧
    (if ((due (k + 1) : Int) - due k) > 25 then ((due (k + 1) : Int) - due k) / 2 else (due (k + 1) : Int) - due k) =
      (due (k + 2) : Int) - due (k + 1) := by
  match k with
  | 0 | 1 | 2 | 3 => decide
  | k + 4 =>
    have h1 : due (k + 4 + 1) = due (k + 4) + 25 := rfl
    have h2 : due (k + 4 + 2) = due (k + 4 + 1) + 25 := rfl
    rw [h2, h1]
    refine ⟨by omega, by omega, ?_⟩
    split <;> omega

theorem work_ramp {s : Sys} :
    (afterError (menuError s) (afterTimeout s.now s.menu)).ramp = s.menu.ramp ∨
    (afterError (menuError s) (afterTimeout s.now s.menu)).ramp = .none := by
  unfold afterError afterTimeout
  split <;> split <;> first | exact Or.inl rfl | exact Or.inr rfl

theorem work_timer {s : Sys} :
    (afterError (menuError s) (afterTimeout s.now s.menu)).rampTimer = s.menu.rampTimer ∧
    (afterError (menuError s) (afterTimeout s.now s.menu)).period = s.menu.period := by
  unfold afterError afterTimeout
  split <;> exact ⟨rfl, rfl⟩

/-- the menu's work while a ramp goes on -/
theorem ramp_work {c : Conf} {s s' : Sys} (hi : Inv c s) (hs : step c s .menuWork = some s')
    (hr : Ramping s.menu.ramp = true) (hk : s'.menu.ramp = s.menu.ramp) :
    (timerExpired s.now s.menu.rampTimer = false ∧ s'.menu.rampTimer = s.menu.rampTimer ∧
      s'.menu.period = s.menu.period ∧ s'.set.cache = s.set.cache) ∨
    (timerExpired s.now s.menu.rampTimer = true ∧ s'.menu.rampTimer = toU16 (s.menu.rampTimer + s.menu.period) ∧
      s'.menu.period = (if s.menu.period > 25 then s.menu.period / 2 else s.menu.period) ∧
      Stepped s s' (s.menu.ramp = .up)) := by
  obtain ⟨-, -, -, -, -, hw⟩ := menuWork_eff hi s' hs
  have w1 := work_ramp (s := s)
  have w2 := work_timer (s := s)
  revert hw w1 w2
  generalize afterError (menuError s) (afterTimeout s.now s.menu) = m
  intro hw w1 w2
  cases hw with
  | same a1 a2 a3 a4 a5 a6 a7 a8 =>
    rw [a4, a5, a7, w2.1, w2.2]
    refine Or.inl ⟨?_, rfl, rfl, rfl⟩
    rw [← w2.1]
    exact a8 (by rw [← a3, hk]; exact hr)
  | start a1 a2 a3 =>
    exfalso
    rw [hk] at a3
    rcases w1 with w1 | w1 <;> rw [w1] at a3 <;> revert a3 hr <;> cases s.menu.ramp <;> simp [Ramping]
  | step a1 a2 a3 a4 a5 a6 a7 a8 a9 =>
    have : m.ramp = s.menu.ramp := a3.symm.trans hk
    rw [w2.1] at a5 a6
    rw [w2.2] at a6 a7
    rw [this] at a9
    exact Or.inr ⟨a5, a6, a7, a9⟩

theorem due_expired {T d : Nat} (h1 : d ≤ T + 400) (h2 : T < d + 32768) :
    timerExpired (nowAt T) (nowAt d) = decide (d ≤ T) := by
  unfold timerExpired timerCountSince toU16 toS16 nowAt
  rw [decide_eq_decide]
  omega

/-- the timer and the period of a ramp that begins -/
theorem ramp_start {c : Conf} {s s' : Sys} {e : Ev} (h : Running c s) (hs : step c s e = some s')
    (hR : Ramping s'.menu.ramp = true) (hne : s'.menu.ramp ≠ s.menu.ramp) :
    s'.menu.rampTimer = s.now ∧ s'.menu.period = 400 := by
  have hi := Running.inv h
  by_cases hm : e = .menuWork
  · subst hm
    obtain ⟨-, -, -, -, -, hw⟩ := menuWork_eff hi s' hs
    have w1 := work_ramp (s := s)
    have no : s'.menu.ramp = (afterError (menuError s) (afterTimeout s.now s.menu)).ramp → False := by
      intro h
      rcases w1 with w1 | w1
      · exact hne (h.trans w1)
      · rw [h, w1] at hR; cases hR
    cases hw with
    | same _ _ a3 => exact (no a3).elim
    | start _ _ _ _ a5 a6 => exact ⟨a5, a6⟩
    | step _ _ a3 => exact (no a3).elim
  · by_cases hb : ∃ pinb, Samples s e pinb
    · obtain ⟨pinb, rfl, hx⟩ := hb
      obtain ⟨-, p2, -⟩ := sample_ramp hi hx hs (held_inv h)
      rcases p2 with p | p | p
      · exact absurd p.1 hne
      · rw [p] at hR; cases hR
      · exact ⟨p.1, p.2.1⟩
    · obtain ⟨-, -, u, h3⟩ := quiet_step hi hs hm fun pinb h => hb ⟨pinb, h⟩
      rw [h3] at hne
      exact absurd rfl hne

/-- the timer and the period of a ramp in progress are the business of the menu's work function -/
theorem ramp_kept {c : Conf} {s s' : Sys} {e : Ev} (h : Running c s) (hs : step c s e = some s') (hm : e ≠ .menuWork)
    (hk : s'.menu.ramp = s.menu.ramp) (hR : Ramping s.menu.ramp = true) :
    s'.menu.rampTimer = s.menu.rampTimer ∧ s'.menu.period = s.menu.period := by
  have hi := Running.inv h
  by_cases hb : ∃ pinb, Samples s e pinb
  · obtain ⟨pinb, rfl, hx⟩ := hb
    obtain ⟨-, p2, -⟩ := sample_ramp hi hx hs (held_inv h)
    rcases p2 with p | p | ⟨-, -, up, p1, p2⟩
    · exact p.2
    · rw [← hk, p] at hR; cases hR
    · rw [hk] at p1
      rw [held_inv h up p1] at p2
      cases p2
  · obtain ⟨-, -, u, h3⟩ := quiet_step hi hs hm fun pinb h => hb ⟨pinb, h⟩
    rw [h3]
    exact ⟨rfl, rfl⟩

end Verif.Props
