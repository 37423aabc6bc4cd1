import Verif.Spec.LoopRamp
import Verif.Proofs.RampValue
import Verif.Proofs.LoopPanel
import Verif.Props.Press
/-
C106: a value changed by a held button, in real time.
-/
namespace Verif.Props
open Spec

/-! ### the events -/

/-- the screen of a ramp that goes on -/
private theorem menu_screen {c : Conf} {s s' : Sys} (hi : Inv c s) (hs : step c s .menuWork = some s')
    (hr : Ramping s.menu.ramp = true) (hk : s'.menu.ramp = s.menu.ramp) :
    s'.menu.state = s.menu.state ∨
    ((s.menu.state = .curtemp ∨ s.menu.state = .selpreset) ∧ s'.menu.state = .chgpreset) := by
  obtain ⟨-, -, -, -, -, hw⟩ := menuWork_eff hi s' hs
  have keep : (afterError (menuError s) (afterTimeout s.now s.menu)).ramp ≠ .none →
      (afterError (menuError s) (afterTimeout s.now s.menu)).state = s.menu.state := by
    unfold afterError afterTimeout
    simp only []
    split <;> split <;> simp
  revert hw keep
  generalize afterError (menuError s) (afterTimeout s.now s.menu) = m
  intro hw keep
  cases hw with
  | same a1 a2 a3 => exact Or.inl (a1.trans (keep (by rw [← a3, hk]; exact ramping_ne hr)))
  | start a1 a2 a3 => exact Or.inl (a1.trans (keep (by rcases a3 with ⟨a, -⟩ | ⟨a, -⟩ <;> rw [a] <;> decide)))
  | step a1 a2 a3 a4 a5 a6 a7 a8 =>
    rw [a1, a8]
    unfold stepMenu
    split <;> simp_all

private theorem press_kept (p : Panel) (c : Conf) (now : Int) (b : Button) :
    (p.press c now b).state = p.state ∧ (p.press c now b).cache = p.cache := by
  obtain ⟨st, r, pr, ca, de⟩ := p
  unfold Panel.press
  split
  · exact ⟨rfl, rfl⟩
  · cases st <;> first | exact ⟨rfl, rfl⟩ | (simp only []; split <;> exact ⟨rfl, rfl⟩)

private theorem block_kept (p : Panel) (c : Conf) (now : Int) (b : Button) {was down : Bool} (h : ¬ (was = true ∧ down = false)) :
    (p.block c now b was down).state = p.state ∧ (p.block c now b was down).cache = p.cache := by
  cases was <;> cases down
  · exact ⟨rfl, rfl⟩
  · exact press_kept p c now b
  · exact absurd ⟨rfl, rfl⟩ h
  · exact ⟨rfl, rfl⟩

/-- the other events leave the screen and the settings of a ramp that goes on -/
private theorem other_kept {c : Conf} {s s' : Sys} {e : Ev} (h : Running c s) (hs : step c s e = some s')
    (hm : e ≠ .menuWork) (hk : s'.menu.ramp = s.menu.ramp) (hR : Ramping s.menu.ramp = true) :
    s'.menu.state = s.menu.state ∧ SameVals s'.set.cache s.set.cache := by
  have hi := Running.inv h
  by_cases hb : ∃ pinb, Samples s e pinb
  · obtain ⟨pinb, rfl, hx⟩ := hb
    obtain ⟨-, -, p3⟩ := sample_ramp hi hx hs (held_inv h)
    have no : ∀ i, (i = 2 ∨ i = 3 ∨ i = 4) → ¬ (s.btn.prev.getLsbD i = true ∧ (!pinb.getLsbD i) = false) := by
      rintro i hi ⟨h1, h2⟩
      rcases p3 ⟨i, hi, h1, by simpa using h2⟩ with p | ⟨-, -, up, p1, p2⟩
      · rw [hk] at p; exact ramping_ne hR p
      · rw [hk] at p1
        rw [held_inv h up p1] at p2
        cases p2
    have hp := sample_panel hi hx hs
    obtain ⟨a1, a2⟩ := block_kept s.panel c s.now .set (no 2 (by simp))
    obtain ⟨b1, b2⟩ := block_kept (s.panel.block c s.now .set (s.btn.prev.getLsbD 2) (!pinb.getLsbD 2)) c s.now .minus (no 3 (by simp))
    obtain ⟨d1, d2⟩ := block_kept ((s.panel.block c s.now .set (s.btn.prev.getLsbD 2) (!pinb.getLsbD 2)).block c s.now .minus
      (s.btn.prev.getLsbD 3) (!pinb.getLsbD 3)) c s.now .plus (no 4 (by simp))
    rw [← hp] at d1 d2
    have e1 : s'.menu.state = s.menu.state := d1.trans (b1.trans a1)
    have e2 : s'.set.cache = s.set.cache := d2.trans (b2.trans a2)
    exact ⟨e1, by rw [e2]; rfl⟩
  · have hn : ∀ pinb, ¬ Samples s e pinb := fun pinb h => hb ⟨pinb, h⟩
    obtain ⟨-, -, u, h3⟩ := quiet_step hi hs hm hn
    exact ⟨by rw [h3], C67_else c s s' e h hs hn hm⟩

/-! ### the ramp -/

/-- the ramp in the main loop -/
private theorem ramp_loop {v : Speed} {c : Conf} {x : Loop} {t : Nat} {v0 : Int} (hv : v.Sane) (h : LoopRamp v c x t v0)
    (hT : v.W ≤ 25 ∨ x.T < t + 32768) :
    LoopInv v c x ∧ Ramping x.s.menu.ramp = true ∧ t ≤ x.T ∧ ∃ k inc lo hi,
      valueRange x.s.menu.state = some (inc, lo, hi) ∧ 0 < inc ∧ lo ≤ v0 ∧ v0 ≤ hi ∧
      valueIn x.s.set.cache x.s.ct.boost x.s.menu.state = some (ramped x.s.menu.ramp v0 inc lo hi k) ∧
      x.s.menu.rampTimer = nowAt (t + due k) ∧ x.s.menu.period = (due (k + 1) : Int) - due k ∧
      (k = 0 ∨ t + due (k - 1) ≤ x.T) ∧ Behind v .menu x (t + dueIn v.W k) := by
  induction h with
  | @start x e y v0 hx hs ht hR hne hv0 =>
    have hinv := hx.inv hv
    have hinv' := hinv.step hv hs ht
    obtain ⟨i1, i2, -⟩ := window_inv hinv.win
    rcases hs.sys with ⟨rfl, es, -⟩ | ⟨f, rfl, hp, hf, eT, -, -, -, er⟩
    · rw [es] at hne; exact absurd rfl hne
    · obtain ⟨inc, lo, hi, q1, q2, q3, q4⟩ := value_in (Running.inv (i1.step hp hf)) hv0
      obtain ⟨s1, s2⟩ := ramp_start i1 hf hR hne
      refine ⟨hinv', hR, hs.time.1, 0, inc, lo, hi, q1, q2, q3, q4, ?_, ?_, ?_, Or.inl rfl, ?_⟩
      · rw [hv0]
        unfold ramped
        congr 1
        simp only [Int.natCast_zero, Int.zero_mul, Int.add_zero, Int.sub_zero]
        split <;> omega
      · rw [s1, i2]; rfl
      · rw [s2]; rfl
      · refine Behind.of ?_
        have := hinv.reset
        rw [er]
        show x.reset ≤ x.T + 0
        omega
  | @step x e y t v0 h0 hs ht hk hb ih =>
    have hxy := hs.time
    obtain ⟨hinv, hR, hle, k, inc, lo, hi, q1, q2, q3, q4, q5, q6, q7, q8, q9⟩ := ih (hT.imp_right fun h => by omega)
    have hinv' := hinv.step hv hs ht
    obtain ⟨i1, i2, -⟩ := window_inv hinv.win
    have hI := Running.inv i1
    have hdog := hinv.dog
    have hbl := q9.le
    have hres := hinv.reset
    refine ⟨hinv', by rw [hk]; exact hR, by omega, ?_⟩
    rcases hs.sys with ⟨rfl, es, eT, -⟩ | ⟨f, rfl, hp, hf, eT, -, -, -, er⟩
    · rw [es]
      exact ⟨k, inc, lo, hi, q1, q2, q3, q4, q5, q6, q7, q8.imp_right fun h => by omega,
        q9.step (by decide) hdog hs (by rintro ⟨g, p, h1, -⟩; cases h1)⟩
    · have hval : valueIn y.s.set.cache y.s.ct.boost x.s.menu.state = valueIn y.s.set.cache x.s.ct.boost x.s.menu.state :=
        value_boost hb
      by_cases hm : f = .menuWork
      · subst hm
        have eT : y.T = x.T := eT
        obtain ⟨z1, z2⟩ := kind_value (menu_screen hI hf hR hk)
        have hd := due_le k
        have hlt : x.T < t + due k + 32768 := by
          rcases hT with hT | hT
          · rw [dueIn_fast hT] at hbl; omega
          · omega
        have hx := due_expired (T := x.T) (d := t + due k) (by rcases q8 with rfl | q8; · (show t + 0 ≤ _); omega
                                                               · omega) hlt
        rw [← i2, ← q6] at hx
        obtain ⟨d1, d2, d3⟩ := due_succ k
        rcases ramp_work hI hf hR hk with ⟨w1, w2, w3, w4⟩ | ⟨w1, w2, w3, w4⟩
        · rw [w1] at hx
          have hnot : ¬ t + due k ≤ x.T := by simpa using hx.symm
          refine ⟨k, inc, lo, hi, by rw [z1]; exact q1, q2, q3, q4, ?_, by rw [w2]; exact q6, by rw [w3]; exact q7,
            q8.imp_right fun h => by omega, Behind.of ?_⟩
          · rw [z2, hval, w4, hk]; exact q5
          · have := due_dueIn v.W k
            omega
        · rw [w1] at hx
          have hdue : t + due k ≤ x.T := by simpa using hx.symm
          refine ⟨k + 1, inc, lo, hi, by rw [z1]; exact q1, q2, q3, q4, ?_, ?_, ?_, Or.inr ?_, Behind.of ?_⟩
          · obtain ⟨w, inc', lo', hi', r1, r2, r3⟩ := w4
            rw [q1] at r1
            cases r1
            rw [q5] at r2
            cases r2
            rw [z2, hval, r3, hk, value_with q5]
            congr 1
            rw [← ramped_step q3 q4 q2 k]
            simp
          · rw [w2, q6, q7]
            unfold nowAt toU16
            omega
          · rw [w3, q7]; exact d3
          · simp only [Nat.add_sub_cancel]; omega
          · have : dueIn v.W (k + 1) = dueIn v.W k + max v.W (due (k + 1) - due k) := rfl
            omega
      · obtain ⟨z1, z2⟩ := other_kept i1 hf hm hk hR
        obtain ⟨k1, k2⟩ := ramp_kept i1 hf hm hk hR
        rw [z1, hk, k1, k2]
        refine ⟨k, inc, lo, hi, q1, q2, q3, q4, ?_, q6, q7, q8.imp_right fun h => by omega,
          q9.step (by decide) hdog hs (by rintro ⟨g, p, h1, h2⟩; cases h1; cases h2; exact hm rfl)⟩
        rw [hval, value_same z2]
        exact q5

/-! ### the start -/

private theorem waits_before {c : Conf} {s s' : Sys} {up : Bool} (hi : Inv c s) (hs : step c s .menuWork = some s')
    (hr : s'.menu.ramp = waiting up) : s.menu.ramp = waiting up := by
  obtain ⟨-, -, -, -, -, w⟩ := menuWork_eff hi s' hs
  cases w with
  | same w1 w2 w3 =>
    rw [hr] at w3
    rcases after_ramp (menuError s) s.now s.menu with hh | hh
    · rw [hh] at w3; cases up <;> cases w3
    · rw [← hh]; exact w3.symm
  | start w1 w2 w3 =>
    exfalso
    rw [hr] at w3
    rcases w3 with ⟨-, w3⟩ | ⟨-, w3⟩ <;> cases up <;> cases w3
  | step w1 w2 w3 w4 =>
    exfalso
    rw [hr] at w3
    rw [← w3] at w4
    cases up <;> cases w4

private theorem dir_waiting (up : Bool) : Dir (waiting up) = some up := by cases up <;> rfl

private theorem dir_going {r : Ramp} {up : Bool} (h : Ramping r = true) (hd : Dir r = some up) : r = going up := by
  cases r <;> cases up <;> first | (cases h; done) | (cases hd; done) | rfl

private theorem dir_pin (up : Bool) : buttonPin (rampButton up) = dirPin up := by cases up <;> rfl

/-- while a ramp waits, the menu's work function is not late -/
private theorem wait_loop {v : Speed} {c : Conf} {x : Loop} {l : List (Nat × BitVec 8)} {a : Nat} (hv : v.Sane)
    (h : LoopPanel v c x l a) : ∀ up t, x.s.menu.ramp = waiting up → heldSince (rampButton up) l = some t →
      Behind v .menu x (t + 1000) := by
  have hW : v.W ≤ 8191 := by
    have : 5 + 50 + 2 * v.A + 4 * v.W ≤ 32767 := hv.1
    omega
  induction h with
  | boot hv e => intro up t _ h; cases h
  | @sample x y l a pinb hl hs ht hx ih =>
    intro up t hr hh
    have hinv := hl.inv hv
    obtain ⟨i1, i2, i3⟩ := pins_inv hinv.pins
    rcases hs.sys with ⟨h, -⟩ | ⟨f, hf, hp, hf', eT, -, -, -, er⟩
    · cases h
    cases hf
    have hres := hinv.inv.reset
    unfold heldSince at hh
    split at hh
    · split at hh
      · rename_i hw
        obtain ⟨-, p2, -⟩ := sample_ramp (Running.inv i1) hx.2 hf' (held_inv i1)
        rcases p2 with p | p | ⟨-, -, up', p1, p2⟩
        · exact (ih up t (p.1.symm.trans hr) hh).step (by decide) hinv.inv.dog hs (by rintro ⟨g, p, h1, h2⟩; cases h1; cases h2)
        · rw [hr] at p; cases up <;> cases p
        · exfalso
          rw [hr, dir_waiting] at p1
          cases p1
          rw [← dir_pin, i3, hw] at p2
          cases p2
      · cases hh
        exact Behind.of (by omega)
    · cases hh
  | @other x e y l a hl hs ht hn ih =>
    intro up t hr hh
    have hinv := hl.inv hv
    obtain ⟨i1, i2, i3⟩ := pins_inv hinv.pins
    have hres := hinv.inv.reset
    have hdog := hinv.inv.dog
    rcases hs.sys with ⟨rfl, es, eT, -⟩ | ⟨f, rfl, hp, hf, eT, -, -, -, er⟩
    · rw [es] at hr
      exact (ih up t hr hh).step (by decide) hdog hs (by rintro ⟨g, p, h1, h2⟩; cases h1)
    · by_cases hm : f = .menuWork
      · subst hm
        have hr' := waits_before (Running.inv i1) hf hr
        have hb := (ih up t hr' hh).le
        refine Behind.of ?_
        rcases C68_starts c x.s y.s x.T t l up hinv.pins hr' hh (by omega) hf with ⟨h1, -⟩ | ⟨h1, -⟩
        · by_cases hT : t + 1000 ≤ x.T
          · rw [if_pos hT, hr] at h1
            cases up <;> cases h1
          · omega
        · rw [hr] at h1
          cases up <;> cases h1
      · obtain ⟨-, -, u, h3⟩ := quiet_step (Running.inv i1) hf hm fun pinb => hn f pinb rfl
        rw [h3] at hr
        exact (ih up t hr hh).step (by decide) hdog hs (by rintro ⟨g, p, h1, h2⟩; cases h1; cases h2; exact hm rfl)

/-- A ramp waits only until its button has been held for one second and the loop has come round twice. -/
theorem C106_wait (v : Speed) (c : Conf) (x : Loop) (l : List (Nat × BitVec 8)) (a : Nat) (up : Bool) (hv : v.Sane)
    (h : LoopPanel v c x l a) (hr : x.s.menu.ramp = waiting up) :
    ∃ t, heldSince (rampButton up) l = some t ∧ t ≤ x.T ∧ x.T ≤ t + 1000 + 2 * v.W := by
  have hinv := h.inv hv
  obtain ⟨t, h1, h2⟩ := C68_waits c x.s x.T l up hinv.pins hr
  have := (wait_loop hv h up t hr h1).le
  have := hinv.inv.dog
  exact ⟨t, h1, h2, by omega⟩

/-- A ramp begins in the sample in which its button goes down, or, if it has to wait, when its button has been held for
    one second: not before, and not later than two iterations of the loop after. -/
theorem C106_begin (v : Speed) (c : Conf) (x y : Loop) (e : Option Ev) (l : List (Nat × BitVec 8)) (a : Nat) (hv : v.Sane)
    (h : LoopPanel v c x l a) (hs : LoopStep c x e y) (hR : Ramping y.s.menu.ramp = true)
    (hne : y.s.menu.ramp ≠ x.s.menu.ramp) : ∃ up, y.s.menu.ramp = going up ∧
      ((∃ pinb, e = some (.buttonsWork pinb) ∧ Samples x.s (.buttonsWork pinb) pinb ∧ Pressed l pinb (rampButton up)) ∨
       (e = some .menuWork ∧ x.s.menu.ramp = waiting up ∧ ∃ t, heldSince (rampButton up) l = some t ∧
          t + 1000 ≤ x.T ∧ x.T ≤ t + 1000 + 2 * v.W)) := by
  have hW : v.W ≤ 8191 := by
    have : 5 + 50 + 2 * v.A + 4 * v.W ≤ 32767 := hv.1
    omega
  have hinv := h.inv hv
  obtain ⟨i1, i2, i3⟩ := pins_inv hinv.pins
  have hi := Running.inv i1
  rcases hs.sys with ⟨rfl, es, -⟩ | ⟨f, rfl, hp, hf, -⟩
  · rw [es] at hne; exact absurd rfl hne
  by_cases hm : f = .menuWork
  · subst hm
    have wait : ∀ up, x.s.menu.ramp = waiting up → y.s.menu.ramp = going up → ∃ up, y.s.menu.ramp = going up ∧
        ((∃ pinb, some Ev.menuWork = some (.buttonsWork pinb) ∧ Samples x.s (.buttonsWork pinb) pinb ∧ Pressed l pinb (rampButton up)) ∨
         (some Ev.menuWork = some .menuWork ∧ x.s.menu.ramp = waiting up ∧ ∃ t, heldSince (rampButton up) l = some t ∧
            t + 1000 ≤ x.T ∧ x.T ≤ t + 1000 + 2 * v.W)) := by
      intro up hw hg
      obtain ⟨t, h1, h2, h3⟩ := C106_wait v c x l a up hv h hw
      refine ⟨up, hg, Or.inr ⟨rfl, hw, t, h1, ?_, h3⟩⟩
      rcases C68_starts c x.s y.s x.T t l up hinv.pins hw h1 (by omega) hf with ⟨g1, -⟩ | ⟨g1, -⟩
      · refine Classical.byContradiction fun hT => ?_
        rw [if_neg hT, hg] at g1
        cases up <;> cases g1
      · rw [hg] at g1; cases up <;> cases g1
    obtain ⟨-, -, -, -, -, hw⟩ := menuWork_eff hi y.s hf
    have w1 := work_ramp (s := x.s)
    have no : y.s.menu.ramp = (afterError (menuError x.s) (afterTimeout x.s.now x.s.menu)).ramp → False := by
      intro h
      rcases w1 with w1 | w1
      · exact hne (h.trans w1)
      · rw [h, w1] at hR; cases hR
    cases hw with
    | same _ _ a3 => exact (no a3).elim
    | step _ _ a3 => exact (no a3).elim
    | start _ _ a3 =>
      rcases a3 with ⟨a, b⟩ | ⟨a, b⟩ <;> rcases w1 with w1 | w1 <;> rw [w1] at a
      · exact wait true a b
      · cases a
      · exact wait false a b
      · cases a
  · by_cases hb : ∃ pinb, Samples x.s f pinb
    · obtain ⟨pinb, rfl, hx⟩ := hb
      obtain ⟨p1, p2, -⟩ := sample_ramp hi hx hf (held_inv i1)
      rcases p2 with p | p | ⟨-, -, up, p2, p3⟩
      · exact absurd p.1 hne
      · rw [p] at hR; cases hR
      · refine ⟨up, dir_going hR p2, Or.inl ⟨pinb, rfl, ⟨rfl, hx⟩, ?_, ?_⟩⟩
        · rw [← i3, dir_pin]; exact p3
        · rw [← down_pin, dir_pin, p1 up p2]; rfl
    · obtain ⟨-, -, u, h3⟩ := quiet_step hi hf hm fun pinb h => hb ⟨pinb, h⟩
      rw [h3] at hne
      exact absurd rfl hne

/-! ### the steps -/

/-- While a button is held, the value moves by whole steps within its limits.  It is never ahead of the times at which
    the steps are due, and it lags behind only by the time the loop needs: at most one step is made per iteration, and it
    is made within two iterations.  If the loop is slower than the steps, this holds for 32.7 s, since the 16-bit timer of
    the ramp then falls behind more and more. -/
theorem C106_value (v : Speed) (c : Conf) (x : Loop) (t : Nat) (v0 : Int) (hv : v.Sane) (h : LoopRamp v c x t v0)
    (hT : v.W ≤ 25 ∨ x.T < t + 32768) : ∃ k inc lo hi, valueRange x.s.menu.state = some (inc, lo, hi) ∧
      valueIn x.s.set.cache x.s.ct.boost x.s.menu.state = some (ramped x.s.menu.ramp v0 inc lo hi k) ∧
      (k = 0 ∨ t + due (k - 1) ≤ x.T) ∧ x.T ≤ t + dueIn v.W k + 2 * v.W := by
  obtain ⟨h1, h2, h3, k, inc, lo, hi, q1, q2, q3, q4, q5, q6, q7, q8, q9⟩ := ramp_loop hv h hT
  have := q9.le
  have := h1.dog
  exact ⟨k, inc, lo, hi, q1, q5, q8, by omega⟩

/-- If an iteration takes at most 25 ms, the times are those of the ramp alone. -/
theorem C106_fast (W k : Nat) (h : W ≤ 25) : dueIn W k = due k := dueIn_fast h k

/-- At the worst speed the watchdog allows, the first step comes at once, the second 400 ms later, the others every
    250 ms. -/
theorem C106_slow (k : Nat) : dueIn 250 0 = 0 ∧ dueIn 250 (k + 1) = 400 + 250 * k := by
  refine ⟨rfl, ?_⟩
  induction k with
  | zero => rfl
  | succ k ih =>
    have h : due (k + 2) - due (k + 1) ≤ 250 := by
      match k with
      | 0 | 1 | 2 => decide
      | k + 3 => have : due (k + 3 + 2) = due (k + 3 + 1) + 25 := rfl; omega
    show dueIn 250 (k + 1) + max 250 (due (k + 2) - due (k + 1)) = _
    rw [ih]
    omega

/-- Whatever the limits of the value, the limit is reached: after the time of the `n` steps to it and two iterations of
    the loop the value is at the limit. -/
theorem C106_limit (v : Speed) (c : Conf) (x : Loop) (t n : Nat) (v0 inc lo hi : Int) (hv : v.Sane) (h : LoopRamp v c x t v0)
    (hT : v.W ≤ 25 ∨ x.T < t + 32768) (hr : valueRange x.s.menu.state = some (inc, lo, hi))
    (hn : t + dueIn v.W n + 2 * v.W < x.T) :
    (x.s.menu.ramp = .up → hi ≤ v0 + n * inc → valueIn x.s.set.cache x.s.ct.boost x.s.menu.state = some hi) ∧
    (x.s.menu.ramp = .down → v0 - n * inc ≤ lo → valueIn x.s.set.cache x.s.ct.boost x.s.menu.state = some lo) := by
  obtain ⟨h1, h2, h3, k, inc', lo', hi', q1, q2, q3, q4, q5, q6, q7, q8, q9⟩ := ramp_loop hv h hT
  rw [hr] at q1
  cases q1
  have := q9.le
  have := h1.dog
  have hk : n ≤ k := by
    refine Classical.byContradiction fun hh => ?_
    have := dueIn_mono (W := v.W) (k := k) (n := n) (by omega)
    omega
  have hmul : (n : Int) * inc ≤ k * inc := Int.mul_le_mul_of_nonneg_right (by omega) (by omega)
  rw [q5]
  constructor
  · intro hr hh
    unfold ramped
    rw [if_pos hr]
    congr 1
    omega
  · intro hr hh
    unfold ramped
    rw [if_neg (by rw [hr]; decide)]
    congr 1
    omega

/-! ### concrete runs -/

/-- iterations every 10 ms, with a very slow converter -/
private def turns (pinb : BitVec 8) (n : Nat) : List Cmd :=
  (List.replicate n (round pinb ++ [.pause 10])).flatten

/-- SET is pressed `n` times -/
private def sets (n : Nat) : List Cmd := (List.replicate n (turns 0xFB 1 ++ turns 0xFF 1)).flatten

/-- the step ends the ramp, or changes the boost mode on a tuning screen -/
private def EndsRamp (x : Loop) (_ : Option Ev) (y : Loop) : Prop :=
  ¬ (y.s.menu.ramp = x.s.menu.ramp ∧ (Tuning x.s.menu.state = true → y.s.ct.boost = x.s.ct.boost))

private instance (x : Loop) (e : Option Ev) (y : Loop) : Decidable (EndsRamp x e y) := by
  unfold EndsRamp; infer_instance

private theorem ends_tick {c : Conf} : TickCheck c EndsRamp := by
  intro x n y t hs h
  rcases hs.sys with ⟨h1, -⟩ | ⟨f, hf, -, hf', -⟩
  · cases h1
  · cases hf
    unfold EndsRamp at h
    rw [← Option.some.inj hf'] at h
    exact absurd ⟨rfl, fun _ => rfl⟩ h

private theorem stretch_ramp {v : Speed} {c : Conf} {x y : Loop} {t : Nat} {v0 : Int} (h : LoopRamp v c x t v0)
    (hs : Stretch v c EndsRamp x y) : LoopRamp v c y t v0 := by
  induction hs with
  | start => exact h
  | step _ hs ht hn ih =>
    have hn := Classical.not_not.mp hn
    exact ih.step hs ht hn.1 hn.2

/-- the commands `l`, then the call `e`, which starts a ramp, then the commands `l'` -/
private def rampCmds (v : Speed) (c : Conf) (l : List Cmd) (e : Ev) (l' : List Cmd) : Option (Nat × Int × Loop) :=
  (loopBoot c 0xFF).bind fun x0 => (loopCmds v c Never x0 l).bind fun x => (step c x.s e).bind fun s' =>
    if x.pc.call e.pins = some e ∧ InTime v { x.after e s' with pc := x.pc.next } ∧ Ramping s'.menu.ramp = true ∧
      s'.menu.ramp ≠ x.s.menu.ramp then
      (valueIn s'.set.cache s'.ct.boost s'.menu.state).bind fun v0 =>
        (loopCmds v c EndsRamp { x.after e s' with pc := x.pc.next } l').map fun y => (x.T, v0, y)
    else none

private theorem rampCmds_ramp {v : Speed} {c : Conf} {l l' : List Cmd} {e : Ev} {z : Nat × Int × Loop}
    (hv : ValidEeprom c (shippedEeprom c)) (h : rampCmds v c l e l' = some z) : LoopRamp v c z.2.2 z.1 z.2.1 := by
  obtain ⟨x0, h0, h⟩ := Option.bind_eq_some_iff.mp h
  obtain ⟨x, h1, h⟩ := Option.bind_eq_some_iff.mp h
  obtain ⟨s', h2, h⟩ := Option.bind_eq_some_iff.mp h
  split at h
  · rename_i hh
    obtain ⟨a, b, d, f⟩ := hh
    obtain ⟨v0, h3, h⟩ := Option.bind_eq_some_iff.mp h
    obtain ⟨y, h4, rfl⟩ := Option.map_eq_some_iff.mp h
    exact stretch_ramp (LoopRamp.start ((loopCmds_stretch never_tick h1).run (loopBoot_run h0 hv)) (LoopStep.call a h2) b
      d f h3) (loopCmds_stretch ends_tick h4)
  · cases h

set_option maxRecDepth 100000 in
/-- `C106_value`: plus is held on the screen of the idle temperature from 20 ms on.  790 ms later the temperature, 150 C
    before, is 6 C higher: the sixth step was due at 775 ms. -/
example : ∃ x, LoopRamp ⟨10, 2000, 4⟩ .m88p x 20 (150 * 64) ∧ Speed.Sane ⟨10, 2000, 4⟩ ∧ x.T = 810 ∧
    valueRange x.s.menu.state = some (64, 0, 480 * 64) ∧
    valueIn x.s.set.cache x.s.ct.boost x.s.menu.state = some (156 * 64) := by
  have h : (rampCmds ⟨10, 2000, 4⟩ .m88p (sets 1 ++ (round 0xEF).take 4) (.buttonsWork 0xEF)
      ((round 0xEF).drop 5 ++ [.pause 10] ++ turns 0xEF 78)).any (fun z => z.1 == 20 && (z.2.1 == 150 * 64 &&
      (z.2.2.T == 810 && (decide (valueRange z.2.2.s.menu.state = some (64, 0, 480 * 64)) &&
      decide (valueIn z.2.2.s.set.cache z.2.2.s.ct.boost z.2.2.s.menu.state = some (156 * 64)))))) = true := by
    decide +kernel
  match e : rampCmds ⟨10, 2000, 4⟩ .m88p (sets 1 ++ (round 0xEF).take 4) (.buttonsWork 0xEF)
      ((round 0xEF).drop 5 ++ [.pause 10] ++ turns 0xEF 78) with
  | none => rw [e] at h; cases h
  | some z =>
    rw [e] at h
    simp only [Option.any_some, Bool.and_eq_true, beq_iff_eq, decide_eq_true_eq] at h
    obtain ⟨h1, h2, h3, h4, h5⟩ := h
    have := rampCmds_ramp validEeprom_m88p e
    rw [h1, h2] at this
    exact ⟨z.2.2, this, by unfold Speed.Sane; decide, h3, h4, h5⟩

set_option maxRecDepth 100000 in
/-- `C106_limit`: minus is held on the screen of kd from 200 ms on.  The factor is 13/64; seven steps of 2/64 are made in
    825 ms and 845 ms later it is zero. -/
example : ∃ x, LoopRamp ⟨10, 2000, 4⟩ .m328p x 200 13 ∧ Speed.Sane ⟨10, 2000, 4⟩ ∧
    200 + dueIn 10 7 + 2 * 10 < x.T ∧ x.s.menu.ramp = .down ∧ 13 - ((7 : Nat) : Int) * 2 ≤ 0 ∧
    valueRange x.s.menu.state = some (2, 0, 99 * 64) ∧ valueIn x.s.set.cache x.s.ct.boost x.s.menu.state = some 0 := by
  have h : (rampCmds ⟨10, 2000, 4⟩ .m328p (sets 10 ++ (round 0xF7).take 4) (.buttonsWork 0xF7)
      ((round 0xF7).drop 5 ++ [.pause 10] ++ turns 0xF7 85)).any (fun z => z.1 == 200 && (z.2.1 == 13 &&
      (decide (200 + dueIn 10 7 + 2 * 10 < z.2.2.T) && (z.2.2.s.menu.ramp == .down &&
      (decide (valueRange z.2.2.s.menu.state = some (2, 0, 99 * 64)) &&
      decide (valueIn z.2.2.s.set.cache z.2.2.s.ct.boost z.2.2.s.menu.state = some 0)))))) = true := by
    decide +kernel
  match e : rampCmds ⟨10, 2000, 4⟩ .m328p (sets 10 ++ (round 0xF7).take 4) (.buttonsWork 0xF7)
      ((round 0xF7).drop 5 ++ [.pause 10] ++ turns 0xF7 85) with
  | none => rw [e] at h; cases h
  | some z =>
    rw [e] at h
    simp only [Option.any_some, Bool.and_eq_true, beq_iff_eq, decide_eq_true_eq] at h
    obtain ⟨h1, h2, h3, h4, h5, h6⟩ := h
    have := rampCmds_ramp validEeprom_m328p e
    rw [h1, h2] at this
    exact ⟨z.2.2, this, by unfold Speed.Sane; decide, h3, h4, by decide, h5, h6⟩

set_option maxRecDepth 100000 in
/-- `C106_wait`, `C106_begin`: plus is held while the temperature is displayed, from 0 ms on.  At 1000 ms the ramp still
    waits, and the menu's work function sets it going. -/
example : ∃ x y l a, LoopPanel ⟨10, 2000, 4⟩ .m88p x l a ∧ Speed.Sane ⟨10, 2000, 4⟩ ∧ x.s.menu.ramp = waiting true ∧
    heldSince .plus l = some 0 ∧ x.T = 1000 ∧ LoopStep .m88p x (some .menuWork) y ∧ Ramping y.s.menu.ramp = true ∧
    y.s.menu.ramp ≠ x.s.menu.ramp := by
  have h : (panelCmds ⟨10, 2000, 4⟩ .m88p 0xFF (turns 0xEF 100 ++ (round 0xEF).take 2)).any (fun x =>
      x.1.s.menu.ramp == .preUp && (decide (heldSince .plus x.2.1 = some 0) && (x.1.T == 1000 && (x.1.pc == .menu &&
      (step .m88p x.1.s .menuWork).any fun s => s.menu.ramp == .up)))) = true := by decide +kernel
  match e : panelCmds ⟨10, 2000, 4⟩ .m88p 0xFF (turns 0xEF 100 ++ (round 0xEF).take 2) with
  | none => rw [e] at h; cases h
  | some x =>
    rw [e] at h
    simp only [Option.any_some, Bool.and_eq_true, beq_iff_eq, decide_eq_true_eq] at h
    obtain ⟨h1, h2, h3, h4, h5⟩ := h
    match es : step .m88p x.1.s .menuWork with
    | none => rw [es] at h5; cases h5
    | some s =>
      rw [es] at h5
      have h5 : s.menu.ramp = .up := by simpa using h5
      refine ⟨x.1, _, x.2.1, x.2.2, panelCmds_panel validEeprom_m88p e, by unfold Speed.Sane; decide, h1, h2, h3,
        LoopStep.call (pinb := 0xFF) (by rw [h4]; rfl) es, ?_, ?_⟩
      · show Ramping s.menu.ramp = true
        rw [h5]; rfl
      · show s.menu.ramp ≠ x.1.s.menu.ramp
        rw [h5, h1]; decide

/-- iterations of 250 ms -/
private def slow (pinb : BitVec 8) (n : Nat) : List Cmd :=
  (List.replicate n (round pinb ++ [.pause 250, .ev (.adc 280)])).flatten

set_option maxRecDepth 100000 in
/-- The bound of 32.7 s for slow loops is needed: plus is held on the screen of kp from 120 ms on, with iterations of
    250 ms.  After 148 steps the timer of the ramp is 32.8 s behind and counts as being ahead: 38 s after the start the
    value has not moved for one second, and it is not what 149 steps, at the latest due then, make it. -/
example : ∃ x, LoopRamp ⟨250, 400, 4⟩ .m328p x 120 96 ∧ Speed.Sane ⟨250, 400, 4⟩ ∧
    valueRange x.s.menu.state = some (2, 0, 99 * 64) ∧ x.s.menu.ramp = .up ∧
    valueIn x.s.set.cache x.s.ct.boost x.s.menu.state = some (96 + 148 * 2) ∧ 120 + dueIn 250 149 + 2 * 250 < x.T := by
  have h : (rampCmds ⟨250, 400, 4⟩ .m328p (sets 6 ++ (round 0xEF).take 4) (.buttonsWork 0xEF)
      ((round 0xEF).drop 5 ++ [.pause 250, .ev (.adc 280)] ++ slow 0xEF 151)).any (fun z => z.1 == 120 && (z.2.1 == 96 &&
      (decide (valueRange z.2.2.s.menu.state = some (2, 0, 99 * 64)) && (z.2.2.s.menu.ramp == .up &&
      (decide (valueIn z.2.2.s.set.cache z.2.2.s.ct.boost z.2.2.s.menu.state = some (96 + 148 * 2)) &&
      decide (120 + (400 + 250 * 148) + 2 * 250 < z.2.2.T)))))) = true := by
    decide +kernel
  match e : rampCmds ⟨250, 400, 4⟩ .m328p (sets 6 ++ (round 0xEF).take 4) (.buttonsWork 0xEF)
      ((round 0xEF).drop 5 ++ [.pause 250, .ev (.adc 280)] ++ slow 0xEF 151) with
  | none => rw [e] at h; cases h
  | some z =>
    rw [e] at h
    simp only [Option.any_some, Bool.and_eq_true, beq_iff_eq, decide_eq_true_eq] at h
    obtain ⟨h1, h2, h3, h4, h5, h6⟩ := h
    have := rampCmds_ramp validEeprom_m328p e
    rw [h1, h2] at this
    exact ⟨z.2.2, this, by unfold Speed.Sane; decide, h3, h4, h5, by rw [(C106_slow 148).2]; exact h6⟩

end Verif.Props
