import Verif.Spec.MenuDoc
import Verif.Props.Press
/-
C93: the menu and its documentation, the diagram doc/menu.dia.
-/
namespace Verif.Props
open Spec

/-! ### the diagram and the screens -/

private theorem next_box {c : Conf} {t : MenuState} (h : ScreenExists c t = true) :
    if announces t then boxOf (nextScreen c t) = boxOf t else follow c (boxOf t) .set = some (boxOf (nextScreen c t)) := by
  rw [nextScreen_eq]
  obtain ⟨c1, c2, c3, c4, c5, c6, c7, c8, c9⟩ := c
  cases t <;> cases c1 <;> cases c3 <;> cases c6 <;> cases c7 <;> first | (cases h; done) | rfl

private theorem leads_box {c : Conf} {t : MenuState} (h : (holdTime t).isSome = true) :
    boxOf (leadsTo t) = boxOf t ∨ follow c (boxOf t) .timeout = some (boxOf (leadsTo t)) := by
  cases t <;> first | (cases h; done) | exact Or.inl rfl | exact Or.inr rfl

theorem ScreenHist.pin {c : Conf} {s : Sys} {T a : Nat} {l : List (Nat × BitVec 8)} (h : ScreenHist c s T l a) :
    PinHist c s T l := by
  induction h with
  | boot hv e => exact .boot hv e
  | tick _ hs ih => exact ih.tick hs
  | sample _ hx hs ih => exact ih.sample hx hs
  | other _ hp hs ht hx ih => exact ih.other hp hs ht hx

/-! ### who ramps in the temperature or preset screen has held the button for a second -/

private theorem block_go {p : Panel} {c : Conf} {now : Int} {b : Button} {l : List (Nat × BitVec 8)} {pinb : BitVec 8}
    {up : Bool} (hb : b ≠ .iron) (h : (p.block c now b (WasDown l b) (Down pinb b)).ramp = going up)
    (hst : (p.block c now b (WasDown l b) (Down pinb b)).state = .curtemp ∨
      (p.block c now b (WasDown l b) (Down pinb b)).state = .selpreset) :
    ¬ Released l pinb b ∧ p.ramp = going up ∧ (p.state = .curtemp ∨ p.state = .selpreset) := by
  rw [block_cases] at h hst
  by_cases h1 : Pressed l pinb b
  · have hn : ¬ Released l pinb b := fun hr => absurd (hr.1.symm.trans h1.1) (by decide)
    rw [if_pos h1] at h hst
    rw [(press_cache p c now b).2] at hst
    refine ⟨hn, ?_, hst⟩
    obtain ⟨st, r, pr, ca, de⟩ := p
    rcases hst with rfl | rfl <;> cases up <;> cases b <;> simp only [Panel.press, going] at h ⊢ <;>
      first | exact absurd rfl hb | exact h | cases h
  · rw [if_neg h1] at h hst
    by_cases h2 : Released l pinb b
    · exfalso
      rw [if_pos h2] at h
      obtain ⟨st, r, pr, ca, de⟩ := p
      unfold Panel.release at h
      cases up <;> cases b <;> simp only [going] at h <;>
        first
        | exact absurd rfl hb
        | (cases h; done)
        | (split at h
           · cases h
           · split at h <;> cases h)
    · rw [if_neg h2] at h hst
      exact ⟨h2, h, hst⟩

private theorem go_inv {c : Conf} {s : Sys} {T : Nat} {l : List (Nat × BitVec 8)} (h : PinHist c s T l) :
    ∀ up, s.menu.ramp = going up → (s.menu.state = .curtemp ∨ s.menu.state = .selpreset) →
      ∃ t, heldSince (rampButton up) l = some t ∧ t + 1000 ≤ T := by
  induction h with
  | boot hv e =>
    obtain ⟨-, st, -, b, t, hb, -, rfl⟩ := (boot_ok hv).elim e
    obtain ⟨x, u, em, hx⟩ := hb.menu
    intro up (hr : b.menu.ramp = _)
    rw [em] at hr
    cases up <;> cases hr
  | @tick s s' T l _ hs ih =>
    cases hs
    intro up hr hst
    obtain ⟨t, h1, h2⟩ := ih up hr hst
    exact ⟨t, h1, by omega⟩
  | @sample s s' T l pinb h hx hs ih =>
    intro up hr hst
    have hp := hist_panel h hx hs
    have hr : s'.panel.ramp = going up := hr
    have hst : s'.panel.state = .curtemp ∨ s'.panel.state = .selpreset := hst
    rw [hp] at hr hst
    obtain ⟨g1, g2, g3⟩ := block_go (by decide) hr hst
    obtain ⟨k1, k2, k3⟩ := block_go (by decide) g2 g3
    obtain ⟨j1, j2, j3⟩ := block_go (by decide) k2 k3
    obtain ⟨t, h1, h2⟩ := ih up j2 j3
    refine ⟨t, ?_, h2⟩
    have hw := held_was h1
    unfold heldSince
    rw [if_pos ?_, if_pos hw]
    · exact h1
    · cases hd : Down pinb (rampButton up)
      · exfalso
        cases up
        · exact k1 ⟨hw, hd⟩
        · exact g1 ⟨hw, hd⟩
      · rfl
  | @other s e s' T l h hp hs ht hx ih =>
    obtain ⟨i1, i2, i3⟩ := pins_inv h
    have hi := Running.inv i1
    intro up hr hst
    by_cases hm : e = .menuWork
    · subst hm
      obtain ⟨-, -, -, -, -, w⟩ := menuWork_eff hi s' hs
      have keep : (afterError (menuError s) (afterTimeout s.now s.menu)).ramp ≠ .none →
          (afterError (menuError s) (afterTimeout s.now s.menu)).ramp = s.menu.ramp ∧
          (afterError (menuError s) (afterTimeout s.now s.menu)).state = s.menu.state ∧
          (afterError (menuError s) (afterTimeout s.now s.menu)).rampPreTimer = s.menu.rampPreTimer := by
        unfold afterError afterTimeout
        simp only []
        split <;> split <;> simp
      have gn : ∀ up, going up ≠ .none := by decide
      cases w with
      | same w1 w2 w3 =>
        rw [hr] at w3
        obtain ⟨k1, k2, -⟩ := keep (by rw [← w3]; exact gn up)
        rw [w1, k2] at hst
        exact ih up (k1.symm.trans w3.symm) hst
      | start w1 w2 w3 w4 =>
        rw [hr] at w3
        have w3 : (afterError (menuError s) (afterTimeout s.now s.menu)).ramp = waiting up := by
          rcases w3 with ⟨a, b⟩ | ⟨a, b⟩ <;> cases up <;> first | (cases b; done) | exact a
        obtain ⟨k1, k2, k3⟩ := keep (by rw [w3]; cases up <;> decide)
        obtain ⟨t, h1, h2, h3⟩ := wait_inv h up (k1.symm.trans w3)
        refine ⟨t, h1, ?_⟩
        rw [k3, i2, h3] at w4
        revert w4
        unfold timerExpired timerCountSince nowAt toU16 toS16
        simp only [ge_iff_le, decide_eq_true_eq]
        omega
      | step w1 =>
        exfalso
        rw [w1] at hst
        revert hst
        unfold stepMenu
        generalize afterError (menuError s) (afterTimeout s.now s.menu) = m
        obtain ⟨st⟩ := m
        cases st <;> simp
    · obtain ⟨-, -, u, hq⟩ := quiet_step hi hs hm hx
      rw [hq] at hr hst
      exact ih up hr hst

/-! ### C93 -/

/-- Every change of the box has the reason the diagram gives for it: a release of SET, a release of plus or
    minus, the end of the screen's time, or plus or minus held for one second.  There are two ways that are not
    in the diagram: if plus or minus is released in the same sample as SET, and SET leads to the temperature, the
    preset box opens at once; and a held button leads to the change of the preset from the preset box also. -/
theorem C93_moves (c : Conf) (s s' : Sys) (e : Ev) (T a : Nat) (l : List (Nat × BitVec 8)) (h : ScreenHist c s T l a)
    (hs : step c s e = some s') (hb : boxOf s'.menu.state ≠ boxOf s.menu.state) :
    (∃ pinb, Samples s e pinb ∧ Released l pinb .set ∧ s.debugEn = false ∧
      (follow c (boxOf s.menu.state) .set = some (boxOf s'.menu.state) ∨
       (follow c (boxOf s.menu.state) .set = some .show ∧ (Released l pinb .plus ∨ Released l pinb .minus) ∧
        boxOf s'.menu.state = .select))) ∨
    (∃ pinb, Samples s e pinb ∧ (Released l pinb .plus ∨ Released l pinb .minus) ∧
      follow c (boxOf s.menu.state) .short = some (boxOf s'.menu.state)) ∨
    (e = .menuWork ∧ (∃ L, holdTime s.menu.state = some L ∧ a + L ≤ T) ∧
      follow c (boxOf s.menu.state) .timeout = some (boxOf s'.menu.state)) ∨
    (e = .menuWork ∧ (∃ up t, heldSince (rampButton up) l = some t ∧ t + 1000 ≤ T) ∧
      (follow c (boxOf s.menu.state) .hold = some (boxOf s'.menu.state) ∨
       boxOf s.menu.state = .select ∧ boxOf s'.menu.state = .change)) := by
  obtain ⟨i1, i2, i3, i4, i5⟩ := screen_inv h
  have hi := Running.inv i1
  by_cases hm : e = .menuWork
  · subst hm
    obtain ⟨-, -, -, -, -, w⟩ := menuWork_eff hi s' hs
    by_cases hto : (holdTime s.menu.state).isSome ∧ timerExpired s.now s.menu.timeout = true
    · right; right; left
      have a1 : (afterError (menuError s) (afterTimeout s.now s.menu)).ramp = .none := by
        unfold afterError afterTimeout
        rw [if_pos hto]
        simp only [ite_self]
      have a2 : (afterError (menuError s) (afterTimeout s.now s.menu)).state = leadsTo s.menu.state := by
        unfold afterError afterTimeout
        rw [if_pos hto]
      have a3 : s'.menu.state = leadsTo s.menu.state := by
        cases w with
        | same w1 => exact w1.trans a2
        | start w1 => exact w1.trans a2
        | step w1 w2 w3 w4 => rw [a1] at w4; cases w4
      obtain ⟨L, hL⟩ := Option.isSome_iff_exists.mp hto.1
      refine ⟨rfl, ⟨L, hL, ?_⟩, ?_⟩
      · have := hto.2
        rw [i2, i5 L hL] at this
        have hL2 : L ≤ 3000 := by revert hL; cases s.menu.state <;> simp [holdTime] <;> omega
        revert this
        unfold timerExpired timerCountSince nowAt toU16 toS16
        simp only [ge_iff_le, decide_eq_true_eq]
        omega
      · rw [a3] at hb ⊢
        exact (leads_box hto.1).resolve_left hb
    · right; right; right
      have a0 : afterTimeout s.now s.menu = s.menu := by unfold afterTimeout; rw [if_neg hto]
      rw [a0] at w
      cases w with
      | same w1 => exact absurd (congrArg boxOf w1) hb
      | start w1 => exact absurd (congrArg boxOf w1) hb
      | step w1 w2 w3 w4 =>
        have w1 : s'.menu.state = (stepMenu s.now (afterError (menuError s) s.menu)).state := w1
        have hst : (s.menu.state = .curtemp ∨ s.menu.state = .selpreset) ∧ s'.menu.state = .chgpreset := by
          rw [w1] at hb ⊢
          revert hb
          unfold stepMenu afterError
          cases s.menu.state <;> simp
        have hr : s.menu.ramp = .up ∨ s.menu.ramp = .down := by
          have : (afterError (menuError s) s.menu).ramp = .none ∨
              (afterError (menuError s) s.menu).ramp = s.menu.ramp := by
            unfold afterError; simp only []; split <;> simp
          rcases this with h | h
          · rw [h] at w4; cases w4
          · rw [h] at w4; simpa [Ramping] using w4
        refine ⟨rfl, ?_, ?_⟩
        · rcases hr with hr | hr
          · obtain ⟨t, ht⟩ := go_inv (ScreenHist.pin h) true hr hst.1
            exact ⟨true, t, ht⟩
          · obtain ⟨t, ht⟩ := go_inv (ScreenHist.pin h) false hr hst.1
            exact ⟨false, t, ht⟩
        · rw [hst.2]
          rcases hst.1 with h | h <;> rw [h]
          · exact Or.inl rfl
          · exact Or.inr ⟨rfl, rfl⟩
  · by_cases hx : ∃ pinb, Samples s e pinb
    · obtain ⟨pinb, hx⟩ := hx
      have he := hx.1
      subst he
      have hp := congrArg Panel.state (hist_panel (ScreenHist.pin h) hx hs)
      have one : ∀ (p : Panel) (b : Button), b ≠ .set → b ≠ .iron →
          (p.block c s.now b (WasDown l b) (Down pinb b)).state = p.state ∨
          (Released l pinb b ∧ p.state = .curtemp ∧
            (p.block c s.now b (WasDown l b) (Down pinb b)).state = .selpreset) := by
        intro p b h1 h2
        rw [block_cases]
        split
        · exact Or.inl (press_cache p c s.now b).2
        · split
          · rename_i hr
            cases b
            · exact absurd rfl h1
            · unfold Panel.release
              simp only []
              split
              · rename_i hc
                exact Or.inr ⟨hr, hc, rfl⟩
              · split <;> exact Or.inl rfl
            · unfold Panel.release
              simp only []
              split
              · rename_i hc
                exact Or.inr ⟨hr, hc, rfl⟩
              · split <;> exact Or.inl rfl
            · exact absurd rfl h2
          · exact Or.inl rfl
      have first : (s.panel.block c s.now .set (WasDown l .set) (Down pinb .set)).state = s.menu.state ∨
          (Released l pinb .set ∧ s.debugEn = false ∧
            (s.panel.block c s.now .set (WasDown l .set) (Down pinb .set)).state = nextScreen c s.menu.state) := by
        rw [block_cases]
        split
        · exact Or.inl (press_cache _ c s.now .set).2
        · split
          · rename_i hr
            show (if s.debugEn then s.menu.state else nextMenuState c s.menu.state) = _ ∨ _ ∧ _ ∧
              (if s.debugEn then s.menu.state else nextMenuState c s.menu.state) = _
            cases hd : s.debugEn
            · exact Or.inr ⟨hr, rfl, nextScreen_eq.symm⟩
            · exact Or.inl rfl
          · exact Or.inl rfl
      have hp : s'.menu.state = _ := hp
      revert hp first
      generalize s.panel.block c s.now .set (WasDown l .set) (Down pinb .set) = q
      intro first hp
      have tail : s'.menu.state = q.state ∨
          ((Released l pinb .plus ∨ Released l pinb .minus) ∧ q.state = .curtemp ∧ s'.menu.state = .selpreset) := by
        have o1 := one q .minus (by decide) (by decide)
        revert hp o1
        generalize q.block c s.now .minus (WasDown l .minus) (Down pinb .minus) = q'
        intro hp o1
        have o2 := one q' .plus (by decide) (by decide)
        rw [← hp] at o2
        rcases o2 with o2 | ⟨o2, o3, o4⟩
        · rw [o2]
          rcases o1 with o1 | ⟨o1, o5, o6⟩
          · exact Or.inl o1
          · exact Or.inr ⟨Or.inr o1, o5, o6⟩
        · rcases o1 with o1 | ⟨o1, o5, o6⟩
          · exact Or.inr ⟨Or.inl o2, o1 ▸ o3, o4⟩
          · rw [o3] at o6; cases o6
      rcases first with first | ⟨f1, f2, f3⟩
      · right; left
        rw [first] at tail
        rcases tail with t1 | ⟨t1, t2, t3⟩
        · exact absurd (congrArg boxOf t1) hb
        · refine ⟨pinb, hx, t1, ?_⟩
          rw [t2, t3]
          rfl
      · have nb := next_box hi.menu.screen
        rw [f3] at tail
        rcases tail with t1 | ⟨t1, t2, t3⟩
        · left
          refine ⟨pinb, hx, f1, f2, Or.inl ?_⟩
          split at nb
          · exact absurd ((congrArg boxOf t1).trans nb) hb
          · rw [t1]; exact nb
        · left
          refine ⟨pinb, hx, f1, f2, Or.inr ⟨?_, t1, by rw [t3]; rfl⟩⟩
          split at nb
          · rename_i ha
            exfalso
            rw [t2] at nb
            revert nb ha
            cases s.menu.state <;> simp [announces, boxOf]
          · rw [t2] at nb; exact nb
    · obtain ⟨-, -, u, hq⟩ := quiet_step hi hs hm fun pinb hh => hx ⟨pinb, hh⟩
      rw [hq] at hb
      exact absurd rfl hb

/-- SET follows its arrow, while debugging is off and if no other panel button is released in the same sample.
    While the name of a value is displayed SET leads to the value, within the box. -/
theorem C93_set (c : Conf) (s s' : Sys) (l : List (Nat × BitVec 8)) (n : Nat) (pinb : BitVec 8)
    (h : SetCount c s l n) (hx : Samples s (.buttonsWork pinb) pinb)
    (hs : step c s (.buttonsWork pinb) = some s') (hd : s.debugEn = false) (h1 : Released l pinb .set)
    (h2 : ¬ Released l pinb .minus) (h3 : ¬ Released l pinb .plus) :
    if announces s.menu.state then boxOf s'.menu.state = boxOf s.menu.state ∧ announces s'.menu.state = false
    else follow c (boxOf s.menu.state) .set = some (boxOf s'.menu.state) := by
  have hn := C44_release c s s' l n pinb h hx hs hd h1 h2 h3
  have he := C44_exists c s (setCount_running h)
  have nb := next_box he
  rw [hn]
  split
  · rename_i ha
    rw [if_pos ha] at nb
    refine ⟨nb, ?_⟩
    rw [nextScreen_eq]
    revert ha he
    unfold nextMenuState ScreenExists announces
    cases s.menu.state <;> simp +contextual
  · rename_i ha
    rw [if_neg ha] at nb
    exact nb

/-- A short press of plus or minus follows its arrow: it does so when the button is released (if SET is not
    released in the same sample). -/
theorem C93_short (c : Conf) (s s' : Sys) (T : Nat) (l : List (Nat × BitVec 8)) (pinb : BitVec 8) (b : Box)
    (h : PinHist c s T l) (hx : Samples s (.buttonsWork pinb) pinb) (hs : step c s (.buttonsWork pinb) = some s')
    (hf : follow c (boxOf s.menu.state) .short = some b)
    (h1 : Released l pinb .plus ∨ Released l pinb .minus) (h2 : ¬ Released l pinb .set) :
    boxOf s'.menu.state = b := by
  have hst : s.menu.state = .curtemp := by
    revert hf
    cases s.menu.state <;> first | (intro _; rfl) | (intro h; cases h)
  rw [C67_opens c s s' T l pinb h hx hs hst h1 h2]
  rw [hst] at hf
  exact Option.some.inj hf

/-- A timeout arrow is followed 3 s after the box was entered or a panel button was last touched. -/
theorem C93_timeout (c : Conf) (s s' : Sys) (T a : Nat) (l : List (Nat × BitVec 8)) (b : Box)
    (h : ScreenHist c s T l a) (hs : step c s .menuWork = some s')
    (hf : follow c (boxOf s.menu.state) .timeout = some b) (h1 : a + 3000 ≤ T) (h2 : T < a + 3000 + 32768) :
    boxOf s'.menu.state = b := by
  have hL : holdTime s.menu.state = some 3000 := by
    revert hf
    cases s.menu.state <;> first | (intro _; rfl) | (intro h; cases h)
  rw [(C44_timeout c s s' T a 3000 l h hL h2 hs).1 h1]
  revert hf
  cases s.menu.state <;> first | (intro h; cases h; done) | (intro h; exact Option.some.inj h)

/-- A held button follows its arrow when the first step of the ramp is due, which is at once when the ramp begins
    (and it begins when the button has been held for one second: `C68_press`, `C68_starts`); unless the ramp ends
    because the screen's time is over or the displayed error changes.  It does so from the preset box too. -/
theorem C93_hold (c : Conf) (s s' : Sys) (T t k : Nat) (h : RampHist c s T (some (t, k)))
    (hb : boxOf s.menu.state = .show ∨ boxOf s.menu.state = .select) (hs : step c s .menuWork = some s')
    (hk : s'.menu.ramp = s.menu.ramp) (h1 : t + due k ≤ T) (h2 : T < t + due k + 32768) :
    boxOf s'.menu.state = .change ∧ follow c .show .hold = some .change := by
  refine ⟨?_, rfl⟩
  obtain ⟨i1, i2, i3, i4⟩ := ramp_inv h
  obtain ⟨j1, j2, j3⟩ := i4 t k rfl
  have hi := Running.inv i1
  have hx := due_expired j3 (by omega)
  rw [← i2, ← j1, decide_eq_true h1] at hx
  have hr : s.menu.ramp ≠ .none := by
    intro hh
    rw [hh] at i3
    cases i3
  obtain ⟨-, -, -, -, -, w⟩ := menuWork_eff hi s' hs
  have keep : (afterError (menuError s) (afterTimeout s.now s.menu)).ramp ≠ .none →
      (afterError (menuError s) (afterTimeout s.now s.menu)).ramp = s.menu.ramp ∧
      (afterError (menuError s) (afterTimeout s.now s.menu)).state = s.menu.state ∧
      (afterError (menuError s) (afterTimeout s.now s.menu)).rampTimer = s.menu.rampTimer := by
    unfold afterError afterTimeout
    simp only []
    split <;> split <;> simp
  cases w with
  | same w1 w2 w3 w4 w5 w6 w7 w8 =>
    obtain ⟨k1, k2, k3⟩ := keep (by rw [← w3, hk]; exact hr)
    have := w8 (by rw [k1]; exact i3)
    rw [k3, hx] at this
    cases this
  | start w1 w2 w3 =>
    exfalso
    have : s.menu.ramp = .up ∨ s.menu.ramp = .down := by simpa [Ramping] using i3
    obtain ⟨k1, k2, k3⟩ := keep (by rcases w3 with ⟨w3, -⟩ | ⟨w3, -⟩ <;> rw [w3] <;> decide)
    rw [k1] at w3
    rcases this with h | h <;> rw [h] at w3 <;> rcases w3 with ⟨w3, -⟩ | ⟨w3, -⟩ <;> cases w3
  | step w1 w2 w3 =>
    obtain ⟨k1, k2, k3⟩ := keep (by rw [← w3, hk]; exact hr)
    rw [w1]
    unfold stepMenu
    have hb : s.menu.state = .curtemp ∨ s.menu.state = .selpreset := by
      revert hb
      cases s.menu.state <;> simp [boxOf]
    rw [k2]
    rcases hb with h | h <;> rw [h] <;> rfl

/-- While debugging is on nothing leads out of the debug box; the diagram's arrow does not say so. -/
theorem C93_debug (c : Conf) (s s' : Sys) (e : Ev) (h : Running c s) (hs : step c s e = some s')
    (hd : s.debugEn = true) :
    boxOf s.menu.state = .debug ∧ boxOf s'.menu.state = .debug := by
  have h1 := (C69_screen c s h hd).1
  have hi := Running.inv h
  refine ⟨by rw [h1]; rfl, ?_⟩
  have h2 : s'.menu.state = .debug := by
    by_cases hm : e = .menuWork
    · subst hm
      rcases menuWork_state hi hs with h | ⟨h, -⟩ | ⟨h | h, -⟩
      · exact h.trans h1
      · rw [h1] at h; cases h
      · rw [h1] at h; cases h
      · rw [h1] at h; cases h
    · by_cases hx : ∃ pinb, Samples s e pinb
      · obtain ⟨pinb, rfl, hx⟩ := hx
        rcases (sample_state hi hx hs).1 (Or.inr hd) with h | ⟨h, -⟩
        · exact h.trans h1
        · rw [h1] at h; cases h
      · obtain ⟨-, -, u, hq⟩ := quiet_step hi hs hm fun pinb hh => hx ⟨pinb, hh⟩
        rw [hq]
        exact h1
  rw [h2]
  rfl

/-! ### cases -/

/-- What the diagram says about the two shipped builds. -/
example : follow .m88p .show .set = some .idle ∧ follow .m88p .idle .set = some .adj ∧
    follow .m88p .adj .set = some .show ∧ follow .m328p .idle .set = some .debug ∧
    follow .m328p .adj .set = some .kp ∧ follow .m328p .kd .set = some .show ∧
    follow .m88p .adj .timeout = none ∧ follow .m88p .select .hold = none := by decide

set_option maxRecDepth 100000 in
/-- The hypotheses of `C93_moves` and `C93_hold` are met, and the first way that is not in the diagram exists: plus
    is released and pressed again; in the preset box, which that opens, it is held for one second, and the box for
    the change of the preset opens. -/
theorem C93_select_hold : ∃ s s' T l a t, ScreenHist .m88p s T l a ∧ RampHist .m88p s T (some (t, 0)) ∧
    t + due 0 ≤ T ∧ T < t + due 0 + 32768 ∧ step .m88p s .menuWork = some s' ∧ s'.menu.ramp = s.menu.ramp ∧
    boxOf s.menu.state = .select ∧ boxOf s'.menu.state = .change ∧ ∀ x, (.select, x, .change) ∉ diagram := by
  obtain ⟨x, h, hP⟩ := panelRun_any (c := .m88p) (pinb := 0xFF)
    (es := [(5, .buttonsWork 0xEF), (10, .buttonsWork 0xFF), (10, .buttonsWork 0xEF), (1000, .menuWork)])
    (P := fun x => decide (x.T = 1025) && decide (x.r = some (1025, 0)) && decide (boxOf x.s.menu.state = .select) &&
      (step .m88p x.s .menuWork).any fun (s' : Sys) => decide (boxOf s'.menu.state = .change) &&
        decide (s'.menu.ramp = x.s.menu.ramp))
    validEeprom_m88p (by decide)
  simp only [Bool.and_eq_true, decide_eq_true_eq] at hP
  obtain ⟨⟨⟨p1, p2⟩, p3⟩, p4⟩ := hP
  match e : step .m88p x.s .menuWork with
  | none => rw [e] at p4; cases p4
  | some s' =>
    rw [e] at p4
    simp only [Option.any_some, Bool.and_eq_true, decide_eq_true_eq] at p4
    have hr := h.ramp
    rw [p2] at hr
    refine ⟨x.s, s', x.T, x.l, x.a, 1025, h.screen, hr, ?_, ?_, e, p4.2, p3, p4.1, fun x => by cases x <;> decide⟩
    · rw [p1]; decide
    · rw [p1]; decide

set_option maxRecDepth 100000 in
/-- The second way that is not in the diagram: SET and plus, both down in the box of the calibration (in the build m88p
    the last box), are released in one sample; the preset box opens. -/
theorem C93_both : ∃ s s' T l a, ScreenHist .m88p s T l a ∧ Samples s (.buttonsWork 0xFF) 0xFF ∧
    step .m88p s (.buttonsWork 0xFF) = some s' ∧ Released l 0xFF .set ∧ Released l 0xFF .plus ∧ s.debugEn = false ∧
    boxOf s.menu.state = .adj ∧ boxOf s'.menu.state = .select ∧ ∀ x, (.adj, x, .select) ∉ diagram := by
  obtain ⟨x, h, hP⟩ := panelRun_any (c := .m88p) (pinb := 0xFF)
    (es := [(5, .buttonsWork 0xFB), (10, .buttonsWork 0xFF), (10, .buttonsWork 0xFB), (10, .buttonsWork 0xFF),
      (10, .buttonsWork 0xFB), (10, .buttonsWork 0xFF), (10, .buttonsWork 0xEB), (10, .menuWork)])
    (P := fun x => timerExpired x.s.now x.s.btn.debounce && decide (Released x.l 0xFF .set) &&
      decide (Released x.l 0xFF .plus) && decide (x.s.debugEn = false) && decide (boxOf x.s.menu.state = .adj) &&
      (step .m88p x.s (.buttonsWork 0xFF)).any fun (s' : Sys) => decide (boxOf s'.menu.state = .select))
    validEeprom_m88p (by decide)
  simp only [Bool.and_eq_true, decide_eq_true_eq] at hP
  obtain ⟨⟨⟨⟨⟨p1, p2⟩, p3⟩, p4⟩, p5⟩, p6⟩ := hP
  match e : step .m88p x.s (.buttonsWork 0xFF) with
  | none => rw [e] at p6; cases p6
  | some s' =>
    rw [e] at p6
    simp only [Option.any_some, decide_eq_true_eq] at p6
    exact ⟨x.s, s', x.T, x.l, x.a, h.screen, ⟨rfl, p1⟩, e, p2, p3, p4, p5, p6, fun x => by cases x <;> decide⟩

set_option maxRecDepth 100000 in
/-- The hypotheses of `C93_set` are met: SET is released in the screen of kd, the last box of the build m328p;
    the temperature is displayed again. -/
example : ∃ s s' l n, SetCount .m328p s l n ∧ Samples s (.buttonsWork 0xFF) 0xFF ∧
    step .m328p s (.buttonsWork 0xFF) = some s' ∧ s.debugEn = false ∧ Released l 0xFF .set ∧
    ¬ Released l 0xFF .minus ∧ ¬ Released l 0xFF .plus ∧ announces s.menu.state = false ∧
    boxOf s.menu.state = .kd ∧ boxOf s'.menu.state = .show := by
  obtain ⟨x, h, hP⟩ := panelRun_any (c := .m328p) (pinb := 0xFF)
    (es := (List.replicate 10 [(10, .buttonsWork 0xFB), (10, .buttonsWork 0xFF)]).flatten ++
      [(10, .buttonsWork 0xFB), (10, .menuWork)])
    (P := fun x => timerExpired x.s.now x.s.btn.debounce && !x.s.debugEn &&
      decide (Released x.l 0xFF .set) && decide (¬ Released x.l 0xFF .minus) && decide (¬ Released x.l 0xFF .plus) &&
      !announces x.s.menu.state && decide (boxOf x.s.menu.state = .kd) &&
      (step .m328p x.s (.buttonsWork 0xFF)).any fun (s' : Sys) => decide (boxOf s'.menu.state = .show))
    validEeprom_m328p (by decide)
  simp only [Bool.and_eq_true, decide_eq_true_eq, Bool.not_eq_true'] at hP
  obtain ⟨⟨⟨⟨⟨⟨⟨p1, p2⟩, p3⟩, p4⟩, p5⟩, p6⟩, p7⟩, p8⟩ := hP
  match e : step .m328p x.s (.buttonsWork 0xFF) with
  | none => rw [e] at p8; cases p8
  | some s' =>
    rw [e] at p8
    simp only [Option.any_some, decide_eq_true_eq] at p8
    exact ⟨x.s, s', x.l, x.n, h.count, ⟨rfl, p1⟩, e, p2, p3, p4, p5, p6, p7, p8⟩

set_option maxRecDepth 100000 in
/-- The hypotheses of `C93_short` and `C93_timeout` are met: plus is released in the temperature box; the preset box,
    opened by that, is left three seconds later. -/
example : (∃ s s' T l, PinHist .m88p s T l ∧ Samples s (.buttonsWork 0xFF) 0xFF ∧
      step .m88p s (.buttonsWork 0xFF) = some s' ∧ follow .m88p (boxOf s.menu.state) .short = some .select ∧
      Released l 0xFF .plus ∧ ¬ Released l 0xFF .set) ∧
    (∃ s s' l, ScreenHist .m88p s 3015 l 15 ∧ step .m88p s .menuWork = some s' ∧
      boxOf s.menu.state = .select ∧ follow .m88p (boxOf s.menu.state) .timeout = some .show ∧
      boxOf s'.menu.state = .show) := by
  constructor
  · obtain ⟨x, h, hP⟩ := panelRun_any (c := .m88p) (pinb := 0xFF)
      (es := [(5, .buttonsWork 0xEF), (10, .menuWork)])
      (P := fun x => timerExpired x.s.now x.s.btn.debounce &&
        decide (follow .m88p (boxOf x.s.menu.state) .short = some .select) &&
        decide (Released x.l 0xFF .plus) && decide (¬ Released x.l 0xFF .set) &&
        (step .m88p x.s (.buttonsWork 0xFF)).isSome)
      validEeprom_m88p (by decide)
    simp only [Bool.and_eq_true, decide_eq_true_eq] at hP
    obtain ⟨⟨⟨⟨p1, p2⟩, p3⟩, p4⟩, p5⟩ := hP
    obtain ⟨s', e⟩ := Option.isSome_iff_exists.mp p5
    exact ⟨x.s, s', x.T, x.l, h.pin, ⟨rfl, p1⟩, e, p2, p3, p4⟩
  · obtain ⟨x, h, hP⟩ := panelRun_any (c := .m88p) (pinb := 0xFF)
      (es := [(5, .buttonsWork 0xEF), (10, .buttonsWork 0xFF), (2000, .menuWork), (1000, .settingsWork)])
      (P := fun x => decide (x.T = 3015) && decide (x.a = 15) && decide (boxOf x.s.menu.state = .select) &&
        (step .m88p x.s .menuWork).any fun (s' : Sys) => decide (boxOf s'.menu.state = .show))
      validEeprom_m88p (by decide)
    simp only [Bool.and_eq_true, decide_eq_true_eq] at hP
    obtain ⟨⟨⟨p1, p2⟩, p3⟩, p4⟩ := hP
    match e : step .m88p x.s .menuWork with
    | none => rw [e] at p4; cases p4
    | some s' =>
      rw [e] at p4
      simp only [Option.any_some, decide_eq_true_eq] at p4
      have hr := h.screen
      rw [p1, p2] at hr
      exact ⟨x.s, s', x.l, hr, e, p3, by rw [p3]; rfl, p4⟩

set_option maxRecDepth 100000 in
/-- The hypotheses of `C93_debug` are met: SET, down at boot, is released while debugging is on. -/
example : ∃ s s' T l, PinHist .m328p s T l ∧ Running .m328p s ∧ Samples s (.buttonsWork 0xFF) 0xFF ∧
    Released l 0xFF .set ∧ step .m328p s (.buttonsWork 0xFF) = some s' ∧ s.debugEn = true ∧
    boxOf s'.menu.state = .debug ∧ follow .m328p .debug .set = some .adj := by
  obtain ⟨x, h, hP⟩ := panelRun_any (c := .m328p) (pinb := 0xFB)
    (es := [(5, .buttonsWork 0xFB), (10, .menuWork)])
    (P := fun x => timerExpired x.s.now x.s.btn.debounce && decide (Released x.l 0xFF .set) && x.s.debugEn &&
      (step .m328p x.s (.buttonsWork 0xFF)).any fun (s' : Sys) => decide (boxOf s'.menu.state = .debug))
    validEeprom_m328p (by decide)
  simp only [Bool.and_eq_true, decide_eq_true_eq] at hP
  obtain ⟨⟨⟨p1, p2⟩, p3⟩, p4⟩ := hP
  match e : step .m328p x.s (.buttonsWork 0xFF) with
  | none => rw [e] at p4; cases p4
  | some s' =>
    rw [e] at p4
    simp only [Option.any_some, decide_eq_true_eq] at p4
    exact ⟨x.s, s', x.T, x.l, h.pin, (pins_inv h.pin).1, ⟨rfl, p1⟩, p2, e, p3, p4, rfl⟩

end Verif.Props
