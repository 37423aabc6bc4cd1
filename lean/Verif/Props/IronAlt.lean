import Verif.Spec.IronAlt
import Verif.Props.Press
import Verif.Props.Control
import Verif.Props.Lasting
/-
C101: the iron button in builds without boost or idle mode.
-/
namespace Verif.Props
open Spec

/-- what the handler of the iron button does in the builds which have not both modes -/
private theorem alt_button {c : Conf} {s s' : Sys} {e : BState} (hx : ¬ (c.boost = true ∧ c.idle = true))
    (h : contrtempButton c s .iron e = some s') :
    s'.ct.idle = (if c.idle = true then
        if c.idleToggle = true then (if e = .posedge then !s.ct.idle else s.ct.idle)
        else (if e = .negedge then false else if e = .posedge then true else s.ct.idle)
      else s.ct.idle) ∧
    s'.ct.boost = if c.boost = true ∧ e = .posedge then ringNext s.ct.boost (c.nrBoost - 1) else s.ct.boost := by
  have none : some s = some s' → s'.ct.idle = s.ct.idle ∧ s'.ct.boost = s.ct.boost := by
    intro h; cases h; exact ⟨rfl, rfl⟩
  have key : ∀ x : Bool, (if ¬ x = s.ct.idle then contrtempDoIdle s x else some s) = some s' →
      s'.ct.idle = x ∧ s'.ct.boost = s.ct.boost := by
    intro x hx
    split at hx
    · have := (doIdle_touched hx).1
      exact ⟨this.idle, this.boost⟩
    · rename_i hne
      cases hx
      exact ⟨(not_not.mp hne).symm, rfl⟩
  unfold contrtempButton at h
  cases hb : c.boost <;> cases hi : c.idle
  · rw [hb, hi] at h
    simpa using none h
  · rw [hb, hi] at h
    have := key _ h
    simpa using this
  · rw [hb, hi] at h
    simp only [ne_eq, not_true, if_false] at h
    split at h
    · rename_i he
      have := nextBoost_touched hb h
      simpa [he] using And.intro this.idle this.boost
    · rename_i he
      simpa [he] using none h
  · exact absurd ⟨hb, hi⟩ hx

/-- one sample in these builds -/
private theorem alt_sample {c : Conf} {s s' : Sys} {pinb : BitVec 8} (hx : ¬ (c.boost = true ∧ c.idle = true))
    (ht : timerExpired s.now s.btn.debounce = true) (hs : buttonsWork c s pinb = some s') :
    s'.ct.idle = (if c.idle = true then
        if c.idleToggle = true then (if !pinb.getLsbD 0 && !s.btn.prev.getLsbD 0 then !s.ct.idle else s.ct.idle)
        else (if (!pinb.getLsbD 0) = s.btn.prev.getLsbD 0 then s.ct.idle else !pinb.getLsbD 0)
      else s.ct.idle) ∧
    ∃ b, (b = s.ct.boost ∨ (b = 0 ∧ c.boost = true ∧ s.btn.prev.getLsbD 2 = true ∧ pinb.getLsbD 2 = true)) ∧
      s'.ct.boost = if c.boost = true ∧ (!pinb.getLsbD 0 && !s.btn.prev.getLsbD 0) = true
        then ringNext b (c.nrBoost - 1) else b := by
  obtain ⟨b, s1, -, hh, hf⟩ := buttonsWork_iron ht hs
  have hidle : s1.ct.idle = s.ct.idle := hh.idle
  have hboost : s1.ct.boost = s.ct.boost ∨
      (s1.ct.boost = 0 ∧ c.boost = true ∧ s.btn.prev.getLsbD 2 = true ∧ pinb.getLsbD 2 = true) := by
    cases hb : c.boost
    · exact Or.inl (hh.noBoost hb)
    · rcases hh.reg with h | h
      · exact Or.inl h.1
      · exact Or.inr ⟨h.2.1 hb, rfl, h.1⟩
  suffices hg : s'.ct.idle = (if c.idle = true then
        if c.idleToggle = true then (if !pinb.getLsbD 0 && !s.btn.prev.getLsbD 0 then !s1.ct.idle else s1.ct.idle)
        else (if (!pinb.getLsbD 0) = s.btn.prev.getLsbD 0 then s1.ct.idle else !pinb.getLsbD 0)
      else s1.ct.idle) ∧
      s'.ct.boost = if c.boost = true ∧ (!pinb.getLsbD 0 && !s.btn.prev.getLsbD 0) = true
        then ringNext s1.ct.boost (c.nrBoost - 1) else s1.ct.boost by
    rw [hidle] at hg
    exact ⟨hg.1, s1.ct.boost, hboost, hg.2⟩
  generalize s.btn.prev.getLsbD 0 = was at hf ⊢
  generalize (!pinb.getLsbD 0) = down at hf ⊢
  cases was <;> cases down
  · cases hf
    simp
  · change (([BState.posedge, .pressed] : List BState).foldlM (fun s e => contrtempButton c s .iron e) s1) = some s' at hf
    rw [List.foldlM_cons, Option.bind_eq_bind] at hf
    obtain ⟨s2, e2, hf⟩ := Option.bind_eq_some_iff.mp hf
    rw [List.foldlM_cons, Option.bind_eq_bind] at hf
    obtain ⟨s3, e3, hf⟩ := Option.bind_eq_some_iff.mp hf
    cases hf
    obtain ⟨k1, k2⟩ := alt_button hx e2
    obtain ⟨k3, k4⟩ := alt_button hx e3
    simp only [reduceCtorEq, if_false, and_false, ite_self] at k3 k4
    rw [k3, k4, k1, k2]
    simp
  · change (([BState.negedge] : List BState).foldlM (fun s e => contrtempButton c s .iron e) s1) = some s' at hf
    rw [List.foldlM_cons, Option.bind_eq_bind] at hf
    obtain ⟨s2, e2, hf⟩ := Option.bind_eq_some_iff.mp hf
    cases hf
    obtain ⟨k1, k2⟩ := alt_button hx e2
    rw [k1, k2]
    simp
  · change (([BState.pressed] : List BState).foldlM (fun s e => contrtempButton c s .iron e) s1) = some s' at hf
    rw [List.foldlM_cons, Option.bind_eq_bind] at hf
    obtain ⟨s2, e2, hf⟩ := Option.bind_eq_some_iff.mp hf
    cases hf
    obtain ⟨k1, k2⟩ := alt_button hx e2
    rw [k1, k2]
    simp

private theorem pressed_bit (l : List (Nat × BitVec 8)) (pinb : BitVec 8) :
    Pressed l pinb .iron ↔ (!pinb.getLsbD 0 && !WasDown l .iron) = true := by
  unfold Pressed Down
  cases WasDown l .iron <;> cases pinb.getLsbD 0 <;> simp

private theorem boot_modes {c : Conf} {ee : Nat → Nat} {pinb : BitVec 8} {s : Sys} (hv : ValidEeprom c ee)
    (e : boot c ee pinb = some s) : s.ct.idle = false ∧ s.ct.boost = 0 := by
  obtain ⟨-, st, -, b, t, hb, -, rfl⟩ := (boot_ok hv).elim e
  exact ⟨hb.idle, hb.boost⟩

/-- Idle mode without boost mode and without `CONF_IDLETOGGLE`: at any time the iron is in idle mode exactly if its
    button was down when last looked at. -/
theorem C101_hold (c : Conf) (hb : c.boost = false) (hi : c.idle = true) (ht : c.idleToggle = false) (s : Sys)
    (T : Nat) (l : List (Nat × BitVec 8)) (h : PinHist c s T l) : s.ct.idle = WasDown l .iron := by
  induction h with
  | boot hv e => exact (boot_modes hv e).1
  | tick _ hs ih => cases hs; exact ih
  | @sample s s' T l pinb h hx hs ih =>
    have hp : s.btn.prev.getLsbD 0 = WasDown l .iron := (pins_inv h).2.2 .iron
    have := (alt_sample (by rw [hb]; simp) hx.2 hs).1
    rw [if_pos hi, ht, if_neg (by decide), hp, ih] at this
    rw [this]
    show _ = !pinb.getLsbD 0
    split
    · rename_i h; exact h.symm
    · rfl
  | other h hp hs ht hx ih =>
    rw [(C42_otherwise c _ _ _ (pins_inv h).1 hs hx).1]
    exact ih

/-- Idle mode without boost mode, with `CONF_IDLETOGGLE`: at any time the iron is in idle mode exactly if its button
    has been pressed an odd number of times. -/
theorem C101_toggle (c : Conf) (hb : c.boost = false) (hi : c.idle = true) (ht : c.idleToggle = true) (s : Sys)
    (T : Nat) (l : List (Nat × BitVec 8)) (h : PinHist c s T l) : s.ct.idle = true ↔ presses .iron l % 2 = 1 := by
  induction h with
  | boot hv e => rw [(boot_modes hv e).1]; exact ⟨fun h => (by cases h), fun h => (by cases h)⟩
  | tick _ hs ih => cases hs; exact ih
  | @sample s s' T l pinb h hx hs ih =>
    have hp : s.btn.prev.getLsbD 0 = WasDown l .iron := (pins_inv h).2.2 .iron
    have := (alt_sample (by rw [hb]; simp) hx.2 hs).1
    rw [if_pos hi, if_pos ht, hp] at this
    rw [this]
    have e1 := pressed_bit l pinb
    show _ ↔ (presses .iron l + if Pressed l pinb .iron then 1 else 0) % 2 = 1
    by_cases hq : Pressed l pinb .iron
    case neg =>
      rw [if_neg (mt e1.mpr hq), if_neg hq]
      exact ih
    · rw [if_pos (e1.mp hq), if_pos hq]
      cases hq : s.ct.idle
      · rw [hq] at ih
        have : ¬ presses .iron l % 2 = 1 := fun h => by cases ih.mpr h
        simp only [Bool.not_false, true_iff]
        omega
      · have := ih.mp hq
        simp only [Bool.not_true, Bool.false_eq_true, false_iff]
        omega
  | other h hp hs ht hx ih =>
    rw [(C42_otherwise c _ _ _ (pins_inv h).1 hs hx).1]
    exact ih

/-- Boost mode without idle mode: a sample that sees the iron's button pressed advances the boost mode by one of
    three, at once; how long the button is held and when it is released does not matter.  Nothing else happens to
    boost mode, except that leaving or entering the tuning screens with SET resets it. -/
theorem C101_boost (c : Conf) (hb : c.boost = true) (hi : c.idle = false) (s s' : Sys) (T : Nat)
    (l : List (Nat × BitVec 8)) (pinb : BitVec 8) (h : PinHist c s T l) (hx : Samples s (.buttonsWork pinb) pinb)
    (hs : step c s (.buttonsWork pinb) = some s') :
    ∃ b, (b = s.ct.boost ∨ (b = 0 ∧ Released l pinb .set)) ∧
      s'.ct.boost = if Pressed l pinb .iron then (b + 1) % 3 else b := by
  obtain ⟨hr, -, hw⟩ := pins_inv h
  have hp : s.btn.prev.getLsbD 0 = WasDown l .iron := hw .iron
  have hp2 : s.btn.prev.getLsbD 2 = WasDown l .set := hw .set
  obtain ⟨b, h1, h2⟩ := (alt_sample (by rw [hi]; simp) hx.2 hs).2
  have hbo := (Running.inv hr).ct.boost
  have hn : c.nrBoost = 3 := by unfold Conf.nrBoost; rw [if_pos hb]
  rw [hn] at hbo h2
  have hb3 : b < 3 := by rcases h1 with h | h <;> omega
  refine ⟨b, ?_, ?_⟩
  · rcases h1 with h | ⟨h, -, h3, h4⟩
    · exact Or.inl h
    · refine Or.inr ⟨h, hp2 ▸ h3, ?_⟩
      show (!pinb.getLsbD 2) = false
      rw [h4]; rfl
  · rw [hp] at h2
    have e1 := pressed_bit l pinb
    have hring : ringNext b (3 - 1) = (b + 1) % 3 := by revert hb3; generalize b = x; revert x; decide
    rw [h2, hring]
    by_cases hq : Pressed l pinb .iron
    · rw [if_pos ⟨hb, e1.mp hq⟩, if_pos hq]
    · rw [if_neg fun h => hq (e1.mpr h.2), if_neg hq]

/-- In builds without idle mode the iron is never in idle mode, in builds without boost mode the normal mode is the
    only one. -/
theorem C101_absent (c : Conf) (s : Sys) (h : Running c s) :
    (c.idle = false → s.ct.idle = false) ∧ (c.boost = false → s.ct.boost = 0) := by
  refine ⟨fun hi => ?_, fun hb => ?_⟩
  · induction h with
    | boot hv e => exact (boot_modes hv e).1
    | @step s e s' h hp hs ih =>
      by_cases hx : ∃ pinb, Samples s e pinb
      · obtain ⟨pinb, rfl, hx⟩ := hx
        have := (alt_sample (by rw [hi]; simp) hx hs).1
        rw [hi, if_neg (by decide)] at this
        rw [this, ih]
      · rw [(C42_otherwise c _ _ _ h hs fun p hh => hx ⟨p, hh⟩).1, ih]
  · have := (Running.inv h).ct.boost
    have hn : c.nrBoost = 1 := by unfold Conf.nrBoost; rw [hb]; rfl
    omega

set_option maxRecDepth 100000 in
/-- The hypotheses of `C101_hold` are met: the button is down when the device is switched on, released, and pressed
    again; the iron is in idle mode while it is down. -/
example : (∃ s T l, PinHist { Conf.m88p with boost := false, idleToggle := false } s T l ∧
      l = [(20, 0xFE), (10, 0xFF), (0, 0xFE)] ∧ s.ct.idle = true) ∧
    (∃ s T l, PinHist { Conf.m88p with boost := false, idleToggle := false } s T l ∧
      l = [(10, 0xFF), (0, 0xFE)] ∧ s.ct.idle = false) := by
  constructor
  · obtain ⟨x, h, hP⟩ := panelRun_any (c := { Conf.m88p with boost := false, idleToggle := false }) (pinb := 0xFE)
      (es := [(0, .buttonsWork 0xFE), (10, .buttonsWork 0xFF), (10, .buttonsWork 0xFE), (3, .menuWork)])
      (P := fun x => decide (x.l = [(20, 0xFE), (10, 0xFF), (0, 0xFE)]) && x.s.ct.idle)
      (shipped_valid _) (by decide)
    simp only [Bool.and_eq_true, decide_eq_true_eq] at hP
    exact ⟨x.s, x.T, x.l, h.pin, hP⟩
  · obtain ⟨x, h, hP⟩ := panelRun_any (c := { Conf.m88p with boost := false, idleToggle := false }) (pinb := 0xFE)
      (es := [(0, .buttonsWork 0xFE), (10, .buttonsWork 0xFF), (3, .menuWork)])
      (P := fun x => decide (x.l = [(10, 0xFF), (0, 0xFE)]) && !x.s.ct.idle)
      (shipped_valid _) (by decide)
    simp only [Bool.and_eq_true, decide_eq_true_eq, Bool.not_eq_true'] at hP
    exact ⟨x.s, x.T, x.l, h.pin, hP⟩

set_option maxRecDepth 100000 in
/-- The hypotheses of `C101_toggle` are met: two presses, the second one still going on. -/
example : ∃ s T l, PinHist { Conf.m88p with boost := false } s T l ∧
    l = [(40, 0xFE), (30, 0xFE), (20, 0xFF), (10, 0xFE), (0, 0xFF)] ∧ presses .iron l = 2 ∧ s.ct.idle = false := by
  obtain ⟨x, h, hP⟩ := panelRun_any (c := { Conf.m88p with boost := false }) (pinb := 0xFF)
    (es := [(0, .buttonsWork 0xFF), (10, .buttonsWork 0xFE), (10, .buttonsWork 0xFF), (10, .buttonsWork 0xFE),
      (10, .buttonsWork 0xFE), (0, .menuWork)])
    (P := fun x => decide (x.l = [(40, 0xFE), (30, 0xFE), (20, 0xFF), (10, 0xFE), (0, 0xFF)]) && !x.s.ct.idle)
    (shipped_valid _) (by decide)
  simp only [Bool.and_eq_true, decide_eq_true_eq, Bool.not_eq_true'] at hP
  exact ⟨x.s, x.T, x.l, h.pin, hP.1, by rw [hP.1]; decide, hP.2⟩

set_option maxRecDepth 100000 in
/-- The hypotheses of `C101_boost` (and of `C101_absent`) are met: the second press, from boost mode 1 to 2. -/
example : ∃ s s' T l, PinHist { Conf.m88p with idle := false } s T l ∧ Running { Conf.m88p with idle := false } s' ∧
    Samples s (.buttonsWork 0xFE) 0xFE ∧
    step { Conf.m88p with idle := false } s (.buttonsWork 0xFE) = some s' ∧ Pressed l 0xFE .iron ∧
    s.ct.boost = 1 ∧ s'.ct.boost = 2 := by
  obtain ⟨x, h, hP⟩ := panelRun_any (c := { Conf.m88p with idle := false }) (pinb := 0xFF)
    (es := [(0, .buttonsWork 0xFE), (10, .buttonsWork 0xFF), (10, .menuWork)])
    (P := fun x => timerExpired x.s.now x.s.btn.debounce && decide (Pressed x.l 0xFE .iron) &&
      decide (x.s.ct.boost = 1) && (step { Conf.m88p with idle := false } x.s (.buttonsWork 0xFE)).any fun (s' : Sys) =>
        decide (s'.ct.boost = 2))
    (shipped_valid _) (by decide)
  simp only [Bool.and_eq_true, decide_eq_true_eq] at hP
  obtain ⟨⟨⟨p1, p2⟩, p3⟩, p4⟩ := hP
  match e : step { Conf.m88p with idle := false } x.s (.buttonsWork 0xFE) with
  | none => rw [e] at p4; cases p4
  | some s' =>
    rw [e] at p4
    simp only [Option.any_some, decide_eq_true_eq] at p4
    exact ⟨x.s, s', x.T, x.l, h.pin, (pins_inv h.pin).1.step (e := .buttonsWork 0xFE) rfl e, ⟨rfl, p1⟩, e, p2, p3, p4⟩

end Verif.Props
