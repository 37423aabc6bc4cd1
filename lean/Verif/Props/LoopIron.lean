import Verif.Spec.LoopIron
import Verif.Proofs.LoopPanel
import Verif.Props.Control
import Verif.Props.Press
import Verif.Props.LoopPanel
/-
C103: the iron button in the main loop, in real time.
-/
namespace Verif.Props
open Spec

private theorem iron_down (p : BitVec 8) : Down p .iron = IronDown p := by
  simp [Down, IronDown]

/-- what the samples say while the button is down -/
private theorem modes_held : ∀ (l : List (Nat × BitVec 8)) (t : Nat), heldSince .iron l = some t →
    ∃ q, (ironModes l).2 = some q ∧ q.since = t ∧
      ((ironModes (beforePress l)).1 = true → (ironModes l).1 = false ∧ q.done = true) ∧
      ((ironModes (beforePress l)).1 = false → (ironModes l).1 = q.done) ∧
      (q.done = false → ∀ T p, l.head? = some (T, p) → T < t + 1000) ∧
      (q.done = true → (ironModes (beforePress l)).1 = false → ∃ x ∈ l, t + 1000 ≤ x.1) ∧
      ∃ x ∈ l, x.1 = t := by
  intro l
  induction l with
  | nil => intro t h; cases h
  | cons x l ih =>
    obtain ⟨T, p⟩ := x
    intro t h
    unfold heldSince at h
    rw [iron_down] at h
    split at h
    · rename_i hd
      have hb : beforePress ((T, p) :: l) = beforePress l := by
        unfold beforePress; rw [List.dropWhile_cons_of_pos (by simpa using hd)]
      rw [hb]
      split at h
      · obtain ⟨q, h1, h2, h3, h4, h5, h6, y, hy, hyt⟩ := ih t h
        simp only [ironModes, h1, hd, nextPress, idleAfter]
        refine ⟨_, rfl, h2, ?_, ?_, ?_, ?_, y, List.mem_cons_of_mem _ hy, hyt⟩
        · intro hbe
          obtain ⟨a, b⟩ := h3 hbe
          simp [a, b]
        · intro hbe
          have := h4 hbe
          cases hq : q.done <;> by_cases hT : q.since + 1000 ≤ T <;> simp_all
        · intro hq T' p' he
          simp only [List.head?_cons, Option.some.injEq, Prod.mk.injEq] at he
          simp only [Bool.or_eq_false_iff, decide_eq_false_iff_not] at hq
          omega
        · intro hq hbe
          simp only [Bool.or_eq_true, decide_eq_true_eq] at hq
          rcases hq with hq | hq
          · obtain ⟨z, hz, hzt⟩ := h6 hq hbe
            exact ⟨z, List.mem_cons_of_mem _ hz, hzt⟩
          · exact ⟨(T, p), List.mem_cons_self, by simp only []; omega⟩
      · rename_i hw
        cases h
        have hl : beforePress l = l := by
          unfold beforePress
          cases l with
          | nil => rfl
          | cons z l =>
            rw [List.dropWhile_cons_of_neg]
            simpa [WasDown, iron_down] using hw
        have hq : (ironModes l).2 = none := by
          cases l with
          | nil => rfl
          | cons z l =>
            have : IronDown z.2 = false := by simpa [WasDown, iron_down] using hw
            simp [ironModes, nextPress, this]
        rw [hl]
        simp only [ironModes, hq, hd, nextPress, idleAfter]
        refine ⟨_, rfl, rfl, fun h => ⟨trivial, h⟩, fun h => h.symm, ?_, fun h h' => by simp_all, (T, p), List.mem_cons_self, rfl⟩
        intro _ T' p' he
        simp only [List.head?_cons, Option.some.injEq, Prod.mk.injEq] at he
        omega
    · cases h

/-- a press is known exactly while the button is down -/
private theorem modes_press (l : List (Nat × BitVec 8)) (q : Press) (h : (ironModes l).2 = some q) :
    heldSince .iron l = some q.since := by
  induction l generalizing q with
  | nil => cases h
  | cons x l ih =>
    obtain ⟨T, p⟩ := x
    unfold heldSince
    rw [iron_down]
    simp only [ironModes] at h
    cases hd : IronDown p
    · rw [hd] at h; simp [nextPress] at h
    · rw [hd] at h
      rw [if_pos rfl]
      cases hm : (ironModes l).2 with
      | none =>
        have hw : WasDown l .iron = false := by
          cases hw : WasDown l .iron
          · rfl
          · cases l with
            | nil => cases hw
            | cons z l =>
              have : IronDown z.2 = true := by simpa [WasDown, iron_down] using hw
              simp only [ironModes, this] at hm
              unfold nextPress at hm
              split at hm <;> simp_all
        rw [hm] at h
        simp only [nextPress, Option.some.injEq] at h
        simp [hw, ← h]
      | some q' =>
        have := ih q' hm
        rw [hm] at h
        simp only [nextPress, Option.some.injEq] at h
        rw [if_pos (held_was this), this, ← h]

/-- the invariant: the modes are what the samples say -/
private theorem iron_loop {v : Speed} {c : Conf} (hb : c.boost = true) (hc : c.idle = true) (hv : v.Sane) (hW : v.W ≤ 10)
    {x : Loop} {l : List (Nat × BitVec 8)} {a : Nat} (h : LoopPanel v c x l a) :
    IronHist c x.s x.T (ironModes l).2 ∧ x.s.ct.idle = (ironModes l).1 ∧ (∀ y ∈ l, y.1 ≤ x.T) ∧
    ∀ q, (ironModes l).2 = some q → q.done = false → x.T < q.since + 33768 := by
  have near : ∀ {x : Loop} {l : List (Nat × BitVec 8)} {a : Nat}, LoopPanel v c x l a →
      ∀ q, (ironModes l).2 = some q → q.done = false → x.T < q.since + 33768 := by
    intro x l a h q hq hd
    obtain ⟨h1, h2, -⟩ := C75_samples v c x l a hv hW h
    have hh := modes_press l q hq
    obtain ⟨q', e1, e2, -, -, e5, -⟩ := modes_held l _ hh
    rw [hq] at e1
    cases e1
    cases l with
    | nil => cases hh
    | cons z l =>
      have := e5 hd z.1 z.2 rfl
      have := h1 l.length z.1 z.2 (by simp)
      simp only [List.length_cons] at h2
      omega
  suffices hh : IronHist c x.s x.T (ironModes l).2 ∧ x.s.ct.idle = (ironModes l).1 ∧ (∀ y ∈ l, y.1 ≤ x.T) from
    ⟨hh.1, hh.2.1, hh.2.2, near h⟩
  induction h with
  | boot hv e =>
    refine ⟨IronHist.boot hv e, ?_, by simp⟩
    obtain ⟨-, st, -, b, t, hb, -, rfl⟩ := (boot_ok hv).elim e
    exact hb.idle
  | @sample x y l a pinb hl hs ht hx ih =>
    obtain ⟨i1, i2, i3⟩ := ih
    have hw := near hl
    rcases hs.sys with ⟨h, -⟩ | ⟨f, hf, hp, hf', eT, -, -, -, er⟩
    · cases h
    cases hf
    have eT : y.T = x.T := eT
    rw [eT]
    refine ⟨?_, ?_, ?_⟩
    · have := i1.sample hx hf' hw
      rw [i2] at this
      exact this
    · have := (C42_sample c hb hc x.s y.s x.T _ pinb i1 hx hf' hw).1
      rw [i2] at this
      exact this
    · intro z hz
      rcases List.mem_cons.mp hz with rfl | hz
      · exact Nat.le_refl _
      · exact i3 z hz
  | @other x e y l a hl hs ht hn ih =>
    obtain ⟨i1, i2, i3⟩ := ih
    have hr := (pins_inv (hl.inv hv).pins).1
    have hT := hs.time
    rcases hs.sys with ⟨rfl, es, eT, -⟩ | ⟨f, rfl, hp, hf, eT, -, -, -, er⟩
    · rw [es, eT]
      exact ⟨i1, i2, i3⟩
    · have hsamp := fun pinb => hn f pinb rfl
      refine ⟨?_, (C42_otherwise c x.s y.s f hr hf hsamp).1.trans i2, fun z hz => by have := i3 z hz; omega⟩
      by_cases htick : f = .tick
      · subst htick
        have eT : y.T = x.T + 1 := eT
        rw [eT]
        exact i1.tick hf
      · have eT : y.T = x.T := by
          rw [eT]; unfold Loop.after; simp only []; rw [if_neg htick]
        rw [eT]
        exact i1.other hp hf htick hsamp

/-! ### C103 -/

/-- If an iteration of the main loop takes at most 10 ms, idle mode is at all times what the samples of the iron button
    since boot say; in particular no sequence of presses, however long, confuses the 16-bit time. -/
theorem C103_idle (v : Speed) (c : Conf) (x : Loop) (l : List (Nat × BitVec 8)) (a : Nat) (hb : c.boost = true)
    (hc : c.idle = true) (hv : v.Sane) (hW : v.W ≤ 10) (h : LoopPanel v c x l a) :
    x.s.ct.idle = (ironModes l).1 :=
  (iron_loop hb hc hv hW h).2.1

/-- While the button is down: a press in idle mode leaves idle mode at once and does not enter it again.  Any other
    press does not enter idle mode before the button has been held for 1000 ms, and has entered it when it has been held
    for 1010 ms and two iterations. -/
theorem C103_held (v : Speed) (c : Conf) (x : Loop) (l : List (Nat × BitVec 8)) (a t : Nat) (hb : c.boost = true)
    (hc : c.idle = true) (hv : v.Sane) (hW : v.W ≤ 10) (h : LoopPanel v c x l a) (hh : heldSince .iron l = some t) :
    ((ironModes (beforePress l)).1 = true → x.s.ct.idle = false) ∧
    ((ironModes (beforePress l)).1 = false →
      (x.T < t + 1000 → x.s.ct.idle = false) ∧ (t + 1010 + 2 * v.W ≤ x.T → x.s.ct.idle = true)) := by
  obtain ⟨i1, i2, i3, -⟩ := iron_loop hb hc hv hW h
  obtain ⟨q, h1, h2, h3, h4, h5, h6, -⟩ := modes_held l t hh
  refine ⟨fun hp => i2.trans (h3 hp).1, fun hp => ⟨fun hT => ?_, fun hT => ?_⟩⟩
  · rw [i2, h4 hp]
    cases hd : q.done
    · rfl
    · obtain ⟨z, hz, hzt⟩ := h6 hd hp
      have := i3 z hz
      omega
  · rw [i2, h4 hp]
    cases hd : q.done
    · obtain ⟨k1, k2, -⟩ := C75_samples v c x l a hv hW h
      cases l with
      | nil => cases hh
      | cons z l =>
        have := h5 hd z.1 z.2 rfl
        have := k1 l.length z.1 z.2 (by simp)
        simp only [List.length_cons] at k2
        omega
    · rfl

/-- While the button is up idle mode stays as it was when the button was let go. -/
theorem C103_up (v : Speed) (c : Conf) (x : Loop) (l : List (Nat × BitVec 8)) (a : Nat) (hb : c.boost = true)
    (hc : c.idle = true) (hv : v.Sane) (hW : v.W ≤ 10) (h : LoopPanel v c x l a) :
    x.s.ct.idle = (ironModes (upToPress l)).1 := by
  rw [C103_idle v c x l a hb hc hv hW h]
  clear h
  induction l with
  | nil => rfl
  | cons z l ih =>
    obtain ⟨T, p⟩ := z
    unfold upToPress
    cases hd : IronDown p
    · rw [List.dropWhile_cons_of_pos (by simp [hd])]
      rw [show List.dropWhile (fun x : Nat × BitVec 8 => !IronDown x.2) l = upToPress l from rfl, ← ih]
      simp only [ironModes, hd]
      unfold idleAfter
      split <;> simp_all
    · rw [List.dropWhile_cons_of_neg (by simp [hd])]

/-- The sample which sees the iron button released advances the boost mode by one of three, unless the press was begun
    in idle mode or has entered it; any other sample leaves the boost mode.  (`b` is the boost mode before, or 0 if SET
    is released in the same sample, which may leave or enter a tuning screen.) -/
theorem C103_boost (v : Speed) (c : Conf) (x y : Loop) (l : List (Nat × BitVec 8)) (a : Nat) (pinb : BitVec 8)
    (hb : c.boost = true) (hc : c.idle = true) (hv : v.Sane) (hW : v.W ≤ 10) (h : LoopPanel v c x l a)
    (hs : LoopStep c x (some (.buttonsWork pinb)) y) (hx : Samples x.s (.buttonsWork pinb) pinb) :
    ∃ b, (b = x.s.ct.boost ∨ (b = 0 ∧ WasDown l .set = true ∧ Down pinb .set = false)) ∧
      y.s.ct.boost = if WasDown l .iron = true ∧ Down pinb .iron = false ∧
          (ironModes (beforePress l)).1 = false ∧ x.s.ct.idle = false
        then (b + 1) % 3 else b := by
  obtain ⟨i1, i2, i3, hw⟩ := iron_loop hb hc hv hW h
  rcases hs.sys with ⟨h', -⟩ | ⟨f, hf, hp, hf', eT, -⟩
  · cases h'
  cases hf
  obtain ⟨-, b, hb', he⟩ := C42_sample c hb hc x.s y.s x.T _ pinb i1 hx hf' hw
  have hprev := (pins_inv (h.inv hv).pins).2.2
  refine ⟨b, ?_, ?_⟩
  · rcases hb' with h | ⟨h1, h2, h3⟩
    · exact Or.inl h
    · right
      refine ⟨h1, ?_, ?_⟩
      · rw [← hprev .set]; exact h2
      · show Down pinb .set = false
        simp [Down, h3]
  · rw [he, iron_down]
    cases hd : IronDown pinb
    · cases hm : (ironModes l).2 with
      | none =>
        have hw' : WasDown l .iron = false := by
          cases hw : WasDown l .iron
          · rfl
          · cases l with
            | nil => cases hw
            | cons z l =>
              have : IronDown z.2 = true := by simpa [WasDown, iron_down] using hw
              simp only [ironModes, this] at hm
              unfold nextPress at hm
              split at hm <;> simp_all
        simp [hw', boostAfter]
      | some q =>
        have hh := modes_press l q hm
        obtain ⟨q', h1, h2, h3, h4, -⟩ := modes_held l _ hh
        rw [hm] at h1
        cases h1
        have hw' := held_was hh
        simp only [boostAfter, hw', true_and, i2]
        cases hp : (ironModes (beforePress l)).1
        · rw [h4 hp]; cases q.done <;> simp
        · rw [(h3 hp).1, (h3 hp).2]; simp
    · unfold boostAfter
      split <;> simp_all

/-! ### concrete runs -/

/-- iterations every 10 ms, with a very slow converter -/
private def turns (pinb : BitVec 8) (n : Nat) : List Cmd :=
  (List.replicate n (round pinb ++ [.pause 10])).flatten

set_option maxRecDepth 100000 in
/-- `C103_held`: the iron button is held from 20 ms on; 1000 ms later idle mode is on. -/
example : ∃ x l a, LoopPanel ⟨10, 2000, 4⟩ .m88p x l a ∧ Speed.Sane ⟨10, 2000, 4⟩ ∧ Conf.m88p.boost = true ∧
    Conf.m88p.idle = true ∧ heldSince .iron l = some 20 ∧ (ironModes (beforePress l)).1 = false ∧ x.T = 1060 ∧
    x.s.ct.idle = true := by
  have h : (panelCmds ⟨10, 2000, 4⟩ .m88p 0xFF (turns 0xFF 2 ++ turns 0xFE 104)).any (fun x =>
      decide (heldSince .iron x.2.1 = some 20) && ((ironModes (beforePress x.2.1)).1 == false && (x.1.T == 1060 &&
      x.1.s.ct.idle == true))) = true := by decide +kernel
  match e : panelCmds ⟨10, 2000, 4⟩ .m88p 0xFF (turns 0xFF 2 ++ turns 0xFE 104) with
  | none => rw [e] at h; cases h
  | some x =>
    rw [e] at h
    simp only [Option.any_some, Bool.and_eq_true, beq_iff_eq, decide_eq_true_eq] at h
    exact ⟨x.1, x.2.1, x.2.2, panelCmds_panel validEeprom_m88p e, by unfold Speed.Sane; decide, rfl, rfl, h.1, h.2.1,
      h.2.2.1, h.2.2.2⟩

set_option maxRecDepth 100000 in
/-- `C103_boost`: a press of 100 ms, released, advances the boost mode from 0 to 1. -/
example : ∃ x y l a, LoopPanel ⟨10, 2000, 4⟩ .m88p x l a ∧ LoopStep .m88p x (some (.buttonsWork 0xFF)) y ∧
    Samples x.s (.buttonsWork 0xFF) 0xFF ∧ heldSince .iron l = some 20 ∧ x.s.ct.boost = 0 ∧ y.s.ct.boost = 1 := by
  have h : (panelCmds ⟨10, 2000, 4⟩ .m88p 0xFF (turns 0xFF 2 ++ turns 0xFE 10 ++ (round 0xFF).take 4)).any (fun x =>
      decide (heldSince .iron x.2.1 = some 20) && (x.1.s.ct.boost == 0 && (x.1.pc == .buttons &&
      (timerExpired x.1.s.now x.1.s.btn.debounce &&
      (step .m88p x.1.s (.buttonsWork 0xFF)).any fun s => s.ct.boost == 1)))) = true := by decide +kernel
  match e : panelCmds ⟨10, 2000, 4⟩ .m88p 0xFF (turns 0xFF 2 ++ turns 0xFE 10 ++ (round 0xFF).take 4) with
  | none => rw [e] at h; cases h
  | some x =>
    rw [e] at h
    simp only [Option.any_some, Bool.and_eq_true, beq_iff_eq, decide_eq_true_eq] at h
    obtain ⟨h1, h2, h3, h4, h5⟩ := h
    match es : step .m88p x.1.s (.buttonsWork 0xFF) with
    | none => rw [es] at h5; cases h5
    | some s =>
      rw [es] at h5
      exact ⟨x.1, _, x.2.1, x.2.2, panelCmds_panel validEeprom_m88p e,
        LoopStep.call (pinb := 0xFF) (by rw [h3]; rfl) es, ⟨rfl, h4⟩, h1, h2, by simpa [Loop.after] using h5⟩

end Verif.Props
