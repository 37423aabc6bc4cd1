import Verif.Proofs.LoopPanel
/-
C75, C76: the buttons and the screens in the main loop.
-/
namespace Verif.Props
open Spec

/-! ### C75 -/

/-- If every iteration of the main loop takes at most 10 ms, the buttons are sampled every 10 ms: sample number `k`
    (from 0) is taken at `10 k` ms or at most two iterations later, none is missing so far, and two consecutive samples
    are 10 ms apart, give or take two iterations. -/
theorem C75_samples (v : Speed) (c : Conf) (x : Loop) (l : List (Nat × BitVec 8)) (a : Nat) (hv : v.Sane)
    (hW : v.W ≤ 10) (h : LoopPanel v c x l a) :
    (∀ k t p, l.reverse[k]? = some (t, p) → 10 * k ≤ t ∧ t ≤ 10 * k + 2 * v.W) ∧
    x.T ≤ 10 * l.length + 2 * v.W ∧
    ∀ k t p t' p', l.reverse[k]? = some (t, p) → l.reverse[k + 1]? = some (t', p') →
      t + 10 ≤ t' + 2 * v.W ∧ t' ≤ t + 10 + 2 * v.W := by
  have h1 := h.inStep hv hW
  have h2 := (C50_spacing_partial c x.s x.T l (h.inv hv).pins).1
  have key : ∀ k t p, l.reverse[k]? = some (t, p) → 10 * k ≤ t ∧ t ≤ 10 * k + 2 * v.W :=
    fun k t p hk => ⟨h2 k t p hk, h1.2 k t p hk⟩
  refine ⟨key, ?_, fun k t p t' p' hk hk' => ?_⟩
  · have := (h.inv hv).inv.dog
    have := h1.1.le
    omega
  · have := key k t p hk
    have := key (k + 1) t' p' hk'
    omega

/-! ### C76 -/

/-- A screen with limited time (3000 ms, 1500 ms) is left at the latest two watchdog periods after its time is over. -/
theorem C76_left (v : Speed) (c : Conf) (x : Loop) (l : List (Nat × BitVec 8)) (a L : Nat) (hv : v.Sane)
    (h : LoopPanel v c x l a) (hL : holdTime x.s.menu.state = some L) : x.T ≤ a + L + 2 * v.W :=
  (h.inv hv).late hL

/-! ### concrete runs -/

/-- iterations every 5 ms -/
private def fast (pinb : BitVec 8) (n : Nat) : List Cmd := (List.replicate n (round pinb ++ samples 5 280)).flatten

set_option maxRecDepth 100000 in
/-- `C75_samples`: the samples of the first 50 ms of a loop with iterations of 5 ms. -/
example : ∃ x l a, LoopPanel ⟨5, 5, 4⟩ .m88p x l a ∧ x.T = 50 ∧ Speed.Sane ⟨5, 5, 4⟩ ∧
    l = [(40, 0xFF), (30, 0xFF), (20, 0xEF), (10, 0xEF), (0, 0xEF)] := by
  have h : (panelCmds ⟨5, 5, 4⟩ .m88p 0xFF (fast 0xEF 5 ++ fast 0xFF 5)).any (fun x => x.1.T == 50 &&
      x.2.1 == [(40, 0xFF), (30, 0xFF), (20, 0xEF), (10, 0xEF), (0, 0xEF)]) = true := by decide
  match e : panelCmds ⟨5, 5, 4⟩ .m88p 0xFF (fast 0xEF 5 ++ fast 0xFF 5) with
  | none => rw [e] at h; cases h
  | some x =>
    rw [e] at h
    simp only [Option.any_some, Bool.and_eq_true, beq_iff_eq] at h
    exact ⟨x.1, x.2.1, x.2.2, panelCmds_panel validEeprom_m88p e, h.1, by unfold Speed.Sane; decide, h.2⟩

set_option maxRecDepth 100000 in
/-- The condition on the iterations is needed: with iterations of 250 ms, which the watchdog allows, the sampling falls
    behind by 240 ms each; sample number 8 is taken 2 s late. -/
example : ∃ x l a, LoopPanel .shipped .m88p x l a ∧ l.reverse[8]? = some (2250, 0xFF) := by
  have h : (panelCmds .shipped .m88p 0xFF (cycles 5 280 0)).any
      (fun x => x.2.1.reverse[8]? == some (2250, 0xFF)) = true := by decide
  match e : panelCmds .shipped .m88p 0xFF (cycles 5 280 0) with
  | none => rw [e] at h; cases h
  | some x =>
    rw [e] at h
    simp only [Option.any_some, beq_iff_eq] at h
    exact ⟨x.1, x.2.1, x.2.2, panelCmds_panel validEeprom_m88p e, h⟩

/-- plus is pressed and released, the screen of the presets appears; then nothing is touched -/
private def untouched : List Cmd :=
  samples 50 280 ++ [.pause 200] ++ round 0xEF ++ samples 5 0 ++ [.pause 245] ++ round 0xEF ++
  samples 50 280 ++ [.pause 200] ++ round 0xEF ++ samples 5 0 ++ [.pause 245] ++ round 0xFF ++
  samples 50 280 ++ [.pause 100] ++ round 0xFF ++ samples 5 0 ++ [.pause 245] ++ round 0xFF ++
  cycles 5 280 0 ++ samples 50 280 ++ [.pause 200]

set_option maxRecDepth 100000 in
/-- `C76_left`: the screen of the presets, last touched at 1000 ms, is still there 150 ms after its time is over. -/
example : ∃ x l a, LoopPanel .shipped .m88p x l a ∧ Speed.Sane .shipped ∧ holdTime x.s.menu.state = some 3000 ∧
    a = 1000 ∧ x.T = 4150 := by
  have h : (panelCmds .shipped .m88p 0xFF untouched).any (fun x => holdTime x.1.s.menu.state == some 3000 &&
      (x.2.2 == 1000 && x.1.T == 4150)) = true := by decide
  match e : panelCmds .shipped .m88p 0xFF untouched with
  | none => rw [e] at h; cases h
  | some x =>
    rw [e] at h
    simp only [Option.any_some, Bool.and_eq_true, beq_iff_eq] at h
    exact ⟨x.1, x.2.1, x.2.2, panelCmds_panel validEeprom_m88p e, by unfold Speed.Sane; decide, h.1, h.2.1, h.2.2⟩

set_option maxRecDepth 100000 in
/-- The next call of the menu leaves it. -/
example : ∃ x l a, LoopPanel .shipped .m88p x l a ∧ x.s.menu.state = .curtemp ∧ a = 4150 ∧ x.T = 4150 := by
  have h : (panelCmds .shipped .m88p 0xFF (untouched ++ round 0xFF)).any (fun x => x.1.s.menu.state == .curtemp &&
      (x.2.2 == 4150 && x.1.T == 4150)) = true := by decide
  match e : panelCmds .shipped .m88p 0xFF (untouched ++ round 0xFF) with
  | none => rw [e] at h; cases h
  | some x =>
    rw [e] at h
    simp only [Option.any_some, Bool.and_eq_true, beq_iff_eq] at h
    exact ⟨x.1, x.2.1, x.2.2, panelCmds_panel validEeprom_m88p e, h.1, h.2.1, h.2.2⟩

end Verif.Props
