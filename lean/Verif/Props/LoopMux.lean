import Verif.Proofs.LoopMux
/-
C102: the digits of the display are lit one after the other, one each millisecond.
-/
namespace Verif.Props
open Spec

/-! ### C102 -/

/-- If every iteration of the main loop takes at most 1 ms, then while the display is on a digit is lit each millisecond:
    lighting number `k` (from 0) comes `k` ms after the display was switched on, or at most two iterations later, and
    none is missing so far. -/
theorem C102_rate (v : Speed) (c : Conf) (x : Loop) (t0 : Nat) (l : List (Nat × Nat)) (hv : v.Sane) (hW : v.W ≤ 1)
    (h : LoopMux v c x t0 l) (hd : x.s.debugEn = false) :
    (∀ k t j, l.reverse[k]? = some (t, j) → t0 + k ≤ t ∧ t ≤ t0 + k + 2 * v.W) ∧
    x.T ≤ t0 + l.length + 2 * v.W := by
  have hi := h.inv hv hW
  refine ⟨fun k t j hk => hi.times hd k (t, j) hk, ?_⟩
  have := (hi.late hd).le
  have := hi.inv.dog
  omega

/-- They take turns: after digit `i` comes digit `i + 1`, after the last the first, and the digit last in the history is
    the only one that is lit. -/
theorem C102_turns (v : Speed) (c : Conf) (x : Loop) (t0 : Nat) (l : List (Nat × Nat)) (hv : v.Sane) (hW : v.W ≤ 1)
    (h : LoopMux v c x t0 l) (hd : x.s.debugEn = false) :
    (∀ k t i t' j, l.reverse[k]? = some (t, i) → l.reverse[k + 1]? = some (t', j) → i < 4 ∧ j = (i + 1) % 4) ∧
    ∀ j, DriverOn x.s.ports.v j = true ↔ ∃ t, l.head? = some (t, j) := by
  have hi := h.inv hv hW
  refine ⟨fun k t i t' j hk hk' => ⟨hi.small (t, i) (List.mem_reverse.mp (List.mem_of_getElem? hk)),
    hi.order hd k (t, i) (t', j) hk hk'⟩, hi.lit hd⟩

/-- So every digit has its turn every 4 ms, give or take two iterations: none flickers or stays dark. -/
theorem C102_each (v : Speed) (c : Conf) (x : Loop) (t0 : Nat) (l : List (Nat × Nat)) (hv : v.Sane) (hW : v.W ≤ 1)
    (h : LoopMux v c x t0 l) (hd : x.s.debugEn = false) :
    (∀ k t i t' j, l.reverse[k]? = some (t, i) → l.reverse[k + 4]? = some (t', j) →
      j = i ∧ t + 4 ≤ t' + 2 * v.W ∧ t' ≤ t + 4 + 2 * v.W) ∧
    ∀ j, j < 4 → t0 + 4 + 2 * v.W < x.T → ∃ t, (t, j) ∈ l ∧ x.T ≤ t + 4 + 2 * v.W := by
  obtain ⟨h1, h2⟩ := C102_rate v c x t0 l hv hW h hd
  obtain ⟨h3, -⟩ := C102_turns v c x t0 l hv hW h hd
  have get : ∀ k, k < l.length → ∃ t i, l.reverse[k]? = some (t, i) := fun k hk => by
    have hk : k < l.reverse.length := by rw [List.length_reverse]; exact hk
    exact ⟨_, _, List.getElem?_eq_getElem hk⟩
  have five : ∀ k t i t' j, l.reverse[k]? = some (t, i) → l.reverse[k + 4]? = some (t', j) → ∃ t1 t2 t3,
      l.reverse[k + 1]? = some (t1, (i + 1) % 4) ∧ l.reverse[k + 2]? = some (t2, (i + 2) % 4) ∧
      l.reverse[k + 3]? = some (t3, (i + 3) % 4) ∧ j = i ∧ i < 4 := by
    intro k t i t' j hk hk'
    have hlen := (List.getElem?_eq_some_iff.mp hk').1
    rw [List.length_reverse] at hlen
    obtain ⟨t1, i1, e1⟩ := get (k + 1) (by omega)
    obtain ⟨t2, i2, e2⟩ := get (k + 2) (by omega)
    obtain ⟨t3, i3, e3⟩ := get (k + 3) (by omega)
    have a1 := h3 k _ _ _ _ hk e1
    have a2 := h3 (k + 1) _ _ _ _ e1 e2
    have a3 := h3 (k + 2) _ _ _ _ e2 e3
    have a4 := h3 (k + 3) _ _ _ _ e3 hk'
    refine ⟨t1, t2, t3, ?_, ?_, ?_, by omega, by omega⟩
    · rw [e1]; congr 2; omega
    · rw [e2]; congr 2; omega
    · rw [e3]; congr 2; omega
  constructor
  · intro k t i t' j hk hk'
    obtain ⟨-, -, -, -, -, -, hj, -⟩ := five k t i t' j hk hk'
    have := h1 k t i hk
    have := h1 (k + 4) t' j hk'
    omega
  · intro j hj hT
    have hlen : 5 ≤ l.length := by omega
    obtain ⟨m, hm⟩ : ∃ m, l.length = m + 5 := ⟨l.length - 5, by omega⟩
    obtain ⟨t, i, e0⟩ := get m (by omega)
    obtain ⟨t4, i4, e4⟩ := get (m + 4) (by omega)
    obtain ⟨t1, t2, t3, e1, e2, e3, -, hi⟩ := five m t i t4 i4 e0 e4
    have b1 := h1 _ _ _ e1
    have b2 := h1 _ _ _ e2
    have b3 := h1 _ _ _ e3
    have a4 := h3 (m + 3) _ _ _ _ e3 e4
    have b4 := h1 _ _ _ e4
    have mem : ∀ {k p}, l.reverse[k]? = some p → p ∈ l := fun h => List.mem_reverse.mp (List.mem_of_getElem? h)
    have hx : j = (i + 1) % 4 ∨ j = (i + 2) % 4 ∨ j = (i + 3) % 4 ∨ j = i4 := by omega
    rcases hx with rfl | rfl | rfl | rfl
    · exact ⟨t1, mem e1, by omega⟩
    · exact ⟨t2, mem e2, by omega⟩
    · exact ⟨t3, mem e3, by omega⟩
    · exact ⟨t4, mem e4, by omega⟩

/-! ### concrete runs -/

/-- iterations every millisecond -/
private def brisk (pinb : BitVec 8) (n : Nat) : List Cmd := (List.replicate n (round pinb ++ samples 1 280)).flatten

set_option maxRecDepth 100000 in
/-- `C102_rate`, `C102_turns`, `C102_each`: the first 9 ms after boot. -/
example : ∃ x t0 l, LoopMux ⟨1, 1, 4⟩ .m88p x t0 l ∧ Speed.Sane ⟨1, 1, 4⟩ ∧ x.s.debugEn = false ∧ x.T = 9 ∧ t0 = 0 ∧
    l = [(8, 1), (7, 0), (6, 3), (5, 2), (4, 1), (3, 0), (2, 3), (1, 2), (0, 1)] := by
  have h : (muxCmds ⟨1, 1, 4⟩ .m88p 0xFF (brisk 0xFF 9)).any (fun x => (x.1.s.debugEn == false && x.1.T == 9) &&
      (x.2.1 == 0 && x.2.2 == [(8, 1), (7, 0), (6, 3), (5, 2), (4, 1), (3, 0), (2, 3), (1, 2), (0, 1)])) = true := by
    decide
  match e : muxCmds ⟨1, 1, 4⟩ .m88p 0xFF (brisk 0xFF 9) with
  | none => rw [e] at h; cases h
  | some x =>
    rw [e] at h
    simp only [Option.any_some, Bool.and_eq_true, beq_iff_eq] at h
    exact ⟨x.1, x.2.1, x.2.2, muxCmds_mux validEeprom_m88p e, by unfold Speed.Sane; decide, h.1.1, h.1.2, h.2.1, h.2.2⟩

set_option maxRecDepth 100000 in
/-- The display is dark while debugging (switched on at boot by holding set); pressing minus at 20 ms ends that, and the
    digits take their turns from then on. -/
example : ∃ x t0 l, LoopMux ⟨1, 1, 4⟩ .m328p x t0 l ∧ x.s.debugEn = false ∧ x.T = 24 ∧ t0 = 20 ∧
    l = [(23, 3), (22, 2), (21, 1)] := by
  have h : (muxCmds ⟨1, 1, 4⟩ .m328p 0xFB (brisk 0xFF 12 ++ brisk 0xF7 12)).any (fun x =>
      (x.1.s.debugEn == false && x.1.T == 24) && (x.2.1 == 20 && x.2.2 == [(23, 3), (22, 2), (21, 1)])) = true := by
    decide +kernel
  match e : muxCmds ⟨1, 1, 4⟩ .m328p 0xFB (brisk 0xFF 12 ++ brisk 0xF7 12) with
  | none => rw [e] at h; cases h
  | some x =>
    rw [e] at h
    simp only [Option.any_some, Bool.and_eq_true, beq_iff_eq] at h
    exact ⟨x.1, x.2.1, x.2.2, muxCmds_mux validEeprom_m328p e, h.1.1, h.1.2, h.2.1, h.2.2⟩

/-- iterations of 250 ms, which the watchdog allows -/
private def slow (n : Nat) : List Cmd := (List.replicate n (round 0xFF ++ [.pause 250, .ev (.adc 280)])).flatten

set_option maxRecDepth 100000 in
/-- The condition on the iterations is needed: with iterations of 250 ms the multiplexing falls behind by 249 ms each,
    until after 33 s the 16-bit timer is out of its range; from then on one and the same digit is lit for another 32 s. -/
example : ∃ x t0 l, LoopMux ⟨250, 250, 4⟩ .m88p x t0 l ∧ x.s.debugEn = false ∧ x.T = 65500 ∧
    l.head? = some (32750, 0) := by
  have h : (muxCmds ⟨250, 250, 4⟩ .m88p 0xFF (slow 262)).any (fun x =>
      (x.1.s.debugEn == false && x.1.T == 65500) && x.2.2.head? == some (32750, 0)) = true := by decide +kernel
  match e : muxCmds ⟨250, 250, 4⟩ .m88p 0xFF (slow 262) with
  | none => rw [e] at h; cases h
  | some x =>
    rw [e] at h
    simp only [Option.any_some, Bool.and_eq_true, beq_iff_eq] at h
    exact ⟨x.1, x.2.1, x.2.2, muxCmds_mux validEeprom_m88p e, h.1.1, h.1.2, h.2⟩

end Verif.Props
