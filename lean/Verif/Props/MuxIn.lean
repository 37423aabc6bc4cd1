import Verif.Proofs.MuxIn
/-
C117: the digits of the display in the main loop with interrupts inside the work functions.
-/
namespace Verif.Props
open Spec

/-! ### C117 -/

/-- If every iteration of the main loop takes at most 1 ms, then while the display is on a digit is lit each millisecond
    also with interrupts inside the work functions: the display came on at some time `b` during the call that switched
    it on (at boot: at 0), lighting number `k` (from 0) comes `k` ms later, or at most two iterations after that, and
    none is missing so far. -/
theorem C117_rate (v : Speed) (c : Conf) (x : LoopI) (t0 : Nat) (l : List (Nat × Nat)) (hv : v.SaneI) (hW : v.W ≤ 1)
    (h : LoopIMux v c x t0 l) (hd : x.s.debugEn = false) :
    ∃ b, t0 ≤ b ∧ b ≤ t0 + v.W ∧
      (∀ k t j, l.reverse[k]? = some (t, j) → b + k ≤ t ∧ t ≤ b + k + 2 * v.W) ∧
      x.T ≤ b + l.length + 2 * v.W := by
  obtain ⟨b, b1, b2, hi⟩ := h.inv hv hW
  refine ⟨b, b1, b2, fun k t j hk => hi.times hd k (t, j) hk, ?_⟩
  have := (hi.late hd).le
  have := hi.inv.dog
  omega

/-- They take turns: after digit `i` comes digit `i + 1`, after the last the first, and the digit last in the history is
    the only one that is lit. -/
theorem C117_turns (v : Speed) (c : Conf) (x : LoopI) (t0 : Nat) (l : List (Nat × Nat)) (hv : v.SaneI) (hW : v.W ≤ 1)
    (h : LoopIMux v c x t0 l) (hd : x.s.debugEn = false) :
    (∀ k t i t' j, l.reverse[k]? = some (t, i) → l.reverse[k + 1]? = some (t', j) → i < 4 ∧ j = (i + 1) % 4) ∧
    ∀ j, DriverOn x.s.ports.v j = true ↔ ∃ t, l.head? = some (t, j) := by
  obtain ⟨b, -, -, hi⟩ := h.inv hv hW
  refine ⟨fun k t i t' j hk hk' => ⟨hi.small (t, i) (List.mem_reverse.mp (List.mem_of_getElem? hk)),
    hi.order hd k (t, i) (t', j) hk hk'⟩, hi.lit hd⟩

/-- So every digit has its turn every 4 ms, give or take two iterations: none flickers or stays dark. -/
theorem C117_each (v : Speed) (c : Conf) (x : LoopI) (t0 : Nat) (l : List (Nat × Nat)) (hv : v.SaneI) (hW : v.W ≤ 1)
    (h : LoopIMux v c x t0 l) (hd : x.s.debugEn = false) :
    (∀ k t i t' j, l.reverse[k]? = some (t, i) → l.reverse[k + 4]? = some (t', j) →
      j = i ∧ t + 4 ≤ t' + 2 * v.W ∧ t' ≤ t + 4 + 2 * v.W) ∧
    ∀ j, j < 4 → t0 + 4 + 3 * v.W < x.T → ∃ t, (t, j) ∈ l ∧ x.T ≤ t + 4 + 2 * v.W := by
  obtain ⟨b, -, hb, h1, h2⟩ := C117_rate v c x t0 l hv hW h hd
  obtain ⟨h3, -⟩ := C117_turns v c x t0 l hv hW h hd
  have get : ∀ k, k < l.length → ∃ t i, l.reverse[k]? = some (t, i) := fun k hk => by
    have hk : k < l.reverse.length := by rw [List.length_reverse]; exact hk
    exact ⟨_, _, List.getElem?_eq_getElem hk⟩
  have five : ∀ k t i t' j, l.reverse[k]? = some (t, i) → l.reverse[k + 4]? = some (t', j) → ∃ t1 t2 t3,
      l.reverse[k + 1]? = some (t1, (i + 1) % 4) ∧ l.reverse[k + 2]? = some (t2, (i + 2) % 4) ∧
      l.reverse[k + 3]? = some (t3, (i + 3) % 4) ∧ j = i ∧ i < 4 := by
    intro k t i t' j hk hk'
    have hlen := (List.getElem?_eq_some_iff.mp hk').1
    rw [List.length_reverse] at hlen
    obtain ⟨t1, i1, e1⟩ := get (k + 1) (by omega)
    obtain ⟨t2, i2, e2⟩ := get (k + 2) (by omega)
    obtain ⟨t3, i3, e3⟩ := get (k + 3) (by omega)
    have a1 := h3 k _ _ _ _ hk e1
    have a2 := h3 (k + 1) _ _ _ _ e1 e2
    have a3 := h3 (k + 2) _ _ _ _ e2 e3
    have a4 := h3 (k + 3) _ _ _ _ e3 hk'
    refine ⟨t1, t2, t3, ?_, ?_, ?_, by omega, by omega⟩
    · rw [e1]; congr 2; omega
    · rw [e2]; congr 2; omega
    · rw [e3]; congr 2; omega
  constructor
  · intro k t i t' j hk hk'
    obtain ⟨-, -, -, -, -, -, hj, -⟩ := five k t i t' j hk hk'
    have := h1 k t i hk
    have := h1 (k + 4) t' j hk'
    omega
  · intro j hj hT
    have hlen : 5 ≤ l.length := by omega
    obtain ⟨m, hm⟩ : ∃ m, l.length = m + 5 := ⟨l.length - 5, by omega⟩
    obtain ⟨t, i, e0⟩ := get m (by omega)
    obtain ⟨t4, i4, e4⟩ := get (m + 4) (by omega)
    obtain ⟨t1, t2, t3, e1, e2, e3, -, hi⟩ := five m t i t4 i4 e0 e4
    have b1 := h1 _ _ _ e1
    have b2 := h1 _ _ _ e2
    have b3 := h1 _ _ _ e3
    have a4 := h3 (m + 3) _ _ _ _ e3 e4
    have b4 := h1 _ _ _ e4
    have mem : ∀ {k p}, l.reverse[k]? = some p → p ∈ l := fun h => List.mem_reverse.mp (List.mem_of_getElem? h)
    have hx : j = (i + 1) % 4 ∨ j = (i + 2) % 4 ∨ j = (i + 3) % 4 ∨ j = i4 := by omega
    rcases hx with rfl | rfl | rfl | rfl
    · exact ⟨t1, mem e1, by omega⟩
    · exact ⟨t2, mem e2, by omega⟩
    · exact ⟨t3, mem e3, by omega⟩
    · exact ⟨t4, mem e4, by omega⟩

/-! ### concrete runs -/

/-- an iteration with ticks inside the work functions of the display and of the buttons; a very slow converter -/
private def turn (pinb : BitVec 8) (d b : List Nat) (n : Nat) : List CmdI :=
  [.reset, .call .measureWork [], .call .menuWork [], .call .displayWork d] ++ List.replicate d.sum .pass ++
    [.call (.buttonsWork pinb) b] ++ List.replicate b.sum .pass ++ [.call .settingsWork []] ++ List.replicate n .tick

private def brisk (pinb : BitVec 8) (n : Nat) : List CmdI := (List.replicate n (turn pinb [] [] 1)).flatten

private def first9 : List CmdI :=
  brisk 0xFF 2 ++ turn 0xFF [1] [] 0 ++ turn 0xFF [1] [] 0 ++ turn 0xFF [] [1] 0 ++ turn 0xFF [1] [] 0 ++ brisk 0xFF 3

set_option maxRecDepth 100000 in
/-- `C117_rate`, `C117_turns`, `C117_each`: the first 9 ms after boot, with ticks inside `display_work` and
    `buttons_work`; the tick in the third and the sixth iteration delays a digit. -/
example : ∃ x t0 l, LoopIMux ⟨1, 2000, 4⟩ .m88p x t0 l ∧ Speed.SaneI ⟨1, 2000, 4⟩ ∧ x.s.debugEn = false ∧ x.T = 9 ∧ t0 = 0 ∧
    l = [(8, 1), (7, 0), (6, 3), (6, 2), (4, 1), (4, 0), (3, 3), (1, 2), (0, 1)] := by
  have h : (muxCmdsI ⟨1, 2000, 4⟩ .m88p 0xFF first9).any (fun x => (x.1.s.debugEn == false && x.1.T == 9) &&
      (x.2.1 == 0 && x.2.2 == [(8, 1), (7, 0), (6, 3), (6, 2), (4, 1), (4, 0), (3, 3), (1, 2), (0, 1)])) = true := by
    decide +kernel
  match e : muxCmdsI ⟨1, 2000, 4⟩ .m88p 0xFF first9 with
  | none => rw [e] at h; cases h
  | some x =>
    rw [e] at h
    simp only [Option.any_some, Bool.and_eq_true, beq_iff_eq] at h
    exact ⟨x.1, x.2.1, x.2.2, muxCmdsI_mux validEeprom_m88p e, by unfold Speed.SaneI; decide, h.1.1, h.1.2, h.2.1, h.2.2⟩

private def wake : List CmdI := brisk 0xFF 12 ++ brisk 0xF7 8 ++ turn 0xF7 [] [0, 1] 0 ++ brisk 0xF7 4

set_option maxRecDepth 100000 in
/-- The display is dark while debugging (switched on at boot by holding set); pressing minus ends that in the call at
    20 ms, after a tick inside, and the digits take their turns from 21 ms on. -/
example : ∃ x t0 l, LoopIMux ⟨1, 2000, 4⟩ .m328p x t0 l ∧ x.s.debugEn = false ∧ x.T = 25 ∧ t0 = 20 ∧
    l = [(24, 0), (23, 3), (22, 2), (21, 1)] := by
  have h : (muxCmdsI ⟨1, 2000, 4⟩ .m328p 0xFB wake).any (fun x =>
      (x.1.s.debugEn == false && x.1.T == 25) && (x.2.1 == 20 && x.2.2 == [(24, 0), (23, 3), (22, 2), (21, 1)])) = true := by
    decide +kernel
  match e : muxCmdsI ⟨1, 2000, 4⟩ .m328p 0xFB wake with
  | none => rw [e] at h; cases h
  | some x =>
    rw [e] at h
    simp only [Option.any_some, Bool.and_eq_true, beq_iff_eq] at h
    exact ⟨x.1, x.2.1, x.2.2, muxCmdsI_mux validEeprom_m328p e, h.1.1, h.1.2, h.2.1, h.2.2⟩

end Verif.Props
