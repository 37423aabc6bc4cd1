import Verif.Proofs.PanelIn
import Verif.Spec.UiIn
/-
C112: the buttons and the screens in the main loop with interrupts inside the work functions.
-/
namespace Verif.Props
open Spec

/-- If every iteration of the main loop takes at most 10 ms, the buttons are sampled every 10 ms also with interrupts
    inside the work functions: sample number `k` (from 0) is taken at `10 k` ms or at most two iterations later, none is
    missing so far, and two consecutive samples are 10 ms apart, give or take two iterations. -/
theorem C112_samples (v : Speed) (c : Conf) (x : LoopI) (l : List (Nat × BitVec 8)) (hv : v.SaneI) (hW : v.W ≤ 10)
    (h : LoopISamples v c x l) :
    (∀ k t p, l.reverse[k]? = some (t, p) → 10 * k ≤ t ∧ t ≤ 10 * k + 2 * v.W) ∧
    x.T ≤ 10 * l.length + 2 * v.W ∧
    ∀ k t p t' p', l.reverse[k]? = some (t, p) → l.reverse[k + 1]? = some (t', p') →
      t + 10 ≤ t' + 2 * v.W ∧ t' ≤ t + 10 + 2 * v.W := by
  have hi := h.inv hv hW
  refine ⟨hi.times, ?_, fun k t p t' p' hk hk' => ?_⟩
  · obtain ⟨u, hu⟩ := hi.ui
    have := hu.inv.dog
    have := hi.behind.le
    omega
  · have := hi.times k t p hk
    have := hi.times (k + 1) t' p' hk'
    omega

/-- What the firmware remembers is the last sample: the buttons that were down (none before the first sample). -/
theorem C112_last (v : Speed) (c : Conf) (x : LoopI) (l : List (Nat × BitVec 8)) (hv : v.SaneI) (hW : v.W ≤ 10)
    (h : LoopISamples v c x l) (b : Button) :
    x.s.btn.prev.getLsbD (buttonPin b) = match l with
      | [] => false
      | (_, p) :: _ => Down p b := by
  rw [(h.inv hv hW).prev]
  cases l with
  | nil => cases b <;> rfl
  | cons a l =>
    show (buttonsRaw a.2).getLsbD _ = Down a.2 b
    unfold buttonsRaw
    cases b <;> simp [Down, buttonPin, BUTTONS_MASK]

/-- The user interface that runs beside the firmware (C109) is served in time also with interrupts inside the work
    functions: a screen with limited time is left, a wait becomes a change, and a step of a change is made, at the latest
    two iterations after it is due. -/
theorem C112_prompt (v : Speed) (c : Conf) (hv : v.SaneI) (hW : v.W ≤ 25) (ee : Nat → Nat) (pinb : BitVec 8) (s : Sys)
    (he : ValidEeprom c ee) (hb : boot c ee pinb = some s) (N : Nat) (run : Nat → LoopI) (ev : Nat → Option Ev)
    (h0 : run 0 = ⟨s, .reset, 0, 0, 0, 0, 0⟩)
    (h : ∀ n < N, LoopIStep c (run n) (ev n) (run (n + 1)) ∧ InTimeI v (run (n + 1))) :
    ∃ ui : Nat → Ui, ui 0 = uiStart s.set.cache (c.debug && Down pinb .set) ∧
      (∀ n < N, UiMoves c (run n) (ev n) (run (n + 1)) (ui n) (ui (n + 1))) ∧ ∀ n ≤ N, Agrees (run n).s (ui n) ∧
      (∀ L, holdTime (ui n).screen = some L → (run n).T ≤ (ui n).since + L + 2 * v.W) ∧
      ((ui n).ramp = .preUp ∨ (ui n).ramp = .preDown → (run n).T ≤ (ui n).rampAt + 1000 + 2 * v.W) ∧
      ((ui n).ramp = .up ∨ (ui n).ramp = .down → (run n).T ≤ (ui n).rampAt + 2 * v.W) := by
  obtain ⟨ui, k0, k1, k2⟩ := ui_follow hv hW run ev _ (by rw [h0]; exact UiInvI.boot he hb) N h
  refine ⟨ui, k0, k1, fun n hn => ⟨(k2 n hn).rel.agrees, fun L hL => ?_, fun hr => ?_, fun hr => ?_⟩⟩
  · have := ((k2 n hn).time.hold L hL).le
    have := (k2 n hn).inv.dog
    omega
  · have := ((k2 n hn).time.wait hr).2.le
    have := (k2 n hn).inv.dog
    omega
  · have := ((k2 n hn).time.going (by rcases hr with hr | hr <;> rw [hr] <;> rfl)).2.le
    have := (k2 n hn).inv.dog
    omega

/-! ### concrete runs -/

/-- an iteration of 5 ms or more, with ticks inside the work functions of the menu and of the buttons; a very slow converter -/
private def turn (pinb : BitVec 8) (m b : List Nat) (n : Nat) : List CmdI :=
  [.reset, .call .measureWork [], .call .menuWork m] ++ List.replicate m.sum .pass ++ [.call .displayWork [],
    .call (.buttonsWork pinb) b] ++ List.replicate b.sum .pass ++ [.call .settingsWork []] ++ List.replicate n .tick

private def taps : List CmdI :=
  turn 0xEF [] [1, 2, 3] 4 ++ turn 0xEF [] [2] 6 ++ turn 0xFF [] [3, 5] 1 ++ turn 0xFF [] [4] 4

/-- `C112_samples`, `C112_last`: samples with ticks before and after the reading of the timer. -/
example : ∃ x l, LoopISamples ⟨10, 2000, 4⟩ .m88p x l ∧ Speed.SaneI ⟨10, 2000, 4⟩ ∧ x.T = 35 ∧
    l = [(31, 0xFF), (21, 0xFF), (12, 0xEF), (1, 0xEF)] ∧ x.s.btn.prev = 0 := by
  have h : (sampCmdsI ⟨10, 2000, 4⟩ .m88p 0xFF taps).any (fun x => (x.1.T == 35 && x.1.s.btn.prev == 0) &&
      x.2 == [(31, 0xFF), (21, 0xFF), (12, 0xEF), (1, 0xEF)]) = true := by decide +kernel
  match e : sampCmdsI ⟨10, 2000, 4⟩ .m88p 0xFF taps with
  | none => rw [e] at h; cases h
  | some x =>
    rw [e] at h
    simp only [Option.any_some, Bool.and_eq_true, beq_iff_eq] at h
    exact ⟨x.1, x.2, sampCmdsI_samples validEeprom_m88p e, by unfold Speed.SaneI; decide, h.1.1, h.2, h.1.2⟩

private def waits : List CmdI := turn 0xEF [] [1, 2, 3] 4 ++ turn 0xEF [] [2] 6

/-- `C112_prompt`: plus is pressed while the temperature is displayed; the wait for the change began at 3 ms. -/
example : ∃ s, boot .m88p (shippedEeprom .m88p) 0xFF = some s ∧ ∃ (N : Nat) (run : Nat → LoopI) (ev : Nat → Option Ev),
    run 0 = ⟨s, .reset, 0, 0, 0, 0, 0⟩ ∧ Speed.SaneI ⟨10, 2000, 4⟩ ∧
    (∀ n < N, LoopIStep .m88p (run n) (ev n) (run (n + 1)) ∧ InTimeI ⟨10, 2000, 4⟩ (run (n + 1))) ∧
    (run N).T = 18 ∧ (run N).s.menu.ramp = .preUp ∧ (run N).s.menu.rampPreTimer = 1003 := by
  have h : ((boot .m88p (shippedEeprom .m88p) 0xFF).any fun s =>
      (loopCmdsI ⟨10, 2000, 4⟩ .m88p NeverI ⟨s, .reset, 0, 0, 0, 0, 0⟩ waits).any fun x => x.T == 18 &&
        (x.s.menu.ramp == .preUp && x.s.menu.rampPreTimer == 1003)) = true := by decide +kernel
  match e : boot .m88p (shippedEeprom .m88p) 0xFF with
  | none => rw [e] at h; cases h
  | some s =>
    rw [e] at h
    simp only [Option.any_some] at h
    match e' : loopCmdsI ⟨10, 2000, 4⟩ .m88p NeverI ⟨s, .reset, 0, 0, 0, 0, 0⟩ waits with
    | none => rw [e'] at h; cases h
    | some x =>
      rw [e'] at h
      simp only [Option.any_some, Bool.and_eq_true, beq_iff_eq] at h
      refine ⟨s, rfl, waits.length,
        fun n => (loopCmdsI ⟨10, 2000, 4⟩ .m88p NeverI ⟨s, .reset, 0, 0, 0, 0, 0⟩ (waits.take n)).getD ⟨s, .reset, 0, 0, 0, 0, 0⟩,
        fun n => (waits[n]?).bind evOfI, rfl, by unfold Speed.SaneI; decide, fun n hn => ?_, ?_⟩
      · obtain ⟨a, b, k1, k2, k3⟩ := cmdsI_take waits e' n hn
        simp only []
        rw [k1, k2, List.getElem?_eq_getElem hn]
        exact cmdI_ev k3
      · simp only []
        rw [List.take_length, e']
        exact h

end Verif.Props
