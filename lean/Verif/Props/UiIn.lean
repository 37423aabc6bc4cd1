import Verif.Spec.UiIn
import Verif.Proofs.UiInLoop
import Verif.Proofs.LoopInDemo
/-
C109: the user interface is a machine of its own also when time passes inside the work functions.
-/
namespace Verif.Props
open Spec

/-- Beside every execution of the main loop, with interrupts at any place inside the work functions, runs the user
    interface: it starts as at boot, each step of the loop makes it do what the samples of the buttons and the calls of
    the menu's work function say, at times during the step, and it always agrees with the firmware. -/
theorem C109_follows (v : Speed) (c : Conf) (hv : v.SaneI) (hW : v.W ≤ 25) (ee : Nat → Nat) (pinb : BitVec 8) (s : Sys)
    (he : ValidEeprom c ee) (hb : boot c ee pinb = some s) (N : Nat) (run : Nat → LoopI) (ev : Nat → Option Ev)
    (h0 : run 0 = ⟨s, .reset, 0, 0, 0, 0, 0⟩)
    (h : ∀ n < N, LoopIStep c (run n) (ev n) (run (n + 1)) ∧ InTimeI v (run (n + 1))) :
    ∃ ui : Nat → Ui, ui 0 = uiStart s.set.cache (c.debug && Down pinb .set) ∧
      (∀ n < N, UiMoves c (run n) (ev n) (run (n + 1)) (ui n) (ui (n + 1))) ∧ ∀ n ≤ N, Agrees (run n).s (ui n) := by
  obtain ⟨ui, k0, k1, k2⟩ := ui_follow hv hW run ev _ (by rw [h0]; exact UiInvI.boot he hb) N h
  exact ⟨ui, k0, k1, fun n hn => (k2 n hn).rel.agrees⟩

private theorem button_instant (c : Conf) (T : Nat) (u : Ui) (b : Button) (was down : Bool) (u' : Ui) :
    UiButton c T T u b was down u' ↔ u' = u.button c T b was down := by
  have hp : (u.press T b).touch T = (u.touch T).press T b := by
    have e := press_touch_at u T T T b
    rw [← e]
    by_cases h : holdTime u.screen = some 3000
    · have hs : ((u.touch T).press T b).screen = u.screen := (press_same _ T b).1.trans (touch_same u T).1
      have hn : ((u.touch T).press T b).since = T := by
        have k : ∀ w : Ui, (w.press T b).since = w.since := by
          intro w
          unfold Ui.press
          repeat' split
          all_goals rfl
        rw [k, (touch_same u T).2.2.2.2.2.2.2.2, if_pos h]
      generalize (u.touch T).press T b = w at hs hn
      unfold Ui.touch
      rw [if_pos (by rw [hs]; exact h)]
      obtain ⟨⟩ := w
      cases hn
      rfl
    · have hs : ((u.touch T).press T b).screen = u.screen := (press_same _ T b).1.trans (touch_same u T).1
      generalize (u.touch T).press T b = w at hs
      unfold Ui.touch
      rw [if_neg (by rw [hs]; exact h)]
  constructor
  · intro h
    cases h with
    | up => rfl
    | @held t h1 h2 => obtain rfl : t = T := by omega
                       rfl
    | @down t t' h1 h2 h3 =>
      obtain rfl : t = T := by omega
      obtain rfl : t' = t := by omega
      exact hp
    | @release t t' h1 h2 h3 =>
      obtain rfl : t = T := by omega
      obtain rfl : t' = t := by omega
      rfl
  · rintro rfl
    cases was <;> cases down
    · exact .up (Nat.le_refl _)
    · show UiButton c T T u b false true ((u.touch T).press T b)
      rw [← hp]
      exact .down (Nat.le_refl _) (Nat.le_refl _) (Nat.le_refl _)
    · exact .release (Nat.le_refl _) (Nat.le_refl _) (Nat.le_refl _)
    · exact .held (Nat.le_refl _) (Nat.le_refl _)

/-- With no tick inside it is the machine of C107: the sampling of the buttons. -/
theorem C109_instant_sample (c : Conf) (T : Nat) (pinb : BitVec 8) (u u' : Ui) :
    UiSample c T T pinb u u' ↔ u' = u.sample c T pinb := by
  constructor
  · rintro ⟨T1, T2, u1, u2, u3, h1, h2, h3, rfl⟩
    obtain ⟨a1, -⟩ := h1.times
    obtain ⟨a2, -⟩ := h2.times
    obtain ⟨a3, -⟩ := h3.times
    obtain rfl : T1 = T := by omega
    obtain rfl : T2 = T1 := by omega
    rw [button_instant] at h1 h2 h3
    subst h1
    subst h2
    subst h3
    rfl
  · rintro rfl
    exact ⟨T, T, _, _, _, (button_instant ..).mpr rfl, (button_instant ..).mpr rfl, (button_instant ..).mpr rfl, rfl⟩

/-- With no tick inside it is the machine of C107: the work function of the menu. -/
theorem C109_instant_work (T : Nat) (failed : Bool × Bool) (boost : Nat) (u u' : Ui) :
    UiWork T T failed boost u u' ↔ u' = u.work T failed boost := by
  constructor
  · rintro ⟨t1, t2, t3, t4, h1, h2, h3, h4, h5, rfl⟩
    obtain rfl : t1 = T := by omega
    obtain rfl : t2 = t1 := by omega
    obtain rfl : t3 = t2 := by omega
    obtain rfl : t4 = t3 := by omega
    rfl
  · rintro rfl
    exact ⟨T, T, T, T, Nat.le_refl _, Nat.le_refl _, Nat.le_refl _, Nat.le_refl _, Nat.le_refl _, rfl⟩

/-! ### examples -/

/-- an iteration every 10 ms or more, with ticks inside the work functions of the menu and of the buttons; a very slow
    converter -/
private def turn (pinb : BitVec 8) (m b : List Nat) : List CmdI :=
  [.reset, .call .measureWork [], .call .menuWork m] ++ List.replicate m.sum .pass ++ [.call .displayWork [],
    .call (.buttonsWork pinb) b] ++ List.replicate b.sum .pass ++ [.call .settingsWork []] ++ List.replicate 10 .tick

private def touch : List CmdI :=
  turn 0xEF [] [1, 2, 3] ++ turn 0xEF [4] [2] ++ turn 0xFF [1] [0, 5] ++ turn 0xFF [6] [1]

/-- `C109_follows`: plus is pressed and released, while the temperature is displayed, with ticks before the readings of the
    timer: the presets appear. -/
example : ∃ s, boot .m88p (shippedEeprom .m88p) 0xFF = some s ∧ ∃ (N : Nat) (run : Nat → LoopI) (ev : Nat → Option Ev),
    run 0 = ⟨s, .reset, 0, 0, 0, 0, 0⟩ ∧ Speed.SaneI ⟨25, 2000, 4⟩ ∧
    (∀ n < N, LoopIStep .m88p (run n) (ev n) (run (n + 1)) ∧ InTimeI ⟨25, 2000, 4⟩ (run (n + 1))) ∧
    (run N).T = 65 ∧ (run N).s.menu.state = .selpreset ∧ (run N).s.menu.timeout = 3038 := by
  have h : ((boot .m88p (shippedEeprom .m88p) 0xFF).any fun s =>
      (loopCmdsI ⟨25, 2000, 4⟩ .m88p NeverI ⟨s, .reset, 0, 0, 0, 0, 0⟩ touch).any fun x => x.T == 65 &&
        (x.s.menu.state == .selpreset && x.s.menu.timeout == 3038)) = true := by decide +kernel
  match e : boot .m88p (shippedEeprom .m88p) 0xFF with
  | none => rw [e] at h; cases h
  | some s =>
    rw [e] at h
    simp only [Option.any_some] at h
    match e' : loopCmdsI ⟨25, 2000, 4⟩ .m88p NeverI ⟨s, .reset, 0, 0, 0, 0, 0⟩ touch with
    | none => rw [e'] at h; cases h
    | some x =>
      rw [e'] at h
      simp only [Option.any_some, Bool.and_eq_true, beq_iff_eq] at h
      refine ⟨s, rfl, touch.length,
        fun n => (loopCmdsI ⟨25, 2000, 4⟩ .m88p NeverI ⟨s, .reset, 0, 0, 0, 0, 0⟩ (touch.take n)).getD ⟨s, .reset, 0, 0, 0, 0, 0⟩,
        fun n => (touch[n]?).bind evOfI, rfl, by unfold Speed.SaneI; decide, fun n hn => ?_, ?_⟩
      · obtain ⟨a, b, k1, k2, k3⟩ := cmdsI_take touch e' n hn
        simp only []
        rw [k1, k2, List.getElem?_eq_getElem hn]
        exact cmdI_ev k3
      · simp only []
        rw [List.take_length, e']
        exact h

/-- `C109_instant_sample`: plus goes down at 5 ms -/
example (x : Settings) : UiSample .m88p 5 5 0xEF (uiStart x false)
    { uiStart x false with ramp := .preUp, rampAt := 5, period := 400, pins := 0xEF } :=
  (C109_instant_sample ..).mpr (by
    unfold Ui.sample
    have e : ∀ b, (uiStart x false).pins = 0xFF ∧ Down 0xFF b = false := fun b => by cases b <;> exact ⟨rfl, by decide⟩
    simp only [(e .set).1, (e .set).2, (e .minus).2, (e .plus).2, show Down 0xEF .set = false by decide,
      show Down 0xEF .minus = false by decide, show Down 0xEF .plus = true by decide]
    rfl)

/-- `C109_instant_work`: 1000 ms later the change begins -/
example (x : Settings) : UiWork 1005 1005 (false, false) 0
    { uiStart x false with ramp := .preUp, rampAt := 5, period := 400, pins := 0xEF }
    { uiStart x false with ramp := .up, rampAt := 1005, period := 400, pins := 0xEF } :=
  (C109_instant_work ..).mpr (by simp [Ui.work, Ui.leave, Ui.fail, Ui.advance, uiStart, holdTime])

end Verif.Props
