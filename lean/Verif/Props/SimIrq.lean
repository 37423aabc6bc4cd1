import Verif.Proofs.SimIrq
/-
Property theorems C97: interrupts in the simulator.
-/
namespace Verif.Props
open Verif Verif.Spec

/-! ### the handshake -/

/-- From the return of a function that disables the interrupts to the call of one that enables them, no handler runs,
    whatever the order of the steps of the two threads. -/
theorem C97_exclusive (s : SimSt) (h : SimRun s (some true)) : ¬ Handling s := by
  have hq := (h.inv.offQuiet rfl).2
  rintro (hh | hh) <;> rw [hh] at hq <;> cases hq

/-- Whenever the main program is outside of these functions, and has called one of them before, bit I of SREG tells
    whether interrupts are disabled, as on the device. -/
theorem C97_flag (s : SimSt) (b : Bool) (h : SimRun s (some b)) (hf : s.pc = .free) : s.flagI = !b := by
  cases b with
  | true => exact h.inv.flagI rfl (Or.inl hf)
  | false => exact (h.inv.on rfl (Or.inl hf)).2

/-- `sim_irq_restore` with flags saved while the interrupts were disabled leaves them disabled; with flags saved while
    they were enabled it calls the function that enables them, and when that has returned they are enabled. -/
theorem C97_restore (s s' : SimSt) (f : Bool) (fs : List Bool) (h : SimRun s (some true)) (hf : s.saved = f :: fs)
    (hs : simStep s .restore = some s') :
    s'.saved = fs ∧ (f = false → s'.pc = .free ∧ SimRun s' (some true)) ∧
    (f = true → s'.pc = .enReq ∧ SimRun s' (some false)) := by
  have hr := h.step hs
  simp only [simStep, hf] at hs
  split at hs
  · next hp =>
    cases hs
    refine ⟨rfl, fun e => ?_, fun e => ?_⟩
    · subst e
      refine ⟨rfl, ?_⟩
      rw [show section' s .restore _ (some true) = some true by simp [section', hp]] at hr
      exact hr
    · subst e
      refine ⟨rfl, ?_⟩
      rw [show section' s .restore _ (some true) = some false by simp [section', hp]] at hr
      exact hr
  · cases hs

/-- `sim_irq_disable_save` saves bit I as it was. -/
theorem C97_save (s s' : SimSt) (hs : simStep s .save = some s') : s'.saved = s.flagI :: s.saved := by
  simp only [simStep] at hs
  split at hs <;> cases hs
  rfl

/-! ### no deadlock -/

/-- While the main program waits, the I/O thread can take steps, and as soon as it has taken ten of them the wait is
    over: the main program can go on. -/
theorem C97_wait (s s' : SimSt) (b : Option Bool) (n : Nat) (h : SimRun s b) (hw : s.pc = .disWait ∨ s.pc = .enWait)
    (hs : IoSteps s n s') :
    (∀ t a, (simStep s' (.io t a)).isSome) ∧ (10 ≤ n → (simStep s' .main).isSome) := by
  have hi := h.inv
  have hst : s.stop = false := by
    cases e : s.stop with
    | false => rfl
    | true => rcases hi.stop e with h1 | h1 <;> rw [h1] at hw <;> simp at hw
  obtain ⟨k1, k2, k3, k4⟩ := ioSteps_left hst hs
  have hrun : ∃ b, SimRun s' b := by
    clear k1 k2 k3 k4
    induction hs with
    | refl => exact ⟨b, h⟩
    | step _ hx ih => obtain ⟨b, hb⟩ := ih; exact ⟨_, hb.step hx⟩
  obtain ⟨b', hr'⟩ := hrun
  have hne : s'.io ≠ .ended := fun e => by have := hr'.inv.ended e; rw [k1] at this; cases this
  refine ⟨fun t a => ?_, fun hn => ?_⟩
  · show (simIo s' t a).isSome
    unfold simIo
    split <;> first | rfl | (exact absurd (by assumption) hne)
  · have hp : Published s' := by
      rcases k4 with k4 | k4
      · exact k4
      · have h10 : ioLeft s.request s.io ≤ 10 := by
          unfold ioLeft; split <;> (try split) <;> omega
        have h0 : ioLeft s.request s'.io = 0 := by omega
        unfold ioLeft at h0
        split at h0 <;> (try split at h0) <;> first | omega | (exact absurd (by assumption) hne)
    show (simMain s').isSome
    unfold simMain
    rcases hw with hw | hw
    · rw [k3, hw]
      have : s'.suspended = true := by rw [hp.1, k2]; exact hi.wait hw
      simp [this]
    · rw [k3, hw]
      have : s'.suspended = false := by rw [hp.1, k2]; exact hi.withdrawn (Or.inl hw)
      simp [this]

/-! ### before the interrupts are enabled -/

/-- Run a list of steps. -/
private def simRun (s : SimSt) (b : Option Bool) : List SimEv → Option (SimSt × Option Bool)
  | [] => some (s, b)
  | e :: es => (simStep s e).bind fun s' => simRun s' (section' s e s' b) es

private theorem simRun_ok {s s' : SimSt} {b b' : Option Bool} {es : List SimEv} (h : SimRun s b)
    (e : simRun s b es = some (s', b')) : SimRun s' b' := by
  induction es generalizing s b with
  | nil => cases e; exact h
  | cons x xs ih =>
    obtain ⟨t, et, e⟩ := Option.bind_eq_some_iff.mp e
    exact ih (h.step et) e

/-- Unlike on the device, a handler can run before the interrupts have been enabled for the first time, while bit I of
    SREG is clear: until the first call of a function that disables them. -/
theorem C97_early : ∃ s, SimRun s none ∧ s.flagI = false ∧ s.pc = .free ∧ Handling s := by
  obtain ⟨⟨s, b⟩, e, h⟩ := Option.map_eq_some_iff.mp (show (simRun simStart none
    [.io false false, .io true false, .io false false, .io false false, .io false false, .io false false]).map
      (fun r => (r.1.flagI, r.1.pc, r.1.io, r.2)) = some (false, .free, .inTimer, none) by decide)
  simp only [Prod.mk.injEq] at h
  obtain ⟨h1, h2, h3, rfl⟩ := h
  exact ⟨s, simRun_ok .start e, h1, h2, Or.inr h3⟩

/-! ### the clock -/

/-- The clock of the simulated firmware is never fast: there are at most as many timer interrupts requested as
    milliseconds have passed; and it is exact as long as the simulated timer looks at the clock every millisecond. -/
theorem C97_clock (prev : Nat) (ts : List Nat) (hs : Ascending prev ts) :
    prev + (ticksSeen prev ts).1 ≤ (ts.getLast?.getD prev) ∧
    (EveryMs prev ts → prev + (ticksSeen prev ts).1 = ts.getLast?.getD prev) := by
  induction ts generalizing prev with
  | nil => simp [ticksSeen]
  | cons t ts ih =>
    obtain ⟨h1, h2⟩ := hs
    have hl : (t :: ts).getLast?.getD prev = ts.getLast?.getD t := by
      cases ts with
      | nil => rfl
      | cons x xs => rw [List.getLast?_cons_cons]; simp [List.getLast?_cons]
    have hp : (simTimer0 prev t).2 = t := by
      unfold simTimer0; split
      · rfl
      · simp only []; omega
    obtain ⟨i1, i2⟩ := ih t h2
    rw [hl, ticksSeen, hp]
    simp only []
    by_cases hx : t - prev ≥ 1
    · have : (simTimer0 prev t).1 = true := by unfold simTimer0; rw [if_pos hx]
      rw [this, if_pos rfl]
      refine ⟨by omega, fun hc => ?_⟩
      obtain ⟨c1, c2⟩ := hc
      have := i2 c2
      omega
    · have : (simTimer0 prev t).1 = false := by unfold simTimer0; rw [if_neg hx]
      rw [this]
      simp only [Bool.false_eq_true, if_false]
      refine ⟨by omega, fun hc => ?_⟩
      obtain ⟨c1, c2⟩ := hc
      have := i2 c2
      omega

/-- Two looks 3 ms apart: two ticks are lost. -/
example : ticksSeen 100 [100, 101, 104, 104, 105] = (3, 105) := by decide

/-- The hypotheses of `C97_exclusive`, `C97_flag` and `C97_restore`: interrupts enabled, then disabled and the flag
    saved, while the timer interrupt is requested. -/
example : ∃ s, SimRun s (some true) ∧ s.pc = .free ∧ s.saved = [true] ∧ s.timerPending = true ∧ s.io = .delay := by
  obtain ⟨⟨s, b⟩, e, h⟩ := Option.map_eq_some_iff.mp (show (simRun simStart none
    [.enable, .main, .main, .main, .save, .main, .io false false, .io true false, .io false false, .io false false,
      .main, .main]).map
      (fun r => (r.1.pc, r.1.saved, r.1.timerPending, r.1.io, r.2)) = some (.free, [true], true, .delay, some true) by decide)
  simp only [Prod.mk.injEq] at h
  obtain ⟨h1, h2, h3, h4, rfl⟩ := h
  exact ⟨s, simRun_ok .start e, h1, h2, h3, h4⟩

/-- The hypotheses of `C97_wait`: the main program waits for the end of a handler. -/
example : ∃ s b, SimRun s b ∧ s.pc = .disWait ∧ s.suspended = false ∧ Handling s := by
  obtain ⟨⟨s, b⟩, e, h⟩ := Option.map_eq_some_iff.mp (show (simRun simStart none
    [.io false false, .io true true, .io false false, .disable, .io false false, .main, .io false false]).map
      (fun r => (r.1.pc, r.1.suspended, r.1.io)) = some (.disWait, false, .inAdc) by decide)
  simp only [Prod.mk.injEq] at h
  exact ⟨s, b, simRun_ok .start e, h.1, h.2.1, Or.inl h.2.2⟩

end Verif.Props
