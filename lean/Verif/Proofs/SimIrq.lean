import Verif.Spec.SimIrq
/-
Helper lemmas for C97: the handshake of the two threads of the simulator.
-/
namespace Verif
open Spec

/-- the I/O thread is in the part without handlers and, if it has read the request, has found it -/
def IoQuiet : SimIoPc → Bool
  | .top | .hardware | .read | .publish true | .delay | .ended => true
  | _ => false

/-- the I/O thread has not decided to run handlers -/
def IoCalm : SimIoPc → Bool
  | .top | .hardware | .read | .publish _ | .delay | .ended => true
  | _ => false

structure SimInv (s : SimSt) (b : Option Bool) : Prop where
  /-- suspended, and no handler about to run, from the end of the wait in disable to the withdrawal of the request -/
  quiet : s.request = true → s.pc ≠ .disWait → s.suspended = true ∧ IoQuiet s.io = true
  wait : s.pc = .disWait → s.request = true
  flag : s.pc = .disFlag → s.request = true
  calm : s.suspended = true → IoCalm s.io = true
  pubF : s.suspended = true → s.io = .publish false → s.pc = .enWait
  susp : s.suspended = true → s.request = true ∨ s.pc = .enWait
  pubT : s.io = .publish true → s.request = true ∨ (s.pc = .enWait ∧ s.suspended = true)
  withdrawn : s.pc = .enWait ∨ s.pc = .enFlag → s.request = false
  off : b = some true → s.request = true
  on : b = some false → (s.pc = .free ∨ s.pc = .join ∨ s.pc = .gone) → s.request = false ∧ s.flagI = true
  flagI : b = some true → (s.pc = .free ∨ s.pc = .join ∨ s.pc = .gone) → s.flagI = false
  enReq : (s.pc = .enReq ∨ s.pc = .enWait ∨ s.pc = .enFlag) → b = some false
  unknown : b = none → s.flagI = false
  stop : s.stop = true → s.pc = .join ∨ s.pc = .gone
  ended : s.io = .ended → s.stop = true
  offQuiet : b = some true → s.suspended = true ∧ IoQuiet s.io = true

theorem SimInv.start : SimInv simStart none := by
  constructor <;> simp [simStart, IoQuiet, IoCalm]

set_option maxHeartbeats 1000000 in
theorem SimInv.io {s s' : SimSt} {b : Option Bool} {t a : Bool} (h : SimInv s b) (e : simIo s t a = some s') :
    SimInv s' b := by
  obtain ⟨h1, h2, h3, h4, h5, h6, h7, h8, h9, h10, h11, h12, h13, h14, h15, h16⟩ := h
  obtain ⟨rq, su, sp, ap, tp, fi, sv, pc, io⟩ := s
  unfold simIo at e
  cases io <;> simp only [Option.some.injEq, reduceCtorEq] at e
  case top => subst e; cases sp <;> constructor <;> simp_all [IoQuiet, IoCalm]
  case hardware => subst e; constructor <;> simp_all [IoQuiet, IoCalm]
  case read => subst e; cases rq <;> constructor <;> simp_all [IoQuiet, IoCalm]
  case publish b' =>
    subst e
    cases b' <;> constructor <;> simp_all [IoQuiet, IoCalm]
    rcases h7 with h7 | h7
    · exact Or.inl h7
    · exact Or.inr h7.1
  case adc => subst e; cases ap <;> constructor <;> simp_all [IoQuiet, IoCalm]
  case inAdc => subst e; constructor <;> simp_all [IoQuiet, IoCalm]
  case timer => subst e; cases tp <;> constructor <;> simp_all [IoQuiet, IoCalm]
  case inTimer => subst e; constructor <;> simp_all [IoQuiet, IoCalm]
  case delay => subst e; constructor <;> simp_all [IoQuiet, IoCalm]

theorem SimInv.main {s s' : SimSt} {b : Option Bool} (h : SimInv s b) (e : simMain s = some s') :
    SimInv s' (section' s .main s' b) := by
  obtain ⟨h1, h2, h3, h4, h5, h6, h7, h8, h9, h10, h11, h12, h13, h14, h15, h16⟩ := h
  obtain ⟨rq, su, sp, ap, tp, fi, sv, pc, io⟩ := s
  unfold simMain at e
  cases pc <;> simp only [Option.some.injEq, reduceCtorEq] at e
  case disReq => subst e; constructor <;> simp_all [section']
  case disWait =>
    cases su <;> cases sp <;> simp at e <;> (try subst e) <;> constructor <;> simp_all [section']
    all_goals (cases io <;> simp_all [IoQuiet, IoCalm])
  case disFlag => subst e; constructor <;> simp_all [section']
  case enReq => subst e; constructor <;> simp_all [section']
  case enWait => cases su <;> cases sp <;> simp at e <;> (try subst e) <;> constructor <;> simp_all [section']
  case enFlag => subst e; constructor <;> simp_all [section']
  case join => split at e <;> simp at e; subst e; constructor <;> simp_all [section']

theorem SimInv.step {s s' : SimSt} {b : Option Bool} {e : SimEv} (h : SimInv s b) (hs : simStep s e = some s') :
    SimInv s' (section' s e s' b) := by
  cases e with
  | main => exact h.main hs
  | io t a =>
    have e : section' s (.io t a) s' b = b := by
      have hpc : s'.pc = s.pc := by
        have hs : simIo s t a = some s' := hs
        unfold simIo at hs
        split at hs <;> cases hs <;> (try split) <;> rfl
      unfold section'
      rw [hpc, if_neg (by simp), if_neg]
      rintro ⟨h1, h2⟩
      rw [h1] at h2
      cases h2
    rw [e]
    exact h.io hs
  | disable =>
    obtain ⟨h1, h2, h3, h4, h5, h6, h7, h8, h9, h10, h11, h12, h13, h14, h15, h16⟩ := h
    obtain ⟨rq, su, sp, ap, tp, fi, sv, pc, io⟩ := s
    simp only [simStep] at hs
    split at hs <;> cases hs
    constructor <;> simp_all [section']
  | enable =>
    obtain ⟨h1, h2, h3, h4, h5, h6, h7, h8, h9, h10, h11, h12, h13, h14, h15, h16⟩ := h
    obtain ⟨rq, su, sp, ap, tp, fi, sv, pc, io⟩ := s
    simp only [simStep] at hs
    split at hs <;> cases hs
    constructor <;> simp_all [section']
  | save =>
    obtain ⟨h1, h2, h3, h4, h5, h6, h7, h8, h9, h10, h11, h12, h13, h14, h15, h16⟩ := h
    obtain ⟨rq, su, sp, ap, tp, fi, sv, pc, io⟩ := s
    simp only [simStep] at hs
    split at hs <;> cases hs
    constructor <;> simp_all [section']
  | restore =>
    obtain ⟨h1, h2, h3, h4, h5, h6, h7, h8, h9, h10, h11, h12, h13, h14, h15, h16⟩ := h
    obtain ⟨rq, su, sp, ap, tp, fi, sv, pc, io⟩ := s
    cases sv with
    | nil => simp [simStep] at hs
    | cons f fs =>
      simp only [simStep] at hs
      split at hs <;> cases hs
      cases f <;> constructor <;> simp_all [section']
  | exit =>
    obtain ⟨h1, h2, h3, h4, h5, h6, h7, h8, h9, h10, h11, h12, h13, h14, h15, h16⟩ := h
    obtain ⟨rq, su, sp, ap, tp, fi, sv, pc, io⟩ := s
    simp only [simStep] at hs
    split at hs <;> cases hs
    constructor <;> simp_all [section']

theorem Spec.SimRun.inv {s : SimSt} {b : Option Bool} (h : SimRun s b) : SimInv s b := by
  induction h with
  | start => exact SimInv.start
  | step _ hs ih => exact ih.step hs

/-- the number of steps after which the I/O thread has published that the request is `r` -/
def ioLeft (r : Bool) : SimIoPc → Nat
  | .publish b => if b = r then 1 else 10
  | .read => 2
  | .hardware => 3
  | .top => 4
  | .delay => 5
  | .inTimer => 6
  | .timer => 7
  | .inAdc => 8
  | .adc => 9
  | .ended => 0

/-- the I/O thread has published the request -/
def Published (s : SimSt) : Prop := s.suspended = s.request ∧ ∀ b, s.io = .publish b → b = s.request

theorem io_left {s s' : SimSt} {t a : Bool} (hst : s.stop = false) (e : simIo s t a = some s') :
    s'.stop = false ∧ s'.request = s.request ∧ s'.pc = s.pc ∧ (Published s → Published s') ∧
    (Published s' ∨ ioLeft s.request s'.io < ioLeft s.request s.io) := by
  obtain ⟨rq, su, sp, ap, tp, fi, sv, pc, io⟩ := s
  unfold simIo at e
  cases io <;> simp only [Option.some.injEq, reduceCtorEq] at e
  case publish b => subst e; cases b <;> cases rq <;> simp_all [Published, ioLeft]
  case adc => subst e; cases ap <;> simp_all [Published, ioLeft]
  case timer => subst e; cases tp <;> simp_all [Published, ioLeft]
  all_goals (subst e; simp_all [Published, ioLeft])

theorem ioSteps_left {s s' : SimSt} {n : Nat} (hst : s.stop = false) (h : IoSteps s n s') :
    s'.stop = false ∧ s'.request = s.request ∧ s'.pc = s.pc ∧ (Published s' ∨ ioLeft s.request s'.io + n ≤ ioLeft s.request s.io) := by
  induction h with
  | refl => exact ⟨hst, rfl, rfl, Or.inr (by omega)⟩
  | step _ hs ih =>
    obtain ⟨i1, i2, i3, i4⟩ := ih
    obtain ⟨k1, k2, k3, k4, k5⟩ := io_left i1 hs
    refine ⟨k1, k2.trans i2, k3.trans i3, ?_⟩
    rcases i4 with i4 | i4
    · exact Or.inl (k4 i4)
    · rcases k5 with k5 | k5
      · exact Or.inl k5
      · rw [i2] at k5
        exact Or.inr (by omega)

end Verif
