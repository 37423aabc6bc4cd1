import Verif.Model.SimIrq
/-
What the properties about the threads of the simulator talk about.
-/
namespace Verif
namespace Spec

/-- an interrupt handler is running -/
def Handling (s : SimSt) : Prop := s.io = .inAdc ∨ s.io = .inTimer

instance (s : SimSt) : Decidable (Handling s) := inferInstanceAs (Decidable (_ ∨ _))

/-- Whether the main program may rely on no handler running: it may from the return of a function that disables the
    interrupts to the call of one that enables them.  Before the first of these events it is not known. -/
def section' (s : SimSt) (e : SimEv) (s' : SimSt) (b : Option Bool) : Option Bool :=
  if s.pc = .disFlag ∧ e = .main then some true
  else if s.pc = .free ∧ s'.pc = .enReq then some false
  else b

/-- Every state the two threads can get into, in any order of their steps, and whether the main program may rely on no
    handler running. -/
inductive SimRun : SimSt → Option Bool → Prop where
  | start : SimRun simStart none
  | step {s b e s'} : SimRun s b → simStep s e = some s' → SimRun s' (section' s e s' b)

/-- `n` steps of the I/O thread alone -/
inductive IoSteps : SimSt → Nat → SimSt → Prop where
  | refl {s} : IoSteps s 0 s
  | step {s n s' t a s''} : IoSteps s n s' → simStep s' (.io t a) = some s'' → IoSteps s (n + 1) s''

/-- How often the timer interrupt is requested, and the time remembered, when the simulated timer looks at the clock at
    the times `ts`. -/
def ticksSeen (prev : Nat) : List Nat → Nat × Nat
  | [] => (0, prev)
  | t :: ts =>
    let r := ticksSeen (simTimer0 prev t).2 ts
    ((if (simTimer0 prev t).1 then 1 else 0) + r.1, r.2)

/-- the times do not decrease, beginning with `prev` -/
def Ascending (prev : Nat) : List Nat → Prop
  | [] => True
  | t :: ts => prev ≤ t ∧ Ascending t ts

/-- no two of the times that follow one another, beginning with `prev`, are more than 1 ms apart -/
def EveryMs (prev : Nat) : List Nat → Prop
  | [] => True
  | t :: ts => t ≤ prev + 1 ∧ EveryMs t ts

end Spec
end Verif
