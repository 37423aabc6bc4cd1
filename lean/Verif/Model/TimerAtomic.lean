/-
Instruction-level model of timer_now() against the tick interrupt (timer.c:29-45,
util.h:177-197).  The 16-bit counter lives in memory as two bytes which the AVR
reads with two instructions.  Simplification: only the instructions that touch the status
register or the counter are modelled; the order of the two byte loads is a parameter
because the C code does not fix it.
-/
namespace Verif

/-- Machine state: the two counter bytes in memory, the global interrupt flag, the saved
    status register, the two result registers and the program counter within timer_now. -/
structure TNState where
  lo : Nat
  hi : Nat
  iflag : Bool
  sreg : Bool
  rlo : Nat
  rhi : Nat
  pc : Nat
  deriving DecidableEq, Repr

/-- what can happen next: the next instruction of timer_now, or the tick interrupt -/
inductive TNEvent where
  | instr
  | isr
  deriving DecidableEq, Repr

/-- value of the counter in memory -/
def TNState.counter (s : TNState) : Nat := s.lo + 256 * s.hi

/-- value in the result registers -/
def TNState.result (s : TNState) : Nat := s.rlo + 256 * s.rhi

/-- timer.c:29-33: the interrupt handler runs to completion (interrupts are off inside);
    the increment wraps at 16 bit. -/
def tnIsr (s : TNState) : TNState :=
  let c := (s.counter + 1) % 65536
  { s with lo := c % 256, hi := c / 256 }

/-- One step.  `useCli` is `true` for the real code; `false` is a variant without
    irq_disable_save, used only to show that the property is not vacuous.
    An interrupt request while interrupts are disabled has no effect (it stays pending and
    is delivered by a later `isr` event). -/
def tnStep (useCli hiFirst : Bool) (s : TNState) : TNEvent → TNState
  | .isr => if s.iflag then tnIsr s else s
  | .instr =>
    match s.pc with
    | 0 => { s with sreg := s.iflag, pc := 1 }
    | 1 => { s with iflag := if useCli then false else s.iflag, pc := 2 }
    | 2 => if hiFirst then { s with rhi := s.hi, pc := 3 } else { s with rlo := s.lo, pc := 3 }
    | 3 => if hiFirst then { s with rlo := s.lo, pc := 4 } else { s with rhi := s.hi, pc := 4 }
    | 4 => { s with iflag := s.sreg, pc := 5 }
    | _ => s

/-- a whole interleaving -/
def tnRun (useCli hiFirst : Bool) (s : TNState) (evs : List TNEvent) : TNState :=
  evs.foldl (tnStep useCli hiFirst) s

end Verif
