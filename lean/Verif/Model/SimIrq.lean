import Verif.CSem
/-
The two threads of the simulator (simulator/simulator.cxx): the firmware's main program runs in one thread, its
interrupt handlers in the I/O thread.  Disabling interrupts is a handshake between them.

Simplifications: the shared variables are read and written one after the other (in the program they are `volatile`,
with compiler barriers); an interrupt handler is one state of the I/O thread, which it enters and leaves; which
interrupts the simulated hardware requests is left open; printing, and the rest of the main program, is left out.
-/
namespace Verif

/-- where the thread of the main program is -/
inductive SimMainPc where
  /-- outside of the functions below -/
  | free
  /-- simulator.cxx:158, about to request the suspension -/
  | disReq
  /-- simulator.cxx:159-160, waiting for the suspension -/
  | disWait
  /-- simulator.cxx:162, about to clear the interrupt flag -/
  | disFlag
  /-- simulator.cxx:175, about to withdraw the request -/
  | enReq
  /-- simulator.cxx:176-177, waiting for the end of the suspension -/
  | enWait
  /-- simulator.cxx:179, about to set the interrupt flag -/
  | enFlag
  /-- simulator.cxx:568, waiting for the end of the I/O thread -/
  | join
  /-- simulator.cxx:568, the I/O thread has ended -/
  | gone
  deriving DecidableEq, Repr

/-- where the I/O thread is (simulator.cxx:394-421) -/
inductive SimIoPc where
  /-- line 402, about to look whether it is to stop -/
  | top
  /-- lines 403-407, about to run the simulated hardware -/
  | hardware
  /-- line 412, about to read the request -/
  | read
  /-- line 413, about to publish what it has read -/
  | publish (suspended : Bool)
  /-- line 415, about to look for a request of the ADC interrupt -/
  | adc
  /-- line 415, in the handler of the ADC interrupt -/
  | inAdc
  /-- line 416, about to look for a request of the timer interrupt -/
  | timer
  /-- line 416, in the handler of the timer interrupt -/
  | inTimer
  /-- line 419, waiting -/
  | delay
  /-- line 421, ended -/
  | ended
  deriving DecidableEq, Repr

/-- The shared variables (simulator.cxx:59, 75, 82-87, and bit I of the register SREG) and the places of the threads; `saved`
    are the flags which callers of `sim_irq_disable_save` hold. -/
structure SimSt where
  request : Bool
  suspended : Bool
  stop : Bool
  adcPending : Bool
  timerPending : Bool
  flagI : Bool
  saved : List Bool
  pc : SimMainPc
  io : SimIoPc
  deriving DecidableEq, Repr

/-- simulator.cxx:89-112 `reset`, simulator.cxx:573-588: the registers are reset and the I/O thread is created -/
def simStart : SimSt :=
  { request := false, suspended := false, stop := false, adcPending := false, timerPending := false, flagI := false,
    saved := [], pc := .free, io := .top }

/-- what can happen next -/
inductive SimEv where
  /-- the main program calls `sim_irq_disable` -/
  | disable
  /-- the main program calls `sim_irq_enable` -/
  | enable
  /-- the main program calls `sim_irq_disable_save` -/
  | save
  /-- the main program calls `sim_irq_restore` with the flags saved last -/
  | restore
  /-- the main program calls `simulator_exit` -/
  | exit
  /-- the main program takes one step within one of these functions -/
  | main
  /-- the I/O thread takes one step; the simulated hardware requests the timer or the ADC interrupt -/
  | io (timer adc : Bool)
  deriving DecidableEq, Repr

/-- simulator.cxx:152-167, 169-184, 560-569: one step of the main program within these functions.  `none`: it waits, or
    it is not in one of them. -/
def simMain (s : SimSt) : Option SimSt :=
  match s.pc with
  | .free => none
  | .disReq => some { s with request := true, pc := .disWait }
  | .disWait => if !s.suspended && !s.stop then none else some { s with pc := .disFlag }
  | .disFlag => some { s with flagI := false, pc := .free }
  | .enReq => some { s with request := false, pc := .enWait }
  | .enWait => if s.suspended && !s.stop then none else some { s with pc := .enFlag }
  | .enFlag => some { s with flagI := true, pc := .free }
  | .join => if s.io = .ended then some { s with pc := .gone } else none
  | .gone => none

/-- simulator.cxx:394-421 `io_thread_func`: one step of the I/O thread; simulator.cxx:268-275 `run_IRQ_vect` -/
def simIo (s : SimSt) (timer adc : Bool) : Option SimSt :=
  match s.io with
  | .top => some { s with io := if s.stop then .ended else .hardware }
  | .hardware => some { s with timerPending := s.timerPending || timer, adcPending := s.adcPending || adc, io := .read }
  | .read => some { s with io := .publish s.request }
  | .publish b => some { s with suspended := b, io := if b then .delay else .adc }
  | .adc => some (if s.adcPending then { s with adcPending := false, io := .inAdc } else { s with io := .timer })
  | .inAdc => some { s with io := .timer }
  | .timer => some (if s.timerPending then { s with timerPending := false, io := .inTimer } else { s with io := .delay })
  | .inTimer => some { s with io := .delay }
  | .delay => some { s with io := .top }
  | .ended => none

/-- One step.  A function is called only outside of the others; `sim_irq_disable_save` (simulator.cxx:186-200) reads the
    flag first, `sim_irq_restore` (simulator.cxx:202-213) enables the interrupts if the flag was set and does nothing
    otherwise. -/
def simStep (s : SimSt) : SimEv → Option SimSt
  | .disable => if s.pc = .free then some { s with pc := .disReq } else none
  | .enable => if s.pc = .free then some { s with pc := .enReq } else none
  | .save => if s.pc = .free then some { s with saved := s.flagI :: s.saved, pc := .disReq } else none
  | .restore =>
    if s.pc = .free then
      match s.saved with
      | [] => none
      | f :: fs => some { s with saved := fs, pc := if f then .enReq else .free }
    else none
  | .exit => if s.pc = .free then some { s with stop := true, pc := .join } else none
  | .main => simMain s
  | .io t a => simIo s t a

/-- simulator.cxx:278-290 `simulate_timer0` while the timer runs: the time of the last request and the time now, in
    milliseconds (TIMERCPS is 1000, timer.h:7-11, so there is one count per millisecond); tells whether the interrupt is
    requested, and the time to remember. -/
def simTimer0 (prev now : Nat) : Bool × Nat := if now - prev ≥ 1 then (true, now) else (false, prev)

end Verif
