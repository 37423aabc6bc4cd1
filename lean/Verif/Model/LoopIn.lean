import Verif.Model.Loop
import Verif.Model.Inside
/-
Model of the main loop (firmware/main.c:77-91, 134-137) with interrupts inside the work functions.  In Model/Loop a
work function takes no time; here ticks of the timer come inside (Model/Inside), and so do the interrupts of the ADC.
The latter only concern the measurement, which no work function but `measure_work` looks at (C79), and `measure_work`
starts the ADC when it is done (measure.c:306-307).  So the order of an interrupt of the ADC and of a work function
does not matter, except for the time: it is taken after the work function, but with the time at which it came.  The
interrupts of the EEPROM do not look at the time and are taken before or after a work function, as in Model/Loop.
-/
namespace Verif

/-- The main loop in execution: the state of the firmware, the statement to be executed next, and (for the
    statements about time) the number of ticks since boot, the tick up to which the ADC has been followed, and the
    ticks at which the watchdog was last reset, the channel last selected, and the ADC last started or finished a
    conversion. -/
structure LoopI where
  s : Sys
  pc : Pc
  T : Nat
  D : Nat
  reset : Nat
  sel : Nat
  conv : Nat

/-- the step evaluates a measurement -/
def LoopI.evaluates (x : LoopI) (e : Ev) : Bool := e = .measureWork && x.s.meas.resultAvail

/-- One step of the main loop.  The watchdog is reset; a tick or an interrupt of the EEPROM comes between work
    functions; a work function is called, with the ticks `g` inside before its readings of the timer (all of them;
    later ones come after the call); the ADC finishes a conversion at the tick `D`, `T - D` ticks ago (measure.c:270-288
    `ADC_vect`); it is followed up to the next tick.  Before anything else happens, it is followed up to the present.
    While a measurement is evaluated it is off. -/
inductive LoopIStep (c : Conf) : LoopI → Option Ev → LoopI → Prop where
  | reset {x} : x.D = x.T → x.pc = .reset → LoopIStep c x none { x with pc := .measure, reset := x.T }
  | tick {x s'} : x.D = x.T → step c x.s .tick = some s' →
      LoopIStep c x (some .tick) { x with s := s', T := x.T + 1, D := x.D + 1 }
  | ee {x e s'} : e = .eeIsr ∨ e = .eeDone → possible x.s e = true → step c x.s e = some s' →
      LoopIStep c x (some e) { x with s := s' }
  | adc {x raw} : possible x.s (.adc raw) = true →
      LoopIStep c x (some (.adc raw))
        { x with s := { x.s with meas := adcIsr (toU16 (x.s.now - (x.T - x.D : Nat))) x.s.meas raw }, conv := x.D }
  | pass {x} : x.D < x.T → LoopIStep c x none { x with D := x.D + 1 }
  | call {x e g s' pinb} : x.D = x.T → x.pc.call pinb = some e → workT c x.s e g = some (s', []) →
      LoopIStep c x (some e)
        { s := s', pc := x.pc.next, T := x.T + g.sum, reset := x.reset
          D := if x.evaluates e then x.T + g.sum else x.D
          sel := if x.evaluates e then x.T + g.sum else x.sel
          conv := if x.evaluates e then x.T + g.sum else x.conv }

end Verif
