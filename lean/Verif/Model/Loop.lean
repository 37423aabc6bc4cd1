import Verif.Model.Main
/-
Model of the main loop (firmware/main.c:77-91, 134-137): the work functions are called in a fixed order, interrupts
come in between, and the watchdog is reset once per iteration.  An interrupt within a work function is taken to
come before or after it; everything a work function does happens at one tick (Model/Inside has ticks inside).
-/
namespace Verif

/-- main.c:79-90 `main_loop_once`: the statement to be executed next -/
inductive Pc where
  | reset
  | measure
  | menu
  | display
  | buttons
  | settings
  deriving DecidableEq, Repr

/-- main.c:79-90, 136-137: the statement after it; after the last one the loop starts over -/
def Pc.next : Pc → Pc
  | .reset => .measure
  | .measure => .menu
  | .menu => .display
  | .display => .buttons
  | .buttons => .settings
  | .settings => .reset

/-- main.c:84-90: the work function called by a statement; `pinb` is what `buttons_work` reads from the pins -/
def Pc.call (pinb : BitVec 8) : Pc → Option Ev
  | .reset => none
  | .measure => some .measureWork
  | .menu => some .menuWork
  | .display => some .displayWork
  | .buttons => some (.buttonsWork pinb)
  | .settings => some .settingsWork

/-- The main loop in execution: the state of the firmware, the statement to be executed next, and (for the
    statements about time) the number of ticks since boot and the ticks at which the watchdog was last reset, the
    channel last selected, the ADC last started or finished a conversion, and the EEPROM writer last made progress. -/
structure Loop where
  s : Sys
  pc : Pc
  T : Nat
  reset : Nat
  sel : Nat
  conv : Nat
  ee : Nat

/-- the interrupts, and the end of the programming of an EEPROM byte (an event of the hardware) -/
def Ev.isIsr : Ev → Bool
  | .tick | .adc _ | .eeIsr | .eeDone => true
  | _ => false

/-- the loop after an event which leads to the state `s'` -/
def Loop.after (x : Loop) (e : Ev) (s' : Sys) : Loop :=
  { x with
    s := s'
    T := if e = .tick then x.T + 1 else x.T
    sel := if e = .measureWork ∧ x.s.meas.resultAvail = true then x.T else x.sel
    conv := match e with
      | .adc _ => x.T
      | .measureWork => if x.s.meas.resultAvail = true then x.T else x.conv
      | _ => x.conv
    ee := if e = .eeIsr ∨ e = .eeDone ∨ (x.s.set.storeRequest = true ∧ s'.set.storeRequest = false) then x.T else x.ee }

/-- One step of the main loop: the watchdog is reset (`none`), an interrupt comes, or a work function is called. -/
inductive LoopStep (c : Conf) : Loop → Option Ev → Loop → Prop where
  | reset {x} : x.pc = .reset → LoopStep c x none { x with pc := .measure, reset := x.T }
  | isr {x e s'} : e.isIsr = true → possible x.s e = true → step c x.s e = some s' →
      LoopStep c x (some e) (x.after e s')
  | call {x e s' pinb} : x.pc.call pinb = some e → step c x.s e = some s' →
      LoopStep c x (some e) { x.after e s' with pc := x.pc.next }

end Verif
