import Verif.Spec.Hw
import Verif.Model.Serial
/-
The debug interface in cycles of the system clock.
-/
namespace Verif.Spec

/-- cycles of the system clock for a byte: a start bit, the bits of the byte, parity and stop bits -/
def frameCycles (r : UartRegs) : Option Nat :=
  (uartFormat r).map fun f => (1 + f.1 + (if f.2.1 then 1 else 0) + f.2.2) * bitCycles r

/-- The history of the debug interface: the text sent so far, and the state.  Cycles pass, a text is sent with
    interrupts enabled (debug_enable), or a line with interrupts disabled. -/
inductive Talks (frame tick delay : Nat) : List Nat → Serial → Prop where
  | start : Talks frame tick delay [] serialStart
  | pass {text s} : Talks frame tick delay text s → Talks frame tick delay text (s.cycle frame tick)
  | text {text s bs s'} : Talks frame tick delay text s → SendText frame tick delay bs s s' →
      Talks frame tick delay (text ++ bs) s'
  | line {text s bs s'} : Talks frame tick delay text s → SendLine frame tick delay bs s s' →
      Talks frame tick delay (text ++ bs) s'

end Verif.Spec
