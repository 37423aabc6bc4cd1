/-
The debug interface in cycles of the system clock: the transmitter of the UART, the timer interrupt, and how the
firmware waits for them (firmware/debug_uart.c and firmware/timer.c).  The contents of the lines are in Model/Debug.
-/
namespace Verif

/-- The transmitter of the UART and timer 0 (data sheet of the ATmega88/328). -/
structure Serial where
  /-- cycles since the start; timer 0 compares with OCR0A at every multiple of a tick -/
  t : Nat
  /-- UDR0: the byte waiting for the shift register; UDRE0 is set if there is none -/
  udr : Option Nat
  /-- the byte being sent, and the cycles left for it -/
  shift : Option (Nat × Nat)
  /-- the bytes that have been sent -/
  sent : List Nat
  /-- the interrupt enable flag of SREG -/
  irq : Bool
  /-- OCF0A: the interrupt of the timer is pending -/
  ocf : Bool
  /-- `_timer_count_now`, timer.c:26 (not wrapped) -/
  ticks : Nat
  deriving DecidableEq, Repr

/-- the beginning: nothing sent, interrupts enabled -/
def serialStart : Serial := ⟨0, none, none, [], true, false, 0⟩

/-- the shift register is free: it takes the waiting byte -/
def Serial.load (s : Serial) (frame : Nat) : Serial :=
  { s with shift := s.udr.map fun b => (b, frame), udr := none }

/-- a cycle of the transmitter; `frame` are the cycles for a byte with its start and stop bits -/
def Serial.transmit (s : Serial) (frame : Nat) : Serial :=
  match s.shift with
  | none => s.load frame
  | some (b, n) => if n ≤ 1 then { s with sent := s.sent ++ [b] }.load frame else { s with shift := some (b, n - 1) }

/-- timer.c:29-33 `ISR(TIMER0_COMPA_vect)`, if the interrupt is pending and enabled; its duration is not modelled -/
def Serial.serve (s : Serial) : Serial :=
  if s.irq && s.ocf then { s with ticks := s.ticks + 1, ocf := false } else s

/-- a cycle of the system clock; `tick` are the cycles from one compare match of the timer to the next -/
def Serial.cycle (frame tick : Nat) (s : Serial) : Serial :=
  let s := s.transmit frame
  { s with t := s.t + 1, ocf := s.ocf || decide ((s.t + 1) % tick = 0) }.serve

/-- several cycles -/
def Serial.cycles (frame tick : Nat) : Nat → Serial → Serial
  | 0, s => s
  | n + 1, s => Serial.cycles frame tick n (s.cycle frame tick)

/-- debug_uart.c:52 writing UDR0; the hardware ignores it if a byte is waiting (UDRE0 is clear) -/
def Serial.write (s : Serial) (b : Nat) : Serial := if s.udr.isSome then s else { s with udr := some b }

/-- debug_uart.c:45-53 `debug_uart_tx`: after some cycles the loop finds UDRE0 set, `delay` cycles late at most (with the
    instructions before and after the loop); then the byte is written -/
def SendByte (frame tick delay : Nat) (b : Nat) (s s' : Serial) : Prop :=
  ∃ n, (s.cycles frame tick n).udr.isSome = false ∧
    (∀ m, m + delay < n → (s.cycles frame tick m).udr.isSome = true) ∧
    s' = (s.cycles frame tick n).write b

/-- debug_uart.c:55-66 `debug_uart_tx_string` -/
def SendText (frame tick delay : Nat) : List Nat → Serial → Serial → Prop
  | [], s, s' => s' = s
  | b :: bs, s, s' => ∃ s1, SendByte frame tick delay b s s1 ∧ SendText frame tick delay bs s1 s'

/-- debug_uart.c:84-109 `debug_print_str3` with debugging enabled, for the characters it sends (lines 95-106, see
    `printStr3`): interrupts are disabled (line 93) and restored (line 108); a pending interrupt is served in the cycle
    after that. -/
def SendLine (frame tick delay : Nat) (line : List Nat) (s s' : Serial) : Prop :=
  ∃ s1, SendText frame tick delay line { s with irq := false } s1 ∧
    s' = { s1 with irq := s.irq }.cycle frame tick

end Verif
