import Verif.Spec.Sys
import Verif.Model.Hw
/-
What the configuration registers mean (data sheet of the ATmega88/328).
-/
namespace Verif.Spec

/-- The registers of the ADC beside the running firmware. -/
inductive AdcRunning (c : Conf) : Sys → AdcRegs → Prop where
  | boot {ee pinb s r} : ValidEeprom c ee → boot c ee pinb = some s → adcBoot = some r → AdcRunning c s r
  | step {s r e s' r'} : AdcRunning c s r → possible s e = true → step c s e = some s' → adcStep s r e = some r' →
      AdcRunning c s' r'

/-- the system clock, util.h / Makefile -/
def fCpu : Nat := 8000000

/-- The ADC converts again and again: it is enabled (bit 7 of ADCSRA), started (6), triggers itself (5) from the end of
    a conversion (source 0 in ADCSRB), and interrupts at the end of each (3). -/
def FreeRunning (r : AdcRegs) : Prop :=
  r.adcsra.getLsbD 7 = true ∧ r.adcsra.getLsbD 6 = true ∧ r.adcsra.getLsbD 5 = true ∧ r.adcsra.getLsbD 3 = true ∧
  r.adcsrb &&& 7 = 0

/-- The ADC is off and does not interrupt. -/
def AdcOff (r : AdcRegs) : Prop := r.adcsra.getLsbD 7 = false ∧ r.adcsra.getLsbD 3 = false

/-- the input which is converted: 0-8 the pins ADC0-ADC8, 14 the band gap, 15 ground -/
def adcInput (r : AdcRegs) : Nat := (r.admux &&& 15).toNat

/-- the reference: 0 AREF, 1 AVCC, 3 1.1 V -/
def adcReference (r : AdcRegs) : Nat := (r.admux >>> 6).toNat

/-- the result is left adjusted, i.e. 64 times as large -/
def adcLeft (r : AdcRegs) : Bool := r.admux.getLsbD 5

/-- cycles of the system clock for one cycle of the ADC -/
def adcDivider (r : AdcRegs) : Nat := if (r.adcsra &&& 7).toNat = 0 then 2 else 2 ^ (r.adcsra &&& 7).toNat

/-- the divider of the timers 0 and 1; 0: stopped or external clock -/
def timerDivider (cs : Nat) : Nat := ([0, 1, 8, 64, 256, 1024] : List Nat).getD cs 0

/-- the mode of timer 0 is CTC: it counts from 0 to OCR0A -/
def Timer0Ctc (r : Timer0Regs) : Prop := r.tccr0a &&& 3 = 2 ∧ r.tccr0b.getLsbD 3 = false

/-- cycles of the system clock from one compare interrupt of timer 0 to the next -/
def tickCycles (r : Timer0Regs) : Nat := (r.ocr0a + 1) * timerDivider (r.tccr0b &&& 7).toNat

/-- The mode of timer 1 is 14, fast PWM from 0 to ICR1; the pin OC1A is high from 0 to OCR1A and low for the rest. -/
def Timer1FastPwm (r : Timer1Regs) : Prop :=
  r.tccr1a &&& 3 = 2 ∧ (r.tccr1b >>> 3) &&& 3 = 3 ∧ r.tccr1a >>> 6 = 2 ∧ 0 ≤ r.ocr1a ∧ r.ocr1a ≤ r.icr1

/-- counts of a period in which the pin OC1A is low (the heater is on) -/
def lowCounts (r : Timer1Regs) : Int := r.icr1 - r.ocr1a

/-- counts of a period -/
def periodCounts (r : Timer1Regs) : Int := r.icr1 + 1

/-- the format of the UART: asynchronous (UMSEL 0) with the number of bits, a parity bit (UPM) or not, stop bits -/
def uartFormat (r : UartRegs) : Option (Nat × Bool × Nat) :=
  if r.ucsr0c >>> 6 = 0 ∧ r.ucsr0b.getLsbD 2 = false then
    some (5 + ((r.ucsr0c >>> 1) &&& 3).toNat, decide ((r.ucsr0c >>> 4) &&& 3 ≠ 0), if r.ucsr0c.getLsbD 3 then 2 else 1)
  else none

/-- cycles of the system clock for a bit -/
def bitCycles (r : UartRegs) : Nat := (if r.ucsr0a.getLsbD 1 then 8 else 16) * (r.ubrr0 + 1)

end Verif.Spec
