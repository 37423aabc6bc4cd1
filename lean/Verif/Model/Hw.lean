import Verif.Model.Main
/-
The configuration registers of the ADC, the timers and the UART.  They do not influence the rest of the model, which
assumes what they are set up for; here they follow the program beside it.
-/
namespace Verif

/-- the registers of the ADC -/
structure AdcRegs where
  admux : BitVec 8
  adcsra : BitVec 8
  adcsrb : BitVec 8
  didr0 : BitVec 8
  deriving DecidableEq, Repr

/-- measure.h:64-75 the members of `struct measure_config` for the registers -/
structure AdcSel where
  mux : BitVec 8
  did : BitVec 8
  ps : BitVec 8
  ref : BitVec 8
  deriving DecidableEq, Repr

/-- measure_current.c:105-111 and measure_temp.c:85-91: the registers of a channel (measure.h:9-43: ADC2 or ADC1,
    prescaler 64, reference AREF); an index outside of the array is undefined -/
def adcSel (chan : Nat) : Option AdcSel :=
  if chan = 0 then some { mux := 0b0010, did := 0b100, ps := 0b110, ref := 0 }
  else if chan = 1 then some { mux := 0b0001, did := 0b010, ps := 0b110, ref := 0 }
  else none

/-- measure.c:155-181 `adc_trigger` (ADEN bit 7, ADSC bit 6, ADATE bit 5, ADIE bit 3 of ADCSRA; ADLAR bit 5 of ADMUX;
    TS_FREERUN and ACME are 0) -/
def adcTrigger (r : AdcRegs) (x : AdcSel) (irq freerunning : Bool) : AdcRegs :=
  let trig : BitVec 8 := if freerunning then 0x20 else 0
  let ie : BitVec 8 := if irq then 0x08 else 0
  { didr0 := r.didr0 ||| x.did, admux := x.ref ||| x.mux, adcsrb := 0, adcsra := 0x80#8 ||| 0x40#8 ||| x.ps ||| ie ||| trig }

/-- measure.c:142-148 `adc_disable`; writing 1 to the interrupt flag ADIF clears it -/
def adcDisable (r : AdcRegs) : AdcRegs := { r with adcsra := 0 }

/-- measure.c:327-334 `measure_init` (MEAS_MUX_GND, prescaler 64, interrupt but no free running) and then 290-293
    `measure_start`; all registers are 0 after reset.  The hardware clears ADSC at the end of the single conversion. -/
def adcBoot : Option AdcRegs :=
  let r := adcTrigger ⟨0, 0, 0, 0⟩ { mux := 0b1111, did := 0, ps := 0b110, ref := 0 } true false
  let r := { r with adcsra := r.adcsra &&& ~~~0x40#8 }
  let r := adcDisable r
  (adcSel (ringNext zeroMeas.active 1)).map fun x => adcTrigger r x true true

/-- The registers after an event in the state `s`: measure.c:270-288 `ISR(ADC_vect)` and 295-308 `measure_work` with
    183-202 `adc_trigger_next_chan` -/
def adcStep (s : Sys) (r : AdcRegs) : Ev → Option AdcRegs
  | .adc _ => some (if timerExpired s.now s.meas.avgTimer then adcDisable r else r)
  | .measureWork =>
    if s.meas.resultAvail then (adcSel (ringNext s.meas.active 1)).map fun x => adcTrigger r x true true else some r
  | _ => some r

/-- the registers of timer 0 -/
structure Timer0Regs where
  ocr0a : Nat
  tccr0a : BitVec 8
  tccr0b : BitVec 8
  timsk0 : BitVec 8
  deriving DecidableEq, Repr

/-- timer.c:91-105 `timer_init` after main.c:101 `TIMSK0 = 0` (WGM01 bit 1 of TCCR0A; CS01, CS00 bits 1, 0 of TCCR0B;
    OCIE0A bit 1 of TIMSK0) -/
def timerInit : Timer0Regs :=
  { ocr0a := 125, tccr0a := 0x02, tccr0b := 0x03, timsk0 := 0#8 ||| 0x02#8 }

/-- the registers of timer 1 -/
structure Timer1Regs where
  icr1 : Int
  ocr1a : Int
  tccr1a : BitVec 8
  tccr1b : BitVec 8
  deriving DecidableEq, Repr

/-- pwm_current.c:62-72 `pwmcurr_init` (COM1A1 bit 7, WGM11 bit 1 of TCCR1A; WGM13, WGM12, CS12 bits 4, 3, 2 of
    TCCR1B) -/
def pwmInit : Timer1Regs :=
  { icr1 := PWMCURR_MAX_DUTY, ocr1a := PWMCURR_MAX_DUTY, tccr1a := 0x82, tccr1b := 0x1C }

/-- pwm_current.c:51 -/
def pwmSet (r : Timer1Regs) (duty : Int) : Timer1Regs := { r with ocr1a := duty }

/-- the registers of the UART -/
structure UartRegs where
  ubrr0 : Nat
  ucsr0a : BitVec 8
  ucsr0b : BitVec 8
  ucsr0c : BitVec 8
  deriving DecidableEq, Repr

/-- debug_uart.c:238-251 `debug_uart_init` (TXC0 bit 6 of UCSR0A; USBS0, UCSZ01, UCSZ00 bits 3, 2, 1 of UCSR0C) -/
def uartInit : UartRegs := { ubrr0 := 51, ucsr0a := 0x40, ucsr0b := 0, ucsr0c := 0x0E }

/-- debug_uart.c:33-43 `debug_uart_enable`, `debug_uart_disable` (TXEN0 bit 3 of UCSR0B) -/
def uartTx (r : UartRegs) (enable : Bool) : UartRegs :=
  { r with ucsr0b := if enable then r.ucsr0b ||| 0x08 else r.ucsr0b &&& ~~~0x08#8 }

/-- dumpcurves.py:39-40 the parameters of the serial line: baud rate, bits, parity, stop bits -/
def hostSerial : Nat × Nat × Bool × Nat := (9600, 8, false, 2)

end Verif
