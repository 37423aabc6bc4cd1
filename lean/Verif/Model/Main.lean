import Verif.Model.Buttons
/-
Model of firmware/main.c: initialisation and the events of the running firmware.
-/
namespace Verif

/-- static data before main(): zero or the initialisers in the sources (measure.c:74-105);
    `set` is filled in by settings_init.  `pid` members are zero. -/
def zeroPid : Pid :=
  { k := ⟨0, 0, 0, 0⟩, setpoint := 0, iNeg := 0, iPos := 0, yNeg := 0, yPos := 0, prevE := 0,
    integr := 0 }

/-- measure.c:74-105 -/
def zeroMeas : Meas :=
  { chan := Vector.replicate 2 { adj := 0, plausTimeout := false, timerRunning := false, timer := 0 },
    active := 0, avgCount := 0, avgSum := 0, avgTimer := 0, resultAvail := false, adcOn := false }

/-- all static data before main(), given the settings module's state -/
def zeroSys (set : SettingsSt) : Sys :=
  { now := 0, set := set, meas := zeroMeas,
    mcurr := { initialized := false, prevFeedback := 0, filter := 0 },
    mtPrev := 0,
    cc := { enabled := false, restricted := false, emerg := 0, pid := zeroPid, rState := .disabled,
            feedback := 0, prevY := 0, timer := 0, model := 0 },
    ct := { enabled := false, emergency := false, idle := false, boost := 0, biTimer := 0,
            biLet := false, pid := zeroPid, feedback := 0, dtTimer := 0 },
    ocr := 0,
    menu := { state := .curtemp, timeout := 0, ramp := .none, rampTimer := 0, rampPreTimer := 0,
              handler := none, period := 0, dispErr := 0, dispHeating := false, updReq := false },
    btn := { prev := 0, debounce := 0 },
    disp := Display.zero,
    ports := { v := PortVals.reset, log := [] },
    debugEn := false }

/-- buttons.c:124-131 `buttons_init` (the 50 ms delay passes with interrupts disabled) -/
def buttonsInit (s : Sys) : Sys :=
  { s with ports := (s.ports.clrBits .ddrB BUTTONS_MASK).orBits .portB BUTTONS_MASK,
           btn := { s.btn with debounce := timerSetNow s.now } }

/-- pwm_current.c:54-73 `pwmcurr_init` -/
def pwmcurrInit (s : Sys) : Sys :=
  { s with ports := (s.ports.orBits .portB 0x02).orBits .ddrB 0x02, ocr := PWMCURR_MAX_DUTY }

/-- main.c:43-60 `unused_pins_init`: PB5, PB6, PC0 -/
def unusedPinsInit (s : Sys) : Sys :=
  let p := (s.ports.clrBits .ddrB 0x20).orBits .portB 0x20
  let p := (p.clrBits .ddrB 0x40).orBits .portB 0x40
  let p := (p.clrBits .ddrC 0x01).orBits .portC 0x01
  { s with ports := p }

/-- display.c:194-197 `display_init` -/
def displayInit (s : Sys) : Option Sys := do
  let (p, d) ← displayEnable s.now s.ports s.disp true
  return { s with ports := p, disp := d }

/-- main.c:98-135 `main` up to the main loop.  `ee` is the EEPROM content, `pinb` the level of the
    button pins during initialisation.  Interrupts are disabled until the end (line 135), so the
    timer stands still.  `settings_init` only touches the settings module, so the model runs it
    first. -/
def boot (c : Conf) (ee : Nat → Nat) (pinb : BitVec 8) : Option Sys := do
  let set ← settingsInit c ee
  let s := zeroSys set
  let s := buttonsInit s
  let s ← debugEnable c s false  -- debug_uart.c:252
  let s ← displayInit s
  let s := meascurrInit s
  let s := meastempInit c s
  let s ← contrcurrInit s
  let s ← contrtempInit c s
  let s := pwmcurrInit s
  let s ← menuInit c s (buttonIsPressed pinb .set ≠ 0)
  let s := unusedPinsInit s
  measureStart c s

/-- What can happen after initialisation: interrupts (tick, ADC, EEPROM ready), the hardware
    finishing a byte, and the work functions called by the main loop (main.c:77-91). -/
inductive Ev where
  /-- timer interrupt -/
  | tick
  /-- ADC interrupt with conversion result -/
  | adc (raw : Nat)
  /-- EEPROM ready interrupt -/
  | eeIsr
  /-- EEPROM byte programmed -/
  | eeDone
  | measureWork
  | menuWork
  | displayWork
  | buttonsWork (pinb : BitVec 8)
  | settingsWork
  deriving DecidableEq, Repr

/-- One event.  `none` is undefined behaviour.  Simplification: an interrupt does not happen
    inside a work function (see C79); in particular the time is constant during a work function (see Model/Inside). -/
def step (c : Conf) (s : Sys) : Ev → Option Sys
  | .tick => some { s with now := timerTick s.now }
  | .adc raw => some { s with meas := adcIsr s.now s.meas raw }
  | .eeIsr => do
    let set ← eeIsr c s.set
    return { s with set := set }
  | .eeDone => some { s with set := eeProgDone s.set }
  | .measureWork => measureWork c s
  | .menuWork => menuWork c s
  | .displayWork => do
    let (p, d) ← displayWork s.now s.ports s.disp
    return { s with ports := p, disp := d }
  | .buttonsWork pinb => buttonsWork c s pinb
  | .settingsWork => some { s with set := (settingsWork c s.now s.set).1 }

/-- What the hardware can do: the ADC interrupts only while it is converting, with a 10-bit
    result; the EEPROM interrupts only when enabled and idle.  Assumption about the ADC rate: fewer
    than 65536 conversions are counted in one averaging window.  The window ends with the first
    conversion after the averaging timer (5 or 50 ms) expired (measure.c:270-288), and the ADC, clocked
    with 8 MHz / 64 and needing 13 clocks, delivers about 9600 samples per second (C83, C84). -/
def possible (s : Sys) : Ev → Bool
  | .adc raw => s.meas.adcOn && raw < 1024 && s.meas.avgCount < 65535
  | .eeIsr => eeReady s.set
  | .eeDone => s.set.prog.isSome
  | _ => true

/-- the state after a list of events; `none` is undefined behaviour -/
def run (c : Conf) (s : Sys) : List Ev → Option Sys
  | [] => some s
  | e :: es => do
    let s ← step c s e
    run c s es

end Verif
