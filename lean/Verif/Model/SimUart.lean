import Verif.Model.Host
/-
Model of the way of the debug texts through the simulator: the UART of firmware/simulator/simulator.cxx, the functions of
debug_uart.c compiled for the simulator, and the reader in firmware/simulator/xytronic_simulator.py.  As in Model/Host a
character is its code, the texts are taken as ASCII, and a Python float is an exact rational number.  The messages which
the reader prints to the terminal are not modelled.
-/
namespace Verif

/-! ### the ring of the simulated UART -/

/-- simulator.cxx:69-71 the buffer of 4096 bytes and its indices -/
structure SimUart where
  buf : Nat → Nat
  write : Nat
  read : Nat

/-- simulator.cxx:259-266 `UDR0_write_hook`: the firmware transmits a byte -/
def simUartPut (u : SimUart) (byte : Nat) : SimUart :=
  { u with
    buf := fun i => if i = u.write then byte else u.buf i
    write := if u.write + 1 ≥ 4096 then 0 else u.write + 1 }

/-- simulator.cxx:423-438 `simulator_uart_get_tx`: the bytes, at most `max` -/
def simUartGet (u : SimUart) : Nat → List Nat × SimUart
  | 0 => ([], u)
  | max + 1 =>
    if u.read ≠ u.write then
      let r := simUartGet { u with read := if u.read + 1 ≥ 4096 then 0 else u.read + 1 } max
      (u.buf u.read :: r.1, r.2)
    else ([], u)

/-! ### what the firmware transmits -/

/-- tests/fake/fake.h:15-24 `utoa(val, s, 16)` on the host: `sprintf` with "%X", upper case letters -/
def hostUtoa16 (value : Nat) : List Nat := (digitsOf 16 20 value).map fun d => if d < 10 then 48 + d else 55 + d

/-- debug_uart.c:74-125 a value is printed with one or two names, in the simulator, where debugging stays on once
    `debug_enable` was called (before that, nothing is transmitted); the buffer for the time has 9 characters, that for the value 12 (`ltoa` of fake.h:26-35 gives the same digits as that of
    avr-libc) -/
def simPrintInt (now : Nat) (name : List Nat) (name2 : Option (List Nat)) (value : Int) : Option (List Nat) :=
  let t := hostUtoa16 (now % 65536)
  let v := ltoa10 value
  if t.length + 1 ≤ 9 ∧ v.length + 1 ≤ 12 then
    some (t ++ 58 :: 32 :: (name ++ (name2.elim [] fun s => 32 :: s) ++ 32 :: v) ++ [13, 10])
  else none

/-- debug_uart.c:210-231 `debug_enable` in the simulator: the argument is ignored, debugging is switched on and the text
    "\r\nst\r\n" is transmitted -/
def simEnable : List Nat := [13, 10, 115, 116, 13, 10]

/-! ### the reader -/

/-- the variables of xytronic_simulator.py:167-188 -/
structure SimVals where
  currentRealR : Rat
  currentUsedR : Rat
  currentRState : Rat
  currentY : Rat
  tempR : Rat
  tempY1 : Rat
  tempY2 : Rat
  measCurr : Rat
  filtCurr : Rat
  measTemp : Rat
  boostMode : Rat
  pidTempE : Rat
  pidTempP : Rat
  pidTempI : Rat
  pidTempD : Rat
  pidTempPrevE : Rat
  pidCurrE : Rat
  pidCurrP : Rat
  pidCurrI : Rat
  pidCurrD : Rat
  pidCurrPrevE : Rat
  deriving DecidableEq

/-- xytronic_simulator.py:167-188 `__reset_debuginterface` -/
def simReset : SimVals := ⟨0, 0, 0, 0, 0, 0, 0, 0, 0, 0, 0, 0, 0, 0, 0, 0, 0, 0, 0, 0, 0⟩

/-- bytearray.find(b'\r\n') and the two slices of xytronic_simulator.py:133-136: the text before and behind the first
    end of a line -/
def cutLine : List Nat → Option (List Nat × List Nat)
  | [] => none
  | [_] => none
  | a :: b :: r => if a = 13 ∧ b = 10 then some ([], r) else (cutLine (b :: r)).map fun p => (a :: p.1, p.2)

/-- xytronic_simulator.py:129-139 `__uart_tx_get_line`: the line (empty: none) and the remaining text -/
def simGetLine (uartbuf data : List Nat) : List Nat × List Nat :=
  if data.isEmpty then ([], uartbuf)
  else
    let uartbuf := uartbuf ++ data
    match cutLine uartbuf with
    | none => ([], uartbuf)
    | some (line, rest) => (if line.isEmpty then [] else pyStrip (line.filter (· < 128)), rest)

/-- xytronic_simulator.py:228-294 the branches for the elements of a line -/
def simElem (v : SimVals) (e0 e1 : List Nat) (e2 : Option (List Nat)) : SimVals :=
  if e0 = [99, 114, 49] then { v with currentRealR := parseFixpt e1 / 10 }                    -- cr1
  else if e0 = [99, 114, 50] then { v with currentUsedR := parseFixpt e1 / 10 }               -- cr2
  else if e0 = [114, 115] then { v with currentRState := parseInt e1 }                        -- rs
  else if e0 = [99, 121] then { v with currentY := parseFixpt e1 / 10 }                       -- cy
  else if e0 = [116, 114] then { v with tempR := parseFixpt e1 }                              -- tr
  else if e0 = [116, 121, 49] then { v with tempY1 := parseFixpt e1 }                         -- ty1
  else if e0 = [116, 121, 50] then { v with tempY2 := parseFixpt e1 / 10 }                    -- ty2
  else if e0 = [116, 98] then { v with boostMode := parseInt e1 }                             -- tb
  else if e0 = [109, 99] then { v with measCurr := parseInt e1 }                              -- mc
  else if e0 = [102, 99] then { v with filtCurr := parseInt e1 }                              -- fc
  else if e0 = [109, 116] then { v with measTemp := parseInt e1 }                             -- mt
  else match e2 with
    | none => v
    | some e2 =>
      if e0 = [112, 105, 100, 45, 116] then                                                   -- pid-t
        if e1 = [101] then { v with pidTempE := parseFixpt e2 }
        else if e1 = [112] then { v with pidTempP := parseFixpt e2 }
        else if e1 = [105] then { v with pidTempI := parseFixpt e2 }
        else if e1 = [100] then { v with pidTempD := parseFixpt e2 }
        else if e1 = [112, 101] then { v with pidTempPrevE := parseFixpt e2 }
        else v
      else if e0 = [112, 105, 100, 45, 99] then                                               -- pid-c
        if e1 = [101] then { v with pidCurrE := parseFixpt e2 }
        else if e1 = [112] then { v with pidCurrP := parseFixpt e2 }
        else if e1 = [105] then { v with pidCurrI := parseFixpt e2 }
        else if e1 = [100] then { v with pidCurrD := parseFixpt e2 }
        else if e1 = [112, 101] then { v with pidCurrPrevE := parseFixpt e2 }
        else v
      else v

/-- xytronic_simulator.py:205-294 `__handle_debuginterface` with the line -/
def simLine (v : SimVals) (line : List Nat) : SimVals :=
  if line.isEmpty then v
  else if line = [115, 116] then simReset
  else if 58 ∉ line then v
  else match pyInt 16 (line.takeWhile (· ≠ 58)) with
    | none => v
    | some _ =>
      match pySplit [] (pyStrip ((line.dropWhile (· ≠ 58)).drop 1)) with
      | [e0, e1] => simElem v e0 e1 none
      | [e0, e1, e2] => simElem v e0 e1 (some e2)
      | _ => v

/-- the reader -/
structure SimReader where
  uartbuf : List Nat
  vals : SimVals

/-- xytronic_simulator.py:67-69, 205-208 `run`: after a pass of the main loop, in which `data` was transmitted, the reader
    handles a line -/
def simRun (r : SimReader) (data : List Nat) : SimReader :=
  let l := simGetLine r.uartbuf data
  ⟨l.2, simLine r.vals l.1⟩

end Verif
