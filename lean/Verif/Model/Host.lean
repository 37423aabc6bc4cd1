import Verif.Model.Debug
/-
Model of firmware/dumpcurves.py, the tool which reads the debug interface on the host, and of the text which
`debug_enable` transmits.  A character is its code; the stream is taken as ASCII (bytes above 127, which the firmware
does not send, are dropped like those which `decode("utf-8", "ignore")` cannot decode).  A Python float is modelled as
an exact rational number.  What is printed to the terminal is not modelled.
-/
namespace Verif

/-- debug_uart.c:224-231, the part of `debug_enable` which concerns the UART: the flag and the text "\r\nst\r\n" -/
def uartEnable (u : Uart) (enable : Bool) : Uart :=
  if enable then { u with enabled := true, out := u.out ++ [13, 10, 115, 116, 13, 10] } else { u with enabled := false }

/-- Python `str.isspace` for an ASCII character -/
def pySpace (ch : Nat) : Bool := (9 ≤ ch && ch ≤ 13) || (28 ≤ ch && ch ≤ 32)

/-- Python `str.strip()` -/
def pyStrip (s : List Nat) : List Nat := ((s.dropWhile pySpace).reverse.dropWhile pySpace).reverse

/-- Python `str.split()`; `word` is the word read so far -/
def pySplit (word : List Nat) : List Nat → List (List Nat)
  | [] => if word.isEmpty then [] else [word]
  | ch :: cs =>
    if pySpace ch then (if word.isEmpty then pySplit [] cs else word :: pySplit [] cs) else pySplit (word ++ [ch]) cs

/-- the value of a digit in Python `int(_, base)`: digits and letters of either case -/
def pyDigit (base ch : Nat) : Option Nat :=
  let d := if 48 ≤ ch ∧ ch ≤ 57 then ch - 48 else if 97 ≤ ch ∧ ch ≤ 122 then ch - 87
    else if 65 ≤ ch ∧ ch ≤ 90 then ch - 55 else base
  if d < base then some d else none

/-- the digits of Python `int(_, base)`: single underscores are allowed between digits; `ok`: the last character was a
    digit -/
def pyDigits (base : Nat) : Bool → Nat → List Nat → Option Nat
  | ok, acc, [] => if ok then some acc else none
  | ok, acc, ch :: cs =>
    if ch = 95 then (if ok then pyDigits base false acc cs else none)
    else (pyDigit base ch).bind fun d => pyDigits base true (base * acc + d) cs

/-- the optional prefix 0x of Python `int(_, 16)`, with an optional underscore behind it -/
def pyPrefix : List Nat → List Nat
  | 48 :: x :: r => if x = 120 ∨ x = 88 then (match r with | 95 :: r => r | r => r) else 48 :: x :: r
  | s => s

/-- Python `int(s, base)` for the bases 10 and 16; `none` is a ValueError -/
def pyInt (base : Nat) (s : List Nat) : Option Int :=
  match pyStrip s with
  | [] => none
  | ch :: cs =>
    let digits := if ch = 45 ∨ ch = 43 then cs else ch :: cs
    let digits := if base = 16 then pyPrefix digits else digits
    (pyDigits base false 0 digits).map fun (v : Nat) => if ch = 45 then -(v : Int) else (v : Int)

/-- the global variables `val_...` of dumpcurves.py:59-88 -/
structure Vals where
  currentRealR : Rat
  currentUsedR : Rat
  currentRState : Rat
  currentY : Rat
  tempR : Rat
  tempY1 : Rat
  tempY2 : Rat
  measCurr : Rat
  filtCurr : Rat
  measTemp : Rat
  boostMode : Rat
  deriving DecidableEq

/-- the variables and the lines of the output file, each the list of its fields -/
structure Host where
  vals : Vals
  outLines : List (List Rat)
  deriving DecidableEq

/-- dumpcurves.py:59-88 `reset` -/
def hostReset : Host := ⟨⟨0, 0, 0, 0, 0, 0, 0, 0, 0, 0, 0⟩, []⟩

/-- dumpcurves.py:90-106 `putLine` -/
def putLine (timeStamp : Int) (h : Host) : Host :=
  let v := h.vals
  { h with outLines := h.outLines ++ [[(timeStamp : Rat), v.currentRealR, v.currentUsedR, v.currentRState, v.currentY,
      v.tempR, v.tempY1, v.tempY2, v.measCurr, v.filtCurr, v.measTemp, v.boostMode]] }

/-- dumpcurves.py:108-114 `parseInt` -/
def parseInt (s : List Nat) : Rat := ((pyInt 10 s).getD 0 : Int)

/-- dumpcurves.py:116-119 `parseFixpt` -/
def parseFixpt (s : List Nat) : Rat := parseInt s / 64

/-- dumpcurves.py:148-172, the branches for the names of the values; `none`: unknown name -/
def hostElem (name arg : List Nat) (v : Vals) : Option Vals :=
  if name = [99, 114, 49] then some { v with currentRealR := parseFixpt arg / 10 }            -- cr1
  else if name = [99, 114, 50] then some { v with currentUsedR := parseFixpt arg / 10 }       -- cr2
  else if name = [114, 115] then some { v with currentRState := parseInt arg }                -- rs
  else if name = [99, 121] then some { v with currentY := parseFixpt arg / 10 }               -- cy
  else if name = [116, 114] then some { v with tempR := parseFixpt arg }                      -- tr
  else if name = [116, 121, 49] then some { v with tempY1 := parseFixpt arg }                 -- ty1
  else if name = [116, 121, 50] then some { v with tempY2 := parseFixpt arg / 10 }            -- ty2
  else if name = [116, 98] then some { v with boostMode := parseInt arg }                     -- tb
  else if name = [109, 99] then some { v with measCurr := parseInt arg }                      -- mc
  else if name = [102, 99] then some { v with filtCurr := parseInt arg }                      -- fc
  else if name = [109, 116] then some { v with measTemp := parseInt arg }                     -- mt
  else none

/-- dumpcurves.py:125-183, one line -/
def hostLine (h : Host) (line : List Nat) : Host :=
  let line := pyStrip (line.filter (· < 128))
  if line.isEmpty then h
  else if line = [115, 116] then hostReset
  else if 58 ∉ line then h
  else match pyInt 16 (line.takeWhile (· ≠ 58)) with
    | none => h
    | some timeStamp =>
      match pySplit [] (pyStrip ((line.dropWhile (· ≠ 58)).drop 1)) with
      | [name, arg] =>
        (match hostElem name arg h.vals with
        | none => h
        | some v => putLine timeStamp { h with vals := v })
      | _ => h

/-- dumpcurves.py:123-124 the loop over `readline`: it returns when a line feed was received; `line` is what was
    received since the last one -/
def hostRead (h : Host) (line : List Nat) : List Nat → Host
  | [] => h
  | ch :: cs => if ch = 10 then hostRead (hostLine h (line ++ [ch])) [] cs else hostRead h (line ++ [ch]) cs

end Verif
