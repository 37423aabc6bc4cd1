import Verif.Model.Measure
/-
Model of firmware/debug_uart.c: enabling and disabling, and the reports.
The 9600 baud setup of debug_uart_init (lines 240-251) is not modelled.
-/
namespace Verif

/-- debug_uart.c:210-231 `debug_enable` (the branch without SIMULATOR; without CONF_DEBUG the
    function is empty, debug_uart.h:147-150).  The message "st" is not recorded. -/
def debugEnable (c : Conf) (s : Sys) (enable : Bool) : Option Sys :=
  if c.debug then do
    let s := { s with debugEn := enable }
    let (p, d) ← displayEnable s.now s.ports s.disp !enable
    return { s with ports := { p with v := { p.v with txen := enable } }, disp := d }
  else some s

/-- `utoa(x, buf, 16)` / `ltoa(x, buf, 10)` (avr-libc): the digits of a natural number, most
    significant first, at least one; `fuel` bounds the number of digits. -/
def digitsOf (base : Nat) : Nat → Nat → List Nat
  | 0, _ => []
  | fuel + 1, x => if x < base then [x] else digitsOf base fuel (x / base) ++ [x % base]

/-- the character of a digit (avr-libc: lower case letters above 9) -/
def digitChar (d : Nat) : Nat := if d < 10 then 48 + d else 87 + d

/-- avr-libc `ltoa(value, buf, 10)`: characters written, without the terminating NUL -/
def ltoa10 (value : Int) : List Nat :=
  (if value < 0 then [45] else []) ++ (digitsOf 10 20 value.natAbs).map digitChar

/-- avr-libc `utoa(value, buf, 16)` -/
def utoa16 (value : Nat) : List Nat := (digitsOf 16 20 value).map digitChar

/-- The debug UART: enabled flag, current timer value, and all characters transmitted. -/
structure Uart where
  enabled : Bool
  out : List Nat
  deriving DecidableEq, Repr

/-- debug_uart.c:74-82 `debug_uart_print_timestamp`: a buffer of 5 characters, larger texts
    are undefined -/
def printTimestamp (now : Nat) (u : Uart) : Option Uart :=
  let t := utoa16 (now % 65536)
  if t.length + 1 ≤ 5 then some { u with out := u.out ++ t ++ [58, 32] } else none

/-- debug_uart.c:84-109 `debug_print_str3`; a null pointer is `none` -/
def printStr3 (now : Nat) (u : Uart) (s0 s1 s2 : Option (List Nat)) : Option Uart :=
  if !u.enabled then some u
  else do
    let u ← printTimestamp now u
    let u := match s0 with | none => u | some s => { u with out := u.out ++ s }
    let u := match s1 with | none => u | some s => { u with out := u.out ++ 32 :: s }
    let u := match s2 with | none => u | some s => { u with out := u.out ++ 32 :: s }
    return { u with out := u.out ++ [13, 10] }

/-- debug_uart.c:111-125 `debug_print_int32` (also int24, int16, int8 and fixpt, lines 127-153,
    which widen the value): a buffer of 12 characters, larger texts are undefined -/
def printInt (now : Nat) (u : Uart) (p0 p1 : Option (List Nat)) (value : Int) : Option Uart :=
  let t := ltoa10 value
  if t.length + 1 ≤ 12 then printStr3 now u p0 p1 (some t) else none

/-- debug_uart.c:155-208 `debug_report_int32` and the variants for the other types; returns the
    remembered value and the UART -/
def reportInt (now : Nat) (u : Uart) (p0 p1 : Option (List Nat)) (old new : Int) :
    Option (Int × Uart) :=
  if old ≠ new then do
    let u ← printInt now u p0 p1 new
    return (new, u)
  else some (old, u)

end Verif
