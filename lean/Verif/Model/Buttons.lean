import Verif.Model.Menu
/-
Model of firmware/buttons.c.
-/
namespace Verif

/-- buttons.c:32-40 `BUTTONS_MASK`: PB0, PB2, PB3, PB4 -/
def BUTTONS_MASK : BitVec 8 := 0x1D

/-- buttons.c:53-58 `button_id_to_port_mask` -/
def buttonMask : Button → BitVec 8
  | .set => 0x04
  | .minus => 0x08
  | .plus => 0x10
  | .iron => 0x01

/-- buttons.c:61-72 `buttons_get_raw`; `pinb` is the level of the pins of port B -/
def buttonsRaw (pinb : BitVec 8) : BitVec 8 := ~~~pinb &&& BUTTONS_MASK

/-- buttons.c:74-82 `button_is_pressed` -/
def buttonIsPressed (pinb : BitVec 8) (b : Button) : BitVec 8 := buttonsRaw pinb &&& buttonMask b

/-- buttons.c:110-121: the calls of the button handlers resulting from one sample, in order -/
def buttonCalls (state pos neg : BitVec 8) : List (Button × BState) :=
  [Button.set, .minus, .plus, .iron].flatMap fun b =>
    (if pos &&& buttonMask b ≠ 0 then [(b, BState.posedge)]
     else if neg &&& buttonMask b ≠ 0 then [(b, BState.negedge)] else []) ++
    (if state &&& buttonMask b ≠ 0 then [(b, BState.pressed)] else [])

/-- buttons.c:101-108 the sample: new state of the module and the calls to make.  The pins are
    read only when the debounce timer has expired. -/
def buttonsSample (now : Int) (b : Buttons) (pinb : BitVec 8) :
    Option (Buttons × List (Button × BState)) :=
  if !timerExpired now b.debounce then some (b, [])
  else do
    let t ← timerAdd b.debounce 10
    let state := buttonsRaw pinb
    let pos := (state &&& ~~~b.prev) &&& BUTTONS_MASK
    let neg := (~~~state &&& b.prev) &&& BUTTONS_MASK
    return ({ prev := state, debounce := t }, buttonCalls state pos neg)

/-- buttons.c:89-93 `call_button_handlers` -/
def callButtonHandlers (c : Conf) (s : Sys) (x : Button × BState) : Option Sys := do
  let s ← contrtempButton c s x.1 x.2
  menuButton c s x.1 x.2

/-- buttons.c:95-122 `buttons_work` -/
def buttonsWork (c : Conf) (s : Sys) (pinb : BitVec 8) : Option Sys := do
  let (b, calls) ← buttonsSample s.now s.btn pinb
  calls.foldlM (callButtonHandlers c) { s with btn := b }

end Verif
