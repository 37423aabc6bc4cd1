import Verif.Model.Sseg
import Verif.Model.Ring
import Verif.Model.Timer
/-
Model of firmware/display.c.
-/
namespace Verif

/-- display.c:34-48 `big_digit` -/
def bigDigit : SegIomap :=
  { ddr := .ddrD, port := .portD, polarity := false,
    masks := #v[0x80, 0x01, 0x04, 0x10, 0x20, 0x40, 0x02, 0x08] }

/-- display.c:50-64 `small_digit` -/
def smallDigit : SegIomap :=
  { ddr := .ddrD, port := .portD, polarity := false,
    masks := #v[0x04, 0x08, 0x01, 0x02, 0x40, 0x10, 0x80, 0x20] }

/-- display.c:66-92 `digit_iomaps` -/
def digitIomaps : Vector SsegIomap 4 :=
  #v[{ segment := bigDigit, muxDdr := .ddrC, muxPort := .portC, muxMask := 0x08, muxPolarity := true },
     { segment := bigDigit, muxDdr := .ddrC, muxPort := .portC, muxMask := 0x10, muxPolarity := true },
     { segment := bigDigit, muxDdr := .ddrC, muxPort := .portC, muxMask := 0x20, muxPolarity := true },
     { segment := smallDigit, muxDdr := .ddrB, muxPort := .portB, muxMask := 0x80, muxPolarity := true }]

/-- display.c:96-100 `struct display_digit` -/
structure DispDigit where
  sseg : SsegDigit
  dpForce : Bool
  dpOn : Bool
  deriving DecidableEq, Repr

/-- display.c:102-109 `struct display_context` -/
structure Display where
  enabled : Bool
  digit : Vector DispDigit 4
  mux : Nat
  muxTimer : Int
  deriving DecidableEq, Repr

/-- display.c:111, zero-initialised static data -/
def Display.zero : Display :=
  { enabled := false,
    digit := Vector.replicate 4 { sseg := { iomap := none, enSet := 0, enMask := 0 },
                                  dpForce := false, dpOn := false },
    mux := 0, muxTimer := 0 }

/-- display.c:114-118 `display_force_dp` -/
def displayForceDp (d : Display) (dp : Nat) (forceEn dpOn : Bool) : Option Display :=
  if h : dp < 4 then
    some { d with digit := d.digit.set dp { d.digit[dp] with dpForce := forceEn, dpOn := dpOn } }
  else none

/-- display.c:127-142, one digit: the character to show and the rest of the text.
    `text` is the memory from the read position on; a character that was never written is
    `none` and reading it (or reading past the end) is undefined. -/
def nextGlyph (g : DispDigit) (text : List (Option (BitVec 8))) :
    Option (BitVec 8 × List (Option (BitVec 8))) := do
  let c ← ← text[0]?
  if c = 0 then return (0x20#8, text)
  else
    let c1 ← ← text[1]?
    let (c, text) := if c1 = 0x2E#8 then (c ||| 0x80#8, text.drop 1) else (c, text)
    let c := if g.dpForce then (if g.dpOn then c ||| 0x80#8 else c &&& 0x7F#8) else c
    return (c, text.drop 1)

/-- display.c:125-146 the loop over the digits `i`, `i+1`, … 3 -/
def showFrom (d : Display) (text : List (Option (BitVec 8))) : Nat → Nat → Option Display
  | 0, _ => some d
  | n + 1, i =>
    if h : i < 4 then do
      let (c, text) ← nextGlyph d.digit[i] text
      let sseg ← ssegDigitSet d.digit[i].sseg c
      showFrom { d with digit := d.digit.set i { d.digit[i] with sseg := sseg } } text n (i + 1)
    else none

/-- display.c:120-147 `display_show` -/
def displayShow (d : Display) (text : List (Option (BitVec 8))) : Option Display :=
  showFrom d text 4 0

/-- display.c:149-166 `display_work` -/
def displayWork (now : Int) (p : Ports) (d : Display) : Option (Ports × Display) :=
  if !d.enabled then some (p, d)
  else if !timerExpired now d.muxTimer then some (p, d)
  else do
    let t ← timerAdd d.muxTimer 1
    let cur := d.mux
    let next := ringNext cur 3
    let src ← d.digit[cur]?
    let dst ← d.digit[next]?
    let p ← ssegMultiplex p src.sseg dst.sseg
    return (p, { d with muxTimer := t, mux := next })

/-- display.c:178-183 the loop of display_enable(true), digits `i`, `i+1`, … 3 -/
def initFrom (p : Ports) (d : Display) : Nat → Nat → Option (Ports × Display)
  | 0, _ => some (p, d)
  | n + 1, i =>
    if h : i < 4 then do
      let (p, sseg) ← ssegInit p { d.digit[i].sseg with iomap := some digitIomaps[i] }
      initFrom p { d with digit := d.digit.set i { d.digit[i] with sseg := sseg } } n (i + 1)
    else none

/-- display.c:186-190 the loop of display_enable(false) -/
def exitFrom (p : Ports) (d : Display) : Nat → Nat → Option Ports
  | 0, _ => some p
  | n + 1, i =>
    if h : i < 4 then do
      let p ← ssegExit p d.digit[i].sseg
      exitFrom p d n (i + 1)
    else none

/-- display.c:168-192 `display_enable` -/
def displayEnable (now : Int) (p : Ports) (d : Display) (enable : Bool) :
    Option (Ports × Display) :=
  if enable = d.enabled then some (p, d)
  else
    let d := { d with enabled := enable }
    if enable then do
      let (p, d) ← initFrom p d 4 0
      return (p, { d with muxTimer := timerSetNow now })
    else do
      let p ← exitFrom p d 4 0
      return (p, d)

end Verif
