import Verif.Spec.Sys
import Verif.Spec.Text
import Verif.Spec.Arith
/-
What the properties about the display talk about: the shapes of the characters, the pins of the
segments, and the text that belongs to each screen.
-/
namespace Verif.Spec

/-- The segments of a digit and its decimal point:
```
     a
   f   b
     g
   e   c
     d    dp
``` -/
inductive Seg where
  | a | b | c | d | e | f | g | dp
  deriving DecidableEq, Repr

/-- The shape of a character (7 bit ASCII).  Letters look the same in upper and lower case; characters without
    a shape are blank. -/
def shape (ch : Nat) : List Seg :=
  match (if 97 ≤ ch ∧ ch ≤ 122 then ch - 32 else ch) with
  | 48 => [.a, .b, .c, .d, .e, .f]
  | 49 => [.b, .c]
  | 50 => [.a, .b, .g, .e, .d]
  | 51 => [.a, .b, .g, .c, .d]
  | 52 => [.f, .g, .b, .c]
  | 53 => [.a, .f, .g, .c, .d]
  | 54 => [.a, .f, .g, .e, .c, .d]
  | 55 => [.a, .b, .c]
  | 56 => [.a, .b, .c, .d, .e, .f, .g]
  | 57 => [.a, .b, .c, .d, .f, .g]
  | 65 => [.a, .b, .c, .e, .f, .g]
  | 66 => [.f, .e, .d, .c, .g]
  | 67 => [.a, .f, .e, .d]
  | 68 => [.b, .c, .d, .e, .g]
  | 69 => [.a, .f, .g, .e, .d]
  | 70 => [.a, .f, .g, .e]
  | 71 => [.a, .f, .e, .d, .c, .g]
  | 72 => [.f, .e, .g, .b, .c]
  | 73 => [.f, .e]
  | 74 => [.b, .c, .d]
  | 76 => [.f, .e, .d]
  | 78 => [.e, .g, .c]
  | 79 => [.a, .b, .c, .d, .e, .f]
  | 80 => [.a, .b, .g, .f, .e]
  | 82 => [.e, .g]
  | 45 => [.g]
  | _ => []

/-- The pin of port D that drives a segment low: the three big digits and the small one are wired differently. -/
def segPin (small : Bool) : Seg → Nat :=
  if small then fun
    | .a => 2 | .b => 3 | .c => 0 | .d => 1 | .e => 6 | .f => 4 | .g => 7 | .dp => 5
  else fun
    | .a => 7 | .b => 0 | .c => 2 | .d => 4 | .e => 5 | .f => 6 | .g => 1 | .dp => 3

/-- The segment of digit `i` (0..3, 3 is the small one) glows: the digit's driver is on and the segment's pin is
    an output that is low. -/
def Glows (v : PortVals) (i : Nat) (x : Seg) : Bool :=
  DriverOn v i && v.ddrD.getLsbD (segPin (i = 3) x) && !v.portD.getLsbD (segPin (i = 3) x)

/-- The segments of a digit that shall show `o`: a character with or without decimal point, or nothing.  The
    point of a shown character may be forced on or off; a character code above 127 has a point of its own. -/
def wanted (force : Option Bool) (o : Option (Nat × Bool)) (x : Seg) : Bool :=
  match o with
  | none => false
  | some (ch, point) => if x = .dp then force.getD (point || 128 ≤ ch) else x ∈ shape (ch % 128)

/-- The forced decimal point of a digit of the display. -/
def forced (g : DispDigit) : Option Bool := if g.dpForce then some g.dpOn else none

/-- A temperature: three characters that read as the value in degrees, rounded and limited to -99..999, and
    then the unit. -/
def TempText (v : Int) (unit txt : List Nat) : Prop :=
  ∃ n num, NearestAway v 64 n ∧ num.length = 3 ∧ readNumber num = some (max (-99) (min 999 n)) ∧ txt = num ++ unit

/-- A factor: the integer part in `4 - digits` characters, a point, and the decimals, rounded to `digits` digits. -/
def FactorText (v : Int) (digits : Nat) (txt : List Nat) : Prop :=
  ∃ ip fp f, ip.length = 4 - digits ∧ readNumber ip = some (v / 64) ∧ fp.length = digits ∧ readDigits fp = some f ∧
    2 * (64 * (f : Int) - v % 64 * 10 ^ digits).natAbs ≤ 64 ∧ txt = ip ++ 46 :: fp

/-- The unit shown behind the temperature: idle mode, boost mode 1 or 2, or plain degrees. -/
def unitOf (idle : Bool) (boost : Nat) : List Nat :=
  if idle then [76, 46] else if boost = 1 then [98, 46] else if boost = 2 then [56, 46] else [67, 46]

/-- The text that belongs on the display. -/
def ScreenText (s : Sys) (txt : List Nat) : Prop :=
  match s.menu.state with
  | .curtemp =>
    if s.menu.dispErr = 0 then TempText s.ct.feedback (unitOf s.ct.idle s.ct.boost) txt
    else txt = [69, 114, 114, 48 + s.menu.dispErr]
  | .selpreset | .chgpreset => ∃ v, s.set.cache.sp[s.set.cache.active]? = some v ∧
      TempText v [49 + s.set.cache.active, 46] txt
  | .idletemp => TempText s.set.cache.idleSp [76] txt
  | .debug => txt = [68, 66, 71]
  | .adjPre => txt = [65, 68, 74, 67, 46]
  | .adj => TempText s.set.cache.adj [67, 46] txt
  | .kpPre => txt = [32, 80]
  | .kiPre => txt = [32, 73]
  | .kdPre => txt = [32, 68]
  | .kp => ∃ k, s.set.cache.k[s.ct.boost]? = some k ∧ FactorText k.kp 2 txt
  | .ki => ∃ k, s.set.cache.k[s.ct.boost]? = some k ∧ FactorText k.ki 3 txt
  | .kd => ∃ k, s.set.cache.k[s.ct.boost]? = some k ∧ FactorText k.kd 2 txt

/-- The screens in which the decimal point of the third digit tells whether the iron is being heated up. -/
def ShowsHeating (s : Sys) : Bool :=
  match s.menu.state with
  | .curtemp => s.menu.dispErr = 0
  | .selpreset | .chgpreset | .idletemp | .debug => true
  | _ => false

/-- Each digit of the display lights the segments of its character as soon as it is switched on: its pins in
    `enSet` are driven low then (`C52_lit`).  The decimal point of the third digit is `dot`. -/
def DisplayShows (d : Display) (txt : List Nat) (dot : Bool) : Prop :=
  ∀ j (h : j < 4) x, d.digit[j].sseg.enSet.getLsbD (segPin (j = 3) x) =
    wanted (if j = 2 then some dot else none) (layout txt)[j]? x

/-- No digit is lit. -/
def AllOff (v : PortVals) : Prop := ∀ i, DriverOn v i = false

instance (v : PortVals) : Decidable (AllOff v) :=
  decidable_of_iff (DriverOn v 0 = false ∧ DriverOn v 1 = false ∧ DriverOn v 2 = false ∧ DriverOn v 3 = false)
    ⟨fun ⟨h0, h1, h2, h3⟩ i => match i with
      | 0 => h0 | 1 => h1 | 2 => h2 | 3 => h3 | _ + 4 => rfl, fun h => ⟨h 0, h 1, h 2, h 3⟩⟩

/-- A write to the registers of the shared ports that changes nothing but pins of the display: port D, PC3..PC5
    and PB7. -/
def Confined (w : PortWrite) : Prop :=
  match w.reg with
  | .portD | .ddrD => True
  | .portC => w.value &&& 0xC7 = w.before.portC &&& 0xC7
  | .ddrC => w.value &&& 0xC7 = w.before.ddrC &&& 0xC7
  | .portB => w.value &&& 0x7F = w.before.portB &&& 0x7F
  | .ddrB => w.value &&& 0x7F = w.before.ddrB &&& 0x7F

/-- The writes between `p` and `p'`, newest first, are `new`. -/
def Wrote (p p' : Ports) (new : List PortWrite) : Prop := p'.log = new ++ p.log

end Verif.Spec
