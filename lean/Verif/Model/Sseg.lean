import Verif.Model.Ports
/-
Model of firmware/sseg.c, sseg.h.  Characters are 8-bit patterns (the signedness of C `char`
does not matter: bit 7 is masked off before any comparison, sseg.c:160-161).
-/
namespace Verif

/-- sseg.h:20-25 `struct sseg_segment_iomap`; masks in the order A B C D E F G DP (sseg.h:7-18) -/
structure SegIomap where
  ddr : Reg
  port : Reg
  masks : Vector (BitVec 8) 8
  polarity : Bool
  deriving DecidableEq, Repr

/-- sseg.h:27-34 `struct sseg_iomap` -/
structure SsegIomap where
  segment : SegIomap
  muxDdr : Reg
  muxPort : Reg
  muxMask : BitVec 8
  muxPolarity : Bool
  deriving DecidableEq, Repr

/-- sseg.h:36-40 `struct sseg_digit_data`; `iomap = none` is the null pointer -/
structure SsegDigit where
  iomap : Option SsegIomap
  enSet : BitVec 8
  enMask : BitVec 8
  deriving DecidableEq, Repr

/-- a segment mask from the letters of the lit segments: (a << SSEG_A) | … | (g << SSEG_G) -/
def segs (a b c d e f g : Nat) : BitVec 8 :=
  BitVec.ofNat 8 (a + 2 * b + 4 * c + 8 * d + 16 * e + 32 * f + 64 * g)

/-- sseg.c:26-57 `digit_to_segment_map` -/
def digitSegMap : List (BitVec 8) :=
  [ segs 1 1 1 1 1 1 0, segs 0 1 1 0 0 0 0, segs 1 1 0 1 1 0 1, segs 1 1 1 1 0 0 1,
    segs 0 1 1 0 0 1 1, segs 1 0 1 1 0 1 1, segs 1 0 1 1 1 1 1, segs 1 1 1 0 0 0 0,
    segs 1 1 1 1 1 1 1, segs 1 1 1 1 0 1 1 ]

/-- sseg.c:61-110 `char_to_segment_map` ('A' to 'R') -/
def charSegMap : List (BitVec 8) :=
  [ segs 1 1 1 0 1 1 1, /- A -/ segs 0 0 1 1 1 1 1, /- B -/ segs 1 0 0 1 1 1 0, /- C -/
    segs 0 1 1 1 1 0 1, /- D -/ segs 1 0 0 1 1 1 1, /- E -/ segs 1 0 0 0 1 1 1, /- F -/
    segs 1 0 1 1 1 1 1, /- G -/ segs 0 1 1 0 1 1 1, /- H -/ segs 0 0 0 0 1 1 0, /- I -/
    segs 0 1 1 1 0 0 0, /- J -/ 0,                  /- K -/ segs 0 0 0 1 1 1 0, /- L -/
    0,                  /- M -/ segs 0 0 1 0 1 0 1, /- N -/ segs 1 1 1 1 1 1 0, /- O -/
    segs 1 1 0 0 1 1 1, /- P -/ 0,                  /- Q -/ segs 0 0 0 0 1 0 1  /- R -/ ]

/-- sseg.c:112-115 `segment_mask_minus` -/
def segMaskMinus : BitVec 8 := segs 0 0 0 0 0 0 1

/-- sseg.c:117-129 `mux_write` -/
def muxWrite (p : Ports) (d : SsegDigit) (enable : Bool) : Option Ports := do
  let io ← d.iomap
  let enable := if !io.muxPolarity then !enable else enable
  return if enable then p.orBits io.muxPort io.muxMask else p.clrBits io.muxPort io.muxMask

/-- sseg.c:131-148 `segment_write` -/
def segmentWrite (p : Ports) (d : SsegDigit) : Option Ports := do
  let io ← d.iomap
  let set := if !io.segment.polarity then ~~~d.enSet else d.enSet
  let set := set &&& d.enMask
  let value := p.v.get io.segment.port
  let value := value &&& ~~~d.enMask
  let value := value ||| set
  return p.write io.segment.port value

/-- sseg.c:163-176 the segments of a character (as a mask in the order of sseg.h:7-18) -/
def charMask (digit : BitVec 8) : Option (BitVec 8) := do
  let dp := digit &&& 0x80#8
  let digit := (digit &&& 0x7F#8).toNat
  let digit := if 97 ≤ digit ∧ digit ≤ 122 then digit - 32 else digit
  let m ← if 48 ≤ digit ∧ digit ≤ 57 then digitSegMap[digit - 48]?
    else if 65 ≤ digit ∧ digit ≤ 65 + charSegMap.length - 1 then charSegMap[digit - 65]?
    else if digit = 45 then some segMaskMinus
    else some 0
  return if dp ≠ 0 then m ||| 0x80 else m

/-- sseg.c:178-183 the loop collecting the port masks of the lit segments -/
def ioMaskOf (io : SegIomap) (m : BitVec 8) : BitVec 8 :=
  (List.finRange 8).foldl (fun acc (i : Fin 8) => if m.getLsbD i.val then acc ||| io.masks[i] else acc) 0

/-- sseg.c:150-186 `sseg_digit_set` -/
def ssegDigitSet (d : SsegDigit) (digit : BitVec 8) : Option SsegDigit := do
  let io ← d.iomap
  let m ← charMask digit
  return { d with enSet := ioMaskOf io.segment m }

/-- sseg.c:188-199 `sseg_multiplex` -/
def ssegMultiplex (p : Ports) (src dst : SsegDigit) : Option Ports := do
  let p ← muxWrite p src false
  let p ← segmentWrite p dst
  muxWrite p dst true

/-- sseg.c:208-211 all segment pins of a digit -/
def allSegs (io : SegIomap) : BitVec 8 := (List.finRange 8).foldl (fun acc (i : Fin 8) => acc ||| io.masks[i]) 0

/-- sseg.c:201-223 `sseg_init` -/
def ssegInit (p : Ports) (d : SsegDigit) : Option (Ports × SsegDigit) := do
  let io ← d.iomap
  let m := allSegs io.segment
  let d := { d with enMask := m, enSet := 0 }
  let p ← segmentWrite p d
  let p := p.orBits io.segment.ddr m
  let p ← muxWrite p d false
  return (p.orBits io.muxDdr io.muxMask, d)

/-- sseg.c:225-238 `sseg_exit` -/
def ssegExit (p : Ports) (d : SsegDigit) : Option Ports := do
  let io ← d.iomap
  let p := p.clrBits io.segment.port d.enMask
  let p := p.clrBits io.segment.ddr d.enMask
  let p := p.clrBits io.muxPort io.muxMask
  return p.clrBits io.muxDdr io.muxMask

end Verif
