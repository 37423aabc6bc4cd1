/-
Model of firmware/bitmap.h and bitmap.c.  A bit map is its list of bytes; an access
outside of the array is undefined (`none`).
-/
namespace Verif

/-- bitmap.c:25-27 `_bit_to_mask8` -/
def bitToMask8 : List (BitVec 8) := [0x01, 0x02, 0x04, 0x08, 0x10, 0x20, 0x40, 0x80]

/-- bitmap.h:11 `DEFINE_BITMAP(name, nr_bits)` zero-initialised: `nr_bits / 8` bytes. -/
def bmDefine (nrBits : Nat) : List (BitVec 8) := List.replicate (nrBits / 8) 0

/-- bitmap.h:29-34 `bm_get_bit` (the table lookup variant of BITMASK8, bitmap.h:19-23; the
    compile-time variant `1u << bitnr` has the same value for bitnr < 8). -/
def bmGetBit (bm : List (BitVec 8)) (bitNumber : Nat) : Option (BitVec 8) := do
  let b ← bm[bitNumber / 8]?
  let m ← bitToMask8[bitNumber % 8]?
  return b &&& m

/-- bitmap.h:40-43 `bm_get_bool` -/
def bmGetBool (bm : List (BitVec 8)) (bitNumber : Nat) : Option Bool := do
  let b ← bmGetBit bm bitNumber
  return b != 0

/-- bitmap.h:46-51 `bm_set_bit` -/
def bmSetBit (bm : List (BitVec 8)) (bitNumber : Nat) : Option (List (BitVec 8)) := do
  let b ← bm[bitNumber / 8]?
  let m ← bitToMask8[bitNumber % 8]?
  return bm.set (bitNumber / 8) (b ||| m)

/-- bitmap.h:54-59 `bm_clear_bit` -/
def bmClearBit (bm : List (BitVec 8)) (bitNumber : Nat) : Option (List (BitVec 8)) := do
  let b ← bm[bitNumber / 8]?
  let m ← bitToMask8[bitNumber % 8]?
  return bm.set (bitNumber / 8) (b &&& ~~~m)

/-- bitmap.h:62-69 `bm_write_bit` -/
def bmWriteBit (bm : List (BitVec 8)) (bitNumber : Nat) (value : Bool) :
    Option (List (BitVec 8)) :=
  if value then bmSetBit bm bitNumber else bmClearBit bm bitNumber

/-- bitmap.h:72-78 `bm_init` -/
def bmInit (bm : List (BitVec 8)) (allSet : Bool) : List (BitVec 8) :=
  List.replicate bm.length (if allSet then 0xFF else 0)

end Verif
