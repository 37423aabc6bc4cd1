import Verif.Model.Fixpt
/-
Model of firmware/scale.c with the default implementations
SCALE_IMPL 2, UNSCALE_IMPL 1, RESCALE_IMPL 1 (scale.c:25-33); the alternative
implementations, which are not compiled, are in Model/ScaleAlt.
-/
namespace Verif

/-- scale.c:36-37, 64-83 `scale` (int16_t differences are computed in 16-bit int). -/
def scale (raw rawLo rawHi physLo physHi : Int) : Option Int := do
  let a ← fixptBigSub physHi physLo
  let r ← ck16 (raw - rawLo)
  let b ← intToFixptBig r
  let s ← ck16 (rawHi - rawLo)
  let c ← intToFixptBig s
  let d ← fixptBigMulDiv a b c
  let ret ← fixptBigAdd d physLo
  return fixptDeflate ret

/-- scale.c:89-111 `unscale` -/
def unscale (phys physLo physHi rawLo rawHi : Int) : Option Int := do
  let a ← fixptBigSub physHi phys
  let rl ← intToFixptBig rawLo
  let a ← fixptBigMul a rl
  let b ← fixptBigSub phys physLo
  let rh ← intToFixptBig rawHi
  let b ← fixptBigMul b rh
  let s ← fixptBigAdd a b
  let w ← fixptBigSub physHi physLo
  let c ← fixptBigDiv s w
  let i ← fixptBigToInt c
  return toS16 i

/-- scale.c:139-165 `rescale` -/
def rescale (p0 p0Lo p0Hi p1Lo p1Hi : Int) : Option Int := do
  let a ← fixptBigSub p0Hi p0
  let a ← fixptBigMul p1Lo a
  let b ← fixptBigSub p0 p0Lo
  let b ← fixptBigMul p1Hi b
  let c ← fixptBigAdd a b
  let d ← fixptBigSub p0Hi p0Lo
  let ret ← fixptBigDiv c d
  return fixptDeflate ret

end Verif
