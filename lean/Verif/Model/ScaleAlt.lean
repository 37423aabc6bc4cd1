import Verif.Model.Scale
/-
The implementations in firmware/scale.c which are selected by defining SCALE_IMPL 1, UNSCALE_IMPL 2 and
RESCALE_IMPL 2 (scale.c:25-33).
-/
namespace Verif

/-- scale.c:36-62 `scale` with SCALE_IMPL 1 (int16_t differences are computed in 16-bit int, the casts change
    nothing) -/
def scaleAlt (raw rawLo rawHi physLo physHi : Int) : Option Int := do
  let tmp ← ck16 (rawHi - raw)
  let t ← intToFixptBig tmp
  let a ← fixptBigMul physLo t
  let tmp ← ck16 (raw - rawLo)
  let t ← intToFixptBig tmp
  let b ← fixptBigMul physHi t
  let c ← fixptBigAdd a b
  let tmp ← ck16 (rawHi - rawLo)
  let t ← intToFixptBig tmp
  let ret ← fixptBigDiv c t
  return fixptDeflate ret

/-- scale.c:89-90, 113-134 `unscale` with UNSCALE_IMPL 2 -/
def unscaleAlt (phys physLo physHi rawLo rawHi : Int) : Option Int := do
  let r ← ck16 (rawHi - rawLo)
  let a ← intToFixptBig r
  let b ← fixptBigSub phys physLo
  let c ← fixptBigSub physHi physLo
  let d ← fixptBigMulDiv a b c
  let l ← intToFixptBig rawLo
  let ret ← fixptBigAdd d l
  let i ← fixptToInt (fixptDeflate ret)
  return toS16 i

/-- scale.c:139-140, 167-188 `rescale` with RESCALE_IMPL 2 -/
def rescaleAlt (p0 p0Lo p0Hi p1Lo p1Hi : Int) : Option Int := do
  let a ← fixptBigSub p1Hi p1Lo
  let b ← fixptBigSub p0 p0Lo
  let c ← fixptBigSub p0Hi p0Lo
  let d ← fixptBigMulDiv a b c
  let ret ← fixptBigAdd d p1Lo
  return fixptDeflate ret

end Verif
