import Verif.Model.Fixpt
/-
Model of firmware/filter.h and filter.c.  A filter is its accumulator `filter_buf`.
-/
namespace Verif

/-- filter.c:25-37 `lp_filter_u16_run`; returns the new accumulator and the output.
    All values are unsigned; uint24_t arithmetic wraps. -/
def lpU16Run (buf inp : Int) (shift : Nat) : Int × Int :=
  let b := toU24 (buf - buf / 2 ^ shift)
  let b := toU24 (b + inp)
  (b, toU16 (cMin (b / 2 ^ shift) 65535))

/-- filter.h:17-21 `lp_filter_u16_set` (the accumulator is set to the plain value). -/
def lpU16Set (v : Int) : Int := v

/-- filter.c:39-51 `lp_filter_fixpt_run` -/
def lpFixptRun (buf inp div : Int) : Option (Int × Int) := do
  let q ← fixptDiv buf div
  let b ← fixptSub buf q
  let b ← fixptAdd b inp
  let out ← fixptDiv b div
  return (b, out)

/-- filter.h:31-35 `lp_filter_fixpt_set` -/
def lpFixptSet (v : Int) : Int := v

end Verif
