import Verif.Model.Int24
import Mathlib.Data.Rat.Defs
/-
Model of the conversions of firmware/simulator/xytronic_simulator.py (and of the functions of pyxytronic.cxx and
simulator.cxx behind them): the temperature and the current given to the simulated ADC, the current read from the PWM,
and the numbers of the settings.  A Python float is modelled as an exact rational number.  An exception is `none`.
-/
namespace Verif

/-- Python `int(_)` of a float: rounding towards zero -/
def pyTrunc (q : Rat) : Int := if q < 0 then -(-q).floor else q.floor

/-- Python `round(_)` of a float: to the nearest integer, a half to the even one -/
def pyRound (q : Rat) : Int :=
  let n := q.floor
  if q - n < 1 / 2 then n
  else if 1 / 2 < q - n then n + 1
  else if n % 2 = 0 then n else n + 1

/-- xytronic_simulator.py:112-119 `__do_scale`; division by zero raises an exception -/
def pyDoScale (raw rawLo rawHi physLo physHi : Rat) : Option Rat :=
  let a := (physHi - physLo) * (raw - rawLo)
  let b := rawHi - rawLo
  if b = 0 then none else some (a / b + physLo)

/-- xytronic_simulator.py:121-123 `__scale` -/
def pyScale (raw rawLo rawHi : Int) (physLo physHi : Rat) : Option Rat := pyDoScale raw rawLo rawHi physLo physHi

/-- xytronic_simulator.py:125-127 `__unscale` -/
def pyUnscale (phys physLo physHi : Rat) (rawLo rawHi : Int) : Option Int :=
  (pyDoScale phys physLo physHi rawLo rawHi).map pyRound

/-- pyxytronic.cxx:69-85 `xy_simulator_adc_set` (the argument is converted to a 32-bit `unsigned int` without a check)
    and simulator.cxx:451-460 `simulator_adc_set`: the value of the channel, which all conversions yield -/
def simAdcSet (value : Int) : Int := toU16 (cMin (toU32 value) 65535)

/-- xytronic_simulator.py:96-102 `adc_temp_set`: the value of channel 1 -/
def simTempSet (degree : Rat) : Option Int := (pyUnscale degree 150 480 210 411).map simAdcSet

/-- xytronic_simulator.py:104-110 `adc_current_set`: the value of channel 2 -/
def simCurrSet (amps : Rat) : Option Int := (pyUnscale amps 0 (11 / 10) 0 65).map simAdcSet

/-- simulator.cxx:440-449 `simulator_pwm_get` and xytronic_simulator.py:87-94 `pwm_current_get`, from the registers OCR1A
    and ICR1 -/
def simPwmGet (ocr icr : Int) : Option Rat := pyScale ocr icr 0 0 5

/-- xytronic_simulator.py:141-146 `__floatToFixpt` -/
def pyFloatToFixpt (f : Rat) : Int := if f < 0 then pyTrunc (f * 64 - 1 / 2) else pyTrunc (f * 64 + 1 / 2)

/-- xytronic_simulator.py:148-165 `__fixptToFloat`; `fixpt & (1 << 23)` tests bit 23 of the number (a Python integer is
    in two's complement without end), `(~fixpt + 1) & mask` is the remainder of `-fixpt` modulo 2^24; of a number that is
    not negative the masks select the bits 6 to 23 and 0 to 5 -/
def pyFixptToFloat (fixpt : Int) : Rat :=
  let fixpt := if fixpt / 8388608 % 2 = 1 then -(-fixpt % 16777216) else fixpt
  let fact := if fixpt < 0 then -1 else 1
  let fixpt := fixpt * fact
  let f : Rat := (fixpt % 16777216 / 64 : Int)
  let f := f + (fixpt % 64 : Int) / 64
  f * (fact : Int)

end Verif
