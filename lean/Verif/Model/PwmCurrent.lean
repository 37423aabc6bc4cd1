import Verif.Model.Scale
/-
Model of firmware/pwm_current.c.
-/
namespace Verif

/-- pwm_current.c:33 `PWMCURR_MAX_DUTY` -/
def PWMCURR_MAX_DUTY : Int := 0x1FFF

/-- controller_current.h:8,20 `float_to_fixpt(CONTRCURR_NEGLIM)`: AMPERE(0) = 0 * 10 -/
def CURR_NEGLIM : Int := 0
/-- controller_current.h:8,21 `float_to_fixpt(CONTRCURR_POSLIM)`: AMPERE(5) = 50.0, times 64 -/
def CURR_POSLIM : Int := 3200

/-- pwm_current.c:36-52 `pwmcurr_set`: the value written to OCR1A. -/
def pwmDuty (amps : Int) : Option Int := do
  let d ← unscale amps CURR_NEGLIM CURR_POSLIM PWMCURR_MAX_DUTY 0
  return toU16 d

end Verif
