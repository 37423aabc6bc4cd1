import Verif.Spec.LoopIn
/-
The rate of the ADC, with interrupts inside the work functions.
-/
namespace Verif.Spec

/-- The ADC finishes a conversion at the tick `D` (the step of Model/LoopIn without the assumption about the number of
    conversions which the firmware has counted). -/
def converts (x : LoopI) (raw : Nat) : LoopI :=
  { x with s := { x.s with meas := adcIsr (toU16 (x.s.now - (x.T - x.D : Nat))) x.s.meas raw }, conv := x.D }

/-- Every state of the main loop when the ADC finishes at most `N` conversions in a tick, together with the conversions
    finished in the tick up to which it has been followed.  Here the ADC interrupts whenever it is on; nothing is assumed
    about the number of conversions which the firmware has counted. -/
inductive RatedRunI (v : Speed) (c : Conf) (N : Nat) : LoopI → Nat → Prop where
  | boot {ee pinb s} : ValidEeprom c ee → boot c ee pinb = some s → RatedRunI v c N ⟨s, .reset, 0, 0, 0, 0, 0⟩ 0
  | adc {x k raw} : RatedRunI v c N x k → k < N → x.s.meas.adcOn = true → raw < 1024 →
      InTimeI v (converts x raw) → RatedRunI v c N (converts x raw) (k + 1)
  | other {x k e y} : RatedRunI v c N x k → LoopIStep c x e y → InTimeI v y → (∀ raw, e ≠ some (.adc raw)) →
      RatedRunI v c N y (if y.D = x.D then k else 0)

end Verif.Spec
