import Verif.Spec.Loop
/-
The rate of the ADC.
-/
namespace Verif.Spec

/-- Every state of the main loop when the ADC finishes at most `N` conversions in a tick, together with the conversions
    finished since the last tick.  Here the ADC interrupts whenever it is on; nothing is assumed about the number of
    conversions which the firmware has counted. -/
inductive RatedRun (v : Speed) (c : Conf) (N : Nat) : Loop → Nat → Prop where
  | boot {ee pinb s} : ValidEeprom c ee → boot c ee pinb = some s → RatedRun v c N ⟨s, .reset, 0, 0, 0, 0, 0⟩ 0
  | adc {x k raw s'} : RatedRun v c N x k → k < N → x.s.meas.adcOn = true → raw < 1024 →
      step c x.s (.adc raw) = some s' → InTime v (x.after (.adc raw) s') → RatedRun v c N (x.after (.adc raw) s') (k + 1)
  | other {x k e y} : RatedRun v c N x k → LoopStep c x e y → InTime v y → (∀ raw, e ≠ some (.adc raw)) →
      RatedRun v c N y (if e = some .tick then 0 else k)

end Verif.Spec
