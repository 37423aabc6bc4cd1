import Verif.Spec.Sys
import Verif.Spec.Settings
import Verif.Spec.Meas
/-
The running firmware over its whole life, with power failures and reboots, and with the time of the
latest request to store the settings.
-/
namespace Verif.Spec

/-- the step starts a store of the settings: it serves the pending request -/
def StartsStore (s s' : Sys) : Prop := s.set.storeRequest = true ∧ s'.set.storeRequest = false

/-- Every state the device can get into from the first boot with the shipped EEPROM on.  Power can fail at
    any moment; the byte being programmed is then left with any value `v`.  As everywhere (finding F4)
    the settings found at a reboot are assumed to be within the limits.  A store is assumed to have finished
    before the next one starts (C27: starts are at least 1000 ms apart; a store takes at most
    64 * 3.4 ms). -/
inductive Lasting (c : Conf) : Sys → Prop where
  | first {pinb s} : boot c (shippedEeprom c) pinb = some s → Lasting c s
  | step {s e s'} : Lasting c s → possible s e = true → step c s e = some s' →
      (StartsStore s s' → storing s.set = false) → Lasting c s'
  | reboot {s v pinb s'} : Lasting c s → v < 256 → ValidEeprom c (powerFail s.set v) →
      boot c (powerFail s.set v) pinb = some s' → Lasting c s'

/-- The time of the latest pending request after a step at time `T` that changed no setting, given the one
    before: none if none is pending; a new one if the timer has been armed again. -/
def latestRequest (s s' : Sys) (T : Nat) (r : Option Nat) : Option Nat :=
  if s'.set.storeRequest = false then none
  else if s.set.storeRequest = true ∧ s'.set.storeTimer = s.set.storeTimer then r
  else some T

/-- The running firmware together with the time in ms since boot and the time of the latest change of
    the settings, or repeated request, which has not been served by a store. -/
inductive Unsaved (c : Conf) : Sys → Nat → Option Nat → Prop where
  | boot {ee pinb s} : ValidEeprom c ee → boot c ee pinb = some s → Unsaved c s 0 none
  | tick {s s' T r} : Unsaved c s T r → step c s .tick = some s' → Unsaved c s' (T + 1) r
  | change {s e s' T r} : Unsaved c s T r → possible s e = true → step c s e = some s' →
      ¬ SameVals s.set.cache s'.set.cache → Unsaved c s' T (some T)
  | other {s e s' T r} : Unsaved c s T r → possible s e = true → step c s e = some s' → e ≠ .tick →
      SameVals s.set.cache s'.set.cache → Unsaved c s' T (latestRequest s s' T r)

end Verif.Spec
