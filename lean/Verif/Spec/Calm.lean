import Verif.Spec.Loop
/-
The life of a device whose settings are not changed while they are being written.
-/
namespace Verif.Spec

/-- Every state the device can get into from the first boot with the shipped EEPROM on, if no setting is changed
    while a store is in progress.  Power can fail at any moment; the byte being programmed is then left with any value
    `v`.  Nothing is assumed about what is found at a reboot. -/
inductive Undisturbed (c : Conf) : Sys → Prop where
  | first {pinb s} : boot c (shippedEeprom c) pinb = some s → Undisturbed c s
  | step {s e s'} : Undisturbed c s → possible s e = true → step c s e = some s' →
      (StartsStore s s' → storing s.set = false) →
      (storing s.set = true → SameVals s.set.cache s'.set.cache) → Undisturbed c s'
  | reboot {s v pinb s'} : Undisturbed c s → v < 256 → boot c (powerFail s.set v) pinb = some s' → Undisturbed c s'

/-- The same for the main loop. -/
inductive CalmLife (v : Speed) (c : Conf) : Loop → Prop where
  | first {pinb s} : boot c (shippedEeprom c) pinb = some s → CalmLife v c ⟨s, .reset, 0, 0, 0, 0, 0⟩
  | step {x e y} : CalmLife v c x → LoopStep c x e y → InTime v y →
      (storing x.s.set = true → SameVals x.s.set.cache y.s.set.cache) → CalmLife v c y
  | reboot {x b pinb s} : CalmLife v c x → b < 256 → boot c (powerFail x.s.set b) pinb = some s →
      CalmLife v c ⟨s, .reset, 0, 0, 0, 0, 0⟩

end Verif.Spec
