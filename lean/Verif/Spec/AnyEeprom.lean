import Verif.Spec.Meas
/-
The running firmware with an EEPROM that may contain anything.
-/
namespace Verif.Spec

/-- Every state of the firmware after booting with the EEPROM content `ee`: any buttons pressed, and any sequence of
    interrupts and work calls that the hardware can produce, as long as nothing undefined happens. -/
inductive RunningFrom (c : Conf) (ee : Nat → Nat) : Sys → Prop where
  | boot {pinb s} : boot c ee pinb = some s → RunningFrom c ee s
  | step {s e s'} : RunningFrom c ee s → possible s e = true → step c s e = some s' → RunningFrom c ee s'

/-- The same for any content of the EEPROM. -/
def RunningAny (c : Conf) (s : Sys) : Prop := ∃ ee, RunningFrom c ee s

/-- An erased EEPROM: every byte is 0xFF. -/
def erased : Nat → Nat := fun _ => 0xFF

/-- Byte `a` of the EEPROM is replaced. -/
def poke (ee : Nat → Nat) (a v : Nat) : Nat → Nat := fun x => if x = a then v else ee x

end Verif.Spec
