import Verif.Spec.Panel
/-
What pressing and releasing the panel buttons means.
-/
namespace Verif.Spec

/-- The button was up in the newest sample and is down in the sample `pinb`. -/
def Pressed (l : List (Nat × BitVec 8)) (pinb : BitVec 8) (b : Button) : Prop :=
  WasDown l b = false ∧ Down pinb b = true

instance (l : List (Nat × BitVec 8)) (pinb : BitVec 8) (b : Button) : Decidable (Pressed l pinb b) :=
  inferInstanceAs (Decidable (_ ∧ _))

/-- The time of the sample since which the button has been down in every sample. -/
def heldSince (b : Button) : List (Nat × BitVec 8) → Option Nat
  | [] => none
  | (T, p) :: l => if Down p b then (if WasDown l b then heldSince b l else some T) else none

/-- The buttons that raise and lower values. -/
def rampButton (up : Bool) : Button := if up then .plus else .minus

/-- A ramp that waits for the button to be held long enough. -/
def waiting (up : Bool) : Ramp := if up then .preUp else .preDown

/-- A ramp in progress. -/
def going (up : Bool) : Ramp := if up then .up else .down

/-- What a press of plus or minus starts in a screen: in the temperature and preset screens a ramp that
    waits, in the screens of a value a ramp in progress, in the other screens nothing. -/
def startsRamp : MenuState → Bool → Option Ramp
  | .curtemp, up | .selpreset, up => some (waiting up)
  | .chgpreset, up | .idletemp, up | .adj, up | .kp, up | .ki, up | .kd, up => some (going up)
  | _, _ => none

/-- At most one of the panel buttons is released in the sample. -/
def OneRelease (l : List (Nat × BitVec 8)) (pinb : BitVec 8) : Prop :=
  ∀ b b', b ≠ .iron → b' ≠ .iron → Released l pinb b → Released l pinb b' → b = b'

end Verif.Spec
