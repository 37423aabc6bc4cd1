import Verif.Model.Buttons
/-
The handler calls resulting from one sample of the buttons.
-/
namespace Verif

/-- the pin of port B a button is connected to (buttons.c:24-30) -/
def buttonPin : Button → Nat
  | .set => 2
  | .minus => 3
  | .plus => 4
  | .iron => 0

/-- the calls for one button, given whether it was down in the previous sample and is down now -/
def pressCalls (was down : Bool) : List BState :=
  (if down && !was then [.posedge] else if !down && was then [.negedge] else []) ++
    (if down then [.pressed] else [])

theorem buttonMask_bit (b : Button) (x : BitVec 8) :
    x &&& buttonMask b ≠ 0 ↔ x.getLsbD (buttonPin b) = true := by
  cases b <;> (revert x; decide)

theorem buttonsRaw_bit (b : Button) (pinb : BitVec 8) :
    (buttonsRaw pinb).getLsbD (buttonPin b) = !pinb.getLsbD (buttonPin b) := by
  cases b <;> (revert pinb; decide)

theorem buttonsMask_bit (b : Button) : BUTTONS_MASK.getLsbD (buttonPin b) = true := by
  cases b <;> decide

theorem buttonPin_lt (b : Button) : buttonPin b < 8 := by cases b <;> decide

theorem buttonCalls_eq (prev pinb : BitVec 8) :
    buttonCalls (buttonsRaw pinb) ((buttonsRaw pinb &&& ~~~prev) &&& BUTTONS_MASK)
        ((~~~(buttonsRaw pinb) &&& prev) &&& BUTTONS_MASK) =
      [Button.set, .minus, .plus, .iron].flatMap fun b =>
        (pressCalls (prev.getLsbD (buttonPin b)) (!pinb.getLsbD (buttonPin b))).map fun e => (b, e) := by
  unfold buttonCalls
  congr 1
  funext b
  simp only [buttonMask_bit, BitVec.getLsbD_and, BitVec.getLsbD_not, buttonsRaw_bit, buttonsMask_bit,
    buttonPin_lt, decide_true, Bool.true_and, Bool.and_true, Bool.not_not]
  cases prev.getLsbD (buttonPin b) <;> cases pinb.getLsbD (buttonPin b) <;> rfl

end Verif
