import Verif.Spec.Ui
import Verif.Spec.LoopIn
/-
The user interface as a machine of its own (Spec/Ui), when time passes inside the work functions: each thing happens at
some time during the call, in the order of the firmware.
-/
namespace Verif.Spec

/-- One button in a sample between the times `T` and `T'`: nothing happens while it stays up. -/
inductive UiButton (c : Conf) (T T' : Nat) (u : Ui) (b : Button) : Bool → Bool → Ui → Prop where
  | up : T ≤ T' → UiButton c T T' u b false false u
  | held {t} : T ≤ t → t ≤ T' → UiButton c T T' u b true true (u.touch t)
  | down {t t'} : T ≤ t → t ≤ t' → t' ≤ T' → UiButton c T T' u b false true ((u.press t b).touch t')
  | release {t t'} : T ≤ t → t ≤ t' → t' ≤ T' → UiButton c T T' u b true false ((u.touch t).release c t' b)

/-- A sample of the buttons between the times `T` and `T'`: first SET, then minus, then plus. -/
def UiSample (c : Conf) (T T' : Nat) (pinb : BitVec 8) (u u' : Ui) : Prop :=
  ∃ T1 T2 u1 u2 u3, UiButton c T T1 u .set (Down u.pins .set) (Down pinb .set) u1 ∧
    UiButton c T1 T2 u1 .minus (Down u.pins .minus) (Down pinb .minus) u2 ∧
    UiButton c T2 T' u2 .plus (Down u.pins .plus) (Down pinb .plus) u3 ∧ u' = { u3 with pins := pinb }

/-- The screens with limited time are left; the time is looked at at `t`, and the next screen begins at `t'`. -/
def Ui.leaveAt (u : Ui) (t t' : Nat) : Ui :=
  match holdTime u.screen with
  | some L => if u.since + L ≤ t then { u.enter t' (leadsTo u.screen) with ramp := .none } else u
  | none => u

/-- A wait of 1000 ms becomes a change; a change makes a step when one is due, and shows the preset it changes.  The time
    is looked at at `t`; the change, or the display of the preset, begins at `t'`. -/
def Ui.advanceAt (u : Ui) (t t' boost : Nat) : Ui :=
  match u.ramp with
  | .none => u
  | .preUp => if u.rampAt + 1000 ≤ t then { u with ramp := .up, rampAt := t', period := 400 } else u
  | .preDown => if u.rampAt + 1000 ≤ t then { u with ramp := .down, rampAt := t', period := 400 } else u
  | .up | .down =>
    if u.rampAt ≤ t then
      let u' := { u with
        vals := stepValue u.vals boost u.screen (decide (u.ramp = .up))
        rampAt := u.rampAt + u.period
        period := if u.period > 25 then u.period / 2 else u.period }
      if u.screen = .curtemp ∨ u.screen = .selpreset then u'.enter t' .chgpreset else u'
    else u

/-- A call of the menu's work function between the times `T` and `T'`. -/
def UiWork (T T' : Nat) (failed : Bool × Bool) (boost : Nat) (u u' : Ui) : Prop :=
  ∃ t1 t2 t3 t4, T ≤ t1 ∧ t1 ≤ t2 ∧ t2 ≤ t3 ∧ t3 ≤ t4 ∧ t4 ≤ T' ∧
    u' = ((u.leaveAt t1 t2).fail failed).advanceAt t3 t4 boost

/-- What a step of the main loop does to the user interface: a call of `buttons_work` samples the buttons if it finds the
    debouncing time over, a call of `menu_work` does the work, and nothing else matters. -/
inductive UiMoves (c : Conf) (x : LoopI) (e : Option Ev) (y : LoopI) (u : Ui) : Ui → Prop where
  | sample {pinb t u'} : e = some (.buttonsWork pinb) → x.T ≤ t → timerExpired (t % 65536 : Nat) x.s.btn.debounce = true →
      UiSample c t y.T pinb u u' → UiMoves c x e y u u'
  | early {pinb t} : e = some (.buttonsWork pinb) → x.T ≤ t → t ≤ y.T →
      timerExpired (t % 65536 : Nat) x.s.btn.debounce = false → UiMoves c x e y u u
  | work {u'} : e = some .menuWork → UiWork x.T y.T (failures x.s) x.s.ct.boost u u' → UiMoves c x e y u u'
  | other : e ≠ some .menuWork → (∀ pinb, e ≠ some (.buttonsWork pinb)) → UiMoves c x e y u u

end Verif.Spec
