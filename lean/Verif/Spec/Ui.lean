import Verif.Spec.Press
import Verif.Spec.Loop
/-
The user interface as a machine of its own: what the panel buttons and the passing of time do to the screen, to a value
being changed, to the settings and to the debug switch.
-/
namespace Verif.Spec

/-- The state of the user interface, with times in ms since boot. -/
structure Ui where
  /-- what is displayed -/
  screen : MenuState
  /-- since when; in the preset and idle temperature screens since the last touch of a button -/
  since : Nat
  /-- the change of a value by a held button -/
  ramp : Ramp
  /-- while it waits: since when the button has been held; while it goes on: when the next step is due -/
  rampAt : Nat
  /-- the time between the next step and the one after it -/
  period : Nat
  vals : Settings
  debug : Bool
  /-- the failure on display: of the current measurement, of the temperature measurement -/
  failed : Bool × Bool
  /-- the latest sample of the buttons -/
  pins : BitVec 8

/-- At boot: no button is known to be down, nothing is being changed and no failure is displayed.  A build with debug
    interface starts with it if SET is held (`debug`). -/
def uiStart (vals : Settings) (debug : Bool) : Ui :=
  ⟨if debug then .debug else .curtemp, 0, .none, 0, 0, vals, debug, (false, false), 0xFF⟩

/-- Another screen. -/
def Ui.enter (u : Ui) (T : Nat) (m : MenuState) : Ui := { u with screen := m, since := T }

/-- A button is touched: the screens that last 3000 ms stay. -/
def Ui.touch (u : Ui) (T : Nat) : Ui := if holdTime u.screen = some 3000 then { u with since := T } else u

/-- A button goes down: plus and minus begin to change a value (after a wait, or at once), and switch debugging. -/
def Ui.press (u : Ui) (T : Nat) (b : Button) : Ui :=
  if b = .set then u
  else if u.screen = .debug then { u with debug := decide (b = .plus) }
  else match startsRamp u.screen (decide (b = .plus)) with
  | some r => { u with ramp := r, rampAt := T, period := 400 }
  | none => u

/-- A button goes up: any change of a value ends; SET leads to the next screen, unless debugging is on; plus and minus
    lead from the temperature to the presets, and there select the next or the previous one. -/
def Ui.release (u : Ui) (c : Conf) (T : Nat) (b : Button) : Ui :=
  let u := { u with ramp := .none }
  if b = .set then if u.debug then u else u.enter T (nextScreen c u.screen)
  else if u.screen = .curtemp then u.enter T .selpreset
  else if u.screen = .selpreset then
    { u with vals := { u.vals with active := (if b = .plus then u.vals.active + 1 else u.vals.active + 5) % 6 } }
  else u

/-- One button in a sample at the time `T`: nothing happens while it stays up. -/
def Ui.button (u : Ui) (c : Conf) (T : Nat) (b : Button) (was down : Bool) : Ui :=
  match was, down with
  | false, false => u
  | true, true => u.touch T
  | false, true => (u.touch T).press T b
  | true, false => (u.touch T).release c T b

/-- A sample of the buttons at the time `T`: first SET, then minus, then plus. -/
def Ui.sample (u : Ui) (c : Conf) (T : Nat) (pinb : BitVec 8) : Ui :=
  let was := u.pins
  { (((u.button c T .set (Down was .set) (Down pinb .set)).button c T .minus (Down was .minus) (Down pinb .minus)).button
      c T .plus (Down was .plus) (Down pinb .plus)) with pins := pinb }

/-- The screens with limited time are left; what was being changed there is not changed further. -/
def Ui.leave (u : Ui) (T : Nat) : Ui :=
  match holdTime u.screen with
  | some L => if u.since + L ≤ T then { u.enter T (leadsTo u.screen) with ramp := .none } else u
  | none => u

/-- A failure that comes or goes ends the change of a value. -/
def Ui.fail (u : Ui) (failed : Bool × Bool) : Ui :=
  if failed = u.failed then u else { u with failed := failed, ramp := .none }

/-- One step of the value on the screen, within its limits; `boost` is the boost mode whose factors are tuned. -/
def stepValue (x : Settings) (boost : Nat) (m : MenuState) (up : Bool) : Settings :=
  match valueRange m, valueIn x boost m with
  | some (inc, lo, hi), some w => withValue x boost (max lo (min hi (if up then w + inc else w - inc))) m
  | _, _ => x

/-- A wait of 1000 ms becomes a change; a change makes a step when one is due, and shows the preset it changes. -/
def Ui.advance (u : Ui) (T boost : Nat) : Ui :=
  match u.ramp with
  | .none => u
  | .preUp => if u.rampAt + 1000 ≤ T then { u with ramp := .up, rampAt := T, period := 400 } else u
  | .preDown => if u.rampAt + 1000 ≤ T then { u with ramp := .down, rampAt := T, period := 400 } else u
  | .up | .down =>
    if u.rampAt ≤ T then
      let u' := { u with
        vals := stepValue u.vals boost u.screen (decide (u.ramp = .up))
        rampAt := u.rampAt + u.period
        period := if u.period > 25 then u.period / 2 else u.period }
      if u.screen = .curtemp ∨ u.screen = .selpreset then u'.enter T .chgpreset else u'
    else u

/-- A call of the menu's work function at the time `T`. -/
def Ui.work (u : Ui) (T : Nat) (failed : Bool × Bool) (boost : Nat) : Ui := ((u.leave T).fail failed).advance T boost

/-- The failures that are displayed: a wrong current, no sensible temperature for too long. -/
def failures (s : Sys) : Bool × Bool := (s.cc.emerg.getLsbD 0, s.ct.emergency)

/-- Every state of the main loop, with the state that the user interface should have: it moves with the samples of the
    buttons and the calls of the menu's work function, and with nothing else. -/
inductive LoopUi (v : Speed) (c : Conf) : Loop → Ui → Prop where
  | boot {ee pinb s} : ValidEeprom c ee → boot c ee pinb = some s →
      LoopUi v c ⟨s, .reset, 0, 0, 0, 0, 0⟩ (uiStart s.set.cache (c.debug && Down pinb .set))
  | sample {x y u pinb} : LoopUi v c x u → LoopStep c x (some (.buttonsWork pinb)) y → InTime v y →
      Samples x.s (.buttonsWork pinb) pinb → LoopUi v c y (u.sample c x.T pinb)
  | work {x y u} : LoopUi v c x u → LoopStep c x (some .menuWork) y → InTime v y →
      LoopUi v c y (u.work x.T (failures x.s) x.s.ct.boost)
  | other {x e y u} : LoopUi v c x u → LoopStep c x e y → InTime v y → e ≠ some .menuWork →
      (∀ f pinb, e = some f → ¬ Samples x.s f pinb) → LoopUi v c y u

/-- The firmware shows and does what the user interface says. -/
structure Agrees (s : Sys) (u : Ui) : Prop where
  screen : s.menu.state = u.screen
  ramp : s.menu.ramp = u.ramp
  vals : SameVals s.set.cache u.vals
  debug : s.debugEn = u.debug

end Verif.Spec
