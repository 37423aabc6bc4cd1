import Verif.Spec.Control
/-
What the properties about the buttons and the menu talk about.
-/
namespace Verif.Spec

/-- The button's pin of port B is low: SET is PB2, minus PB3, plus PB4, the iron's switch PB0. -/
def Down (pinb : BitVec 8) : Button → Bool
  | .set => !pinb.getLsbD 2
  | .minus => !pinb.getLsbD 3
  | .plus => !pinb.getLsbD 4
  | .iron => !pinb.getLsbD 0

/-- The running firmware together with the time `T` in ms since boot and the samples of the buttons
    taken so far (time and pins), the newest first. -/
inductive PinHist (c : Conf) : Sys → Nat → List (Nat × BitVec 8) → Prop where
  | boot {ee pinb s} : ValidEeprom c ee → boot c ee pinb = some s → PinHist c s 0 []
  | tick {s s' T l} : PinHist c s T l → step c s .tick = some s' → PinHist c s' (T + 1) l
  | sample {s s' T l pinb} : PinHist c s T l → Samples s (.buttonsWork pinb) pinb →
      step c s (.buttonsWork pinb) = some s' → PinHist c s' T ((T, pinb) :: l)
  | other {s e s' T l} : PinHist c s T l → possible s e = true → step c s e = some s' → e ≠ .tick →
      (∀ pinb, ¬ Samples s e pinb) → PinHist c s' T l

/-- The button was down in the newest sample. -/
def WasDown (l : List (Nat × BitVec 8)) (b : Button) : Bool :=
  match l with
  | [] => false
  | x :: _ => Down x.2 b

/-- The events of one button in one sample: an edge if it changed, then `pressed` if it is down. -/
def eventsOf (was down : Bool) : List BState :=
  match was, down with
  | false, false => []
  | false, true => [.posedge, .pressed]
  | true, true => [.pressed]
  | true, false => [.negedge]

/-- Well-formed event sequences of a button that is up (`false`) or down (`true`): press and release
    edges alternate and `pressed` comes only while the button is down. -/
def WellFormed : Bool → List BState → Prop
  | _, [] => True
  | false, .posedge :: l => WellFormed true l
  | true, .pressed :: l => WellFormed true l
  | true, .negedge :: l => WellFormed false l
  | _, _ => False

/-- All events of a button for a sequence of samples (oldest first). -/
def eventStream (b : Button) : Bool → List (BitVec 8) → List BState
  | _, [] => []
  | was, p :: ps => eventsOf was (Down p b) ++ eventStream b (Down p b) ps

/-- How long a screen stays without activity, in ms; `none` for the screens that stay. -/
def holdTime : MenuState → Option Nat
  | .selpreset | .chgpreset | .idletemp => some 3000
  | .adjPre | .kpPre | .kiPre | .kdPre => some 1500
  | _ => none

/-- Where a screen with limited time leads to: the announced screen, or the temperature. -/
def leadsTo : MenuState → MenuState
  | .adjPre => .adj
  | .kpPre => .kp
  | .kiPre => .ki
  | .kdPre => .kd
  | _ => .curtemp

/-- The screens in the order in which SET goes through them. -/
def screenOrder : List MenuState :=
  [.curtemp, .idletemp, .debug, .adjPre, .adj, .kpPre, .kp, .kiPre, .ki, .kdPre, .kd]

/-- The screen after a release of SET: the next one of the order that the build has; after the last one, and
    from the preset screens, the temperature. -/
def nextScreen (c : Conf) (t : MenuState) : MenuState :=
  (((screenOrder.dropWhile fun x => x ≠ t).drop 1).find? (ScreenExists c)).getD .curtemp

/-- The button was down in the newest sample and is up in the sample `pinb`. -/
def Released (l : List (Nat × BitVec 8)) (pinb : BitVec 8) (b : Button) : Prop :=
  WasDown l b = true ∧ Down pinb b = false

instance (l : List (Nat × BitVec 8)) (pinb : BitVec 8) (b : Button) : Decidable (Released l pinb b) :=
  inferInstanceAs (Decidable (_ ∧ _))

/-- One of the panel buttons is down in the sample `pinb`, or was down in the sample before. -/
def touched (l : List (Nat × BitVec 8)) (pinb : BitVec 8) : Bool :=
  [Button.set, .minus, .plus].any fun b => Down pinb b || WasDown l b

/-- The running firmware with its samples of the buttons, together with the time `a` since when the screen has
    been there; in the preset and idle temperature screens, which a touched button keeps alive, since when
    nothing was touched. -/
inductive ScreenHist (c : Conf) : Sys → Nat → List (Nat × BitVec 8) → Nat → Prop where
  | boot {ee pinb s} : ValidEeprom c ee → boot c ee pinb = some s → ScreenHist c s 0 [] 0
  | tick {s s' T l a} : ScreenHist c s T l a → step c s .tick = some s' → ScreenHist c s' (T + 1) l a
  | sample {s s' T l a pinb} : ScreenHist c s T l a → Samples s (.buttonsWork pinb) pinb →
      step c s (.buttonsWork pinb) = some s' →
      ScreenHist c s' T ((T, pinb) :: l)
        (if s'.menu.state ≠ s.menu.state ∨ (holdTime s.menu.state = some 3000 ∧ touched l pinb = true)
         then T else a)
  | other {s e s' T l a} : ScreenHist c s T l a → possible s e = true → step c s e = some s' → e ≠ .tick →
      (∀ pinb, ¬ Samples s e pinb) → ScreenHist c s' T l (if s'.menu.state ≠ s.menu.state then T else a)

/-- The running firmware with its samples of the buttons and the number `n` of releases of SET since the
    temperature was last displayed.  Releases count while debugging is off and if no other panel button is
    released in the same sample. -/
inductive SetCount (c : Conf) : Sys → List (Nat × BitVec 8) → Nat → Prop where
  | boot {ee pinb s} : ValidEeprom c ee → boot c ee pinb = some s → SetCount c s [] 0
  | sample {s s' l n pinb} (T : Nat) : SetCount c s l n → Samples s (.buttonsWork pinb) pinb →
      step c s (.buttonsWork pinb) = some s' →
      SetCount c s' ((T, pinb) :: l)
        (if s'.menu.state = .curtemp then 0
         else if s.debugEn = false ∧ Released l pinb .set ∧ ¬ Released l pinb .minus ∧ ¬ Released l pinb .plus
         then n + 1 else n)
  | other {s e s' l n} : SetCount c s l n → possible s e = true → step c s e = some s' →
      (∀ pinb, ¬ Samples s e pinb) → SetCount c s' l (if s'.menu.state = .curtemp then 0 else n)

/-- When the step number `k` (from 0) of a ramp is due, in ms after its start: the distances are 400, 200,
    100, 50 and from then on 25 ms. -/
def due : Nat → Nat
  | 0 => 0
  | 1 => 400
  | 2 => 600
  | 3 => 700
  | 4 => 750
  | k + 1 => due k + 25

/-- A value is being changed by a held button. -/
def Ramping (r : Ramp) : Bool := r = .up || r = .down

/-- The running firmware together with the time in ms since boot and, while a value is being ramped, the
    time the ramp began and the number of steps due so far.  Each call of the menu's work function is
    good for one step.  The work function is not called so late that the 16-bit time wraps. -/
inductive RampHist (c : Conf) : Sys → Nat → Option (Nat × Nat) → Prop where
  | boot {ee pinb s} : ValidEeprom c ee → boot c ee pinb = some s → RampHist c s 0 none
  | tick {s s' T r} : RampHist c s T r → step c s .tick = some s' → RampHist c s' (T + 1) r
  | start {s e s' T r} : RampHist c s T r → possible s e = true → step c s e = some s' → e ≠ .tick →
      Ramping s'.menu.ramp = true → s'.menu.ramp ≠ s.menu.ramp → RampHist c s' T (some (T, 0))
  | stop {s e s' T r} : RampHist c s T r → possible s e = true → step c s e = some s' → e ≠ .tick →
      Ramping s'.menu.ramp = false → RampHist c s' T none
  | work {s s' T t k} : RampHist c s T (some (t, k)) → step c s .menuWork = some s' →
      s'.menu.ramp = s.menu.ramp → T < t + due k + 32768 →
      RampHist c s' T (some (t, if t + due k ≤ T then k + 1 else k))
  | other {s e s' T r} : RampHist c s T r → possible s e = true → step c s e = some s' → e ≠ .tick →
      e ≠ .menuWork → s'.menu.ramp = s.menu.ramp → RampHist c s' T r

/-- The smallest step of the value set in a screen, and its limits: 1 C for temperatures, 1/32 for kp and kd,
    1/64 for ki.  `none`: nothing to set. -/
def valueRange : MenuState → Option (Int × Int × Int)
  | .curtemp | .selpreset | .chgpreset => some (64, 0, 480 * 64)
  | .idletemp => some (64, 0, 480 * 64)
  | .adj => some (64, -99 * 64, 99 * 64)
  | .kp | .kd => some (2, 0, 99 * 64)
  | .ki => some (1, 0, 9 * 64)
  | _ => none

/-- The value set in a screen; `boost` is the boost mode, whose controller factors are set. -/
def valueIn (x : Settings) (boost : Nat) : MenuState → Option Int
  | .curtemp | .selpreset | .chgpreset => x.sp[x.active]?
  | .idletemp => some x.idleSp
  | .adj => some x.adj
  | .kp => (x.k[boost]?).map (·.kp)
  | .ki => (x.k[boost]?).map (·.ki)
  | .kd => (x.k[boost]?).map (·.kd)
  | _ => none

/-- The settings with the value set in a screen replaced, all others unchanged. -/
def withValue (x : Settings) (boost : Nat) (v : Int) : MenuState → Settings
  | .curtemp | .selpreset | .chgpreset => { x with sp := x.sp.setIfInBounds x.active v }
  | .idletemp => { x with idleSp := v }
  | .adj => { x with adj := v }
  | .kp => { x with k := Vector.ofFn fun i => if i.val = boost then { x.k[i] with kp := v } else x.k[i] }
  | .ki => { x with k := Vector.ofFn fun i => if i.val = boost then { x.k[i] with ki := v } else x.k[i] }
  | .kd => { x with k := Vector.ofFn fun i => if i.val = boost then { x.k[i] with kd := v } else x.k[i] }
  | _ => x

end Verif.Spec
