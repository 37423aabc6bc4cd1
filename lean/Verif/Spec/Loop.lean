import Verif.Model.Loop
import Verif.Spec.Sys
import Verif.Spec.Meas
import Verif.Spec.Lasting
import Verif.Spec.Panel
/-
The main loop in real time.
-/
namespace Verif.Spec

/-- What is assumed about the speed of the main loop and of the hardware (in ticks, i.e. ms): the watchdog, which
    would reset the device otherwise, is reset at least every `W`; while the ADC is converting, it finishes a
    conversion at least every `A`; while the EEPROM writer is busy, it makes a step at least every `B`. -/
structure Speed where
  W : Nat
  A : Nat
  B : Nat

/-- The 250 ms watchdog (main.c:134), 1 ms for a conversion (13 clocks at 125 kHz), 4 ms for an EEPROM byte; in
    ticks of 1.008 ms (finding F9) all of them are a little less.  In builds with debug output the watchdog is also
    reset while waiting for the serial line (debug_uart.c:49). -/
def Speed.shipped : Speed := ⟨250, 1, 4⟩

/-- An evaluation period: 5 ms and 50 ms of averaging, the last conversion of each, and two rounds of the loop until
    each is evaluated. -/
def Speed.period (v : Speed) : Nat := 5 + 50 + 2 * v.A + 4 * v.W

/-- A generous limit for the speed, under which the 16-bit timers cannot be misread. -/
def Speed.Sane (v : Speed) : Prop := v.period ≤ 32767 ∧ 128 * v.B < 1000

/-- The loop is not slower than assumed. -/
def InTime (v : Speed) (x : Loop) : Prop :=
  x.T ≤ x.reset + v.W ∧ (x.s.meas.adcOn = true → x.T ≤ x.conv + v.A) ∧
  ((possible x.s .eeIsr = true ∨ possible x.s .eeDone = true) → x.T ≤ x.ee + v.B)

/-- Every state of the main loop. -/
inductive LoopRun (v : Speed) (c : Conf) : Loop → Prop where
  | boot {ee pinb s} : ValidEeprom c ee → boot c ee pinb = some s → LoopRun v c ⟨s, .reset, 0, 0, 0, 0, 0⟩
  | step {x e y} : LoopRun v c x → LoopStep c x e y → InTime v y → LoopRun v c y

/-- A stretch of the execution from `x` on in which no step has the property `P`. -/
inductive Stretch (v : Speed) (c : Conf) (P : Loop → Option Ev → Loop → Prop) (x : Loop) : Loop → Prop where
  | start : Stretch v c P x x
  | step {y e z} : Stretch v c P x y → LoopStep c y e z → InTime v z → ¬ P y e z → Stretch v c P x z

/-- The step calls the work function of the statement `p`. -/
def Calls (p : Pc) (_ : Loop) (e : Option Ev) (_ : Loop) : Prop := ∃ f pinb, e = some f ∧ p.call pinb = some f

/-- The step evaluates the measurement of a channel (0: current, 1: temperature). -/
def EvaluatesCh (ch : Nat) (x : Loop) (e : Option Ev) (_ : Loop) : Prop :=
  e = some .measureWork ∧ x.s.meas.resultAvail = true ∧ x.s.meas.active = ch

/-- The step changes a setting, or requests (again) that the settings be stored. -/
def Requests (x : Loop) (_ : Option Ev) (y : Loop) : Prop :=
  ¬ SameVals x.s.set.cache y.s.set.cache ∨
  (y.s.set.storeRequest = true ∧ (x.s.set.storeRequest = false ∨ y.s.set.storeTimer ≠ x.s.set.storeTimer))

/-- Every state of the main loop, together with the temperatures evaluated since boot: time and whether plausible,
    latest first. -/
inductive LoopTemps (v : Speed) (c : Conf) : Loop → List (Nat × Bool) → Prop where
  | boot {ee pinb s} : ValidEeprom c ee → boot c ee pinb = some s → LoopTemps v c ⟨s, .reset, 0, 0, 0, 0, 0⟩ []
  | reads {x y h t b} : LoopTemps v c x h → LoopStep c x (some .measureWork) y → InTime v y → TempReady c x.s t →
      (b = true ↔ PlausibleTemp t) → LoopTemps v c y ((x.T, b) :: h)
  | other {x e y h} : LoopTemps v c x h → LoopStep c x e y → InTime v y → ¬ EvaluatesCh 1 x e y → LoopTemps v c y h

/-- Every state of the main loop, together with the mean current readings evaluated since boot, and for each the time
    and whether it was plausible, latest first. -/
inductive LoopCurrs (v : Speed) (c : Conf) : Loop → List Int → List (Nat × Bool) → Prop where
  | boot {ee pinb s} : ValidEeprom c ee → boot c ee pinb = some s → LoopCurrs v c ⟨s, .reset, 0, 0, 0, 0, 0⟩ [] []
  | reads {x y xs h t b} : LoopCurrs v c x xs h → LoopStep c x (some .measureWork) y → InTime v y →
      CurrReady x.s xs t → (b = true ↔ PlausibleCurr t) →
      LoopCurrs v c y (x.s.meas.avgSum / x.s.meas.avgCount :: xs) ((x.T, b) :: h)
  | other {x e y xs h} : LoopCurrs v c x xs h → LoopStep c x e y → InTime v y → ¬ EvaluatesCh 0 x e y →
      LoopCurrs v c y xs h

/-- Every state of the main loop over the whole life of the device, from the first boot with the shipped EEPROM on.
    Power can fail at any moment; the byte being programmed is then left with any value `b`.  As everywhere (finding
    F4) the settings found at a reboot are assumed to be within the limits. -/
inductive LoopLife (v : Speed) (c : Conf) : Loop → Prop where
  | first {pinb s} : boot c (shippedEeprom c) pinb = some s → LoopLife v c ⟨s, .reset, 0, 0, 0, 0, 0⟩
  | step {x e y} : LoopLife v c x → LoopStep c x e y → InTime v y → LoopLife v c y
  | reboot {x b pinb s} : LoopLife v c x → b < 256 → ValidEeprom c (powerFail x.s.set b) →
      boot c (powerFail x.s.set b) pinb = some s → LoopLife v c ⟨s, .reset, 0, 0, 0, 0, 0⟩

/-- The step evaluates a temperature which is not above 480 C (and at most 500 C), or happens on a tuning screen. -/
def NotHot (c : Conf) (x : Loop) (e : Option Ev) (y : Loop) : Prop :=
  (EvaluatesCh 1 x e y ∧ ¬ ∃ t, TempReady c x.s t ∧ 480 * 64 < t ∧ t ≤ 500 * 64) ∨ Tuning x.s.menu.state = true

/-- Every state of the main loop, together with the samples of the buttons taken since boot (time and pins, the newest
    first) and the time `a` since when the screen has been there; in the preset and idle temperature screens, which a
    touched button keeps alive, since when nothing was touched. -/
inductive LoopPanel (v : Speed) (c : Conf) : Loop → List (Nat × BitVec 8) → Nat → Prop where
  | boot {ee pinb s} : ValidEeprom c ee → boot c ee pinb = some s → LoopPanel v c ⟨s, .reset, 0, 0, 0, 0, 0⟩ [] 0
  | sample {x y l a pinb} : LoopPanel v c x l a → LoopStep c x (some (.buttonsWork pinb)) y → InTime v y →
      Samples x.s (.buttonsWork pinb) pinb →
      LoopPanel v c y ((x.T, pinb) :: l)
        (if y.s.menu.state ≠ x.s.menu.state ∨ (holdTime x.s.menu.state = some 3000 ∧ touched l pinb = true)
         then x.T else a)
  | other {x e y l a} : LoopPanel v c x l a → LoopStep c x e y → InTime v y →
      (∀ f pinb, e = some f → ¬ Samples x.s f pinb) →
      LoopPanel v c y l (if y.s.menu.state ≠ x.s.menu.state then x.T else a)

end Verif.Spec
