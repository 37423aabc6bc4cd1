import Verif.Spec.Arith
import Verif.Spec.Sys
/-
What the properties about measurement and heating talk about.  Temperatures are in steps of 1/64
degree, currents in steps of 1/64 of 0.1 A.
-/
namespace Verif.Spec

/-- The PWM compare value `ocr` (0..0x1FFF, 0x1FFF = no current, 0 = 5 A) is the one for the
    current `amps`, up to 65/128 of a step. -/
def HeaterAt (ocr amps : Int) : Prop :=
  0 ≤ ocr ∧ ocr ≤ 0x1FFF ∧ 128 * (ocr * (5 * 640) - (5 * 640 - amps) * 0x1FFF).natAbs ≤ 65 * (5 * 640)

instance (ocr amps : Int) : Decidable (HeaterAt ocr amps) := by unfold HeaterAt; infer_instance

/-- The compare value for no current. -/
def HeaterOff (ocr : Int) : Prop := ocr = 0x1FFF

instance (ocr : Int) : Decidable (HeaterOff ocr) := by unfold HeaterOff; infer_instance

/-- The calibration points of the temperature sensor: raw values at 150 C and 480 C. -/
def sensorRaw (c : Conf) : Int × Int := if c.smd then (210, 411) else (209, 410)

/-- The temperature for a raw value: the line through the calibration points, to the nearest step,
    minus the user's adjustment. -/
def TempValue (c : Conf) (raw adj v : Int) : Prop :=
  ∃ n, NearestAway ((480 - 150) * 64 * (raw - (sensorRaw c).1)) ((sensorRaw c).2 - (sensorRaw c).1) n ∧
    v = 150 * 64 + n - adj

/-- A temperature is plausible from -20 C to 500 C. -/
def PlausibleTemp (v : Int) : Prop := -20 * 64 ≤ v ∧ v ≤ 500 * 64

/-- The current for a raw value: 0..65 is 0..1.1 A. -/
def CurrValue (raw v : Int) : Prop := NearestAway (11 * 64 * raw) 65 v

/-- A current is plausible from 0 A to 5 A. -/
def PlausibleCurr (v : Int) : Prop := 0 ≤ v ∧ v ≤ 5 * 640

/-- The adjustment in force: the setting, if the build has one. -/
def adjInForce (c : Conf) (x : Settings) : Int := if c.adj then x.adj else 0

/-- A finished temperature measurement is waiting to be evaluated, and its value is `v`. -/
def TempReady (c : Conf) (s : Sys) (v : Int) : Prop :=
  s.meas.resultAvail = true ∧ s.meas.active = 1 ∧
    TempValue c (s.meas.avgSum / s.meas.avgCount) (adjInForce c s.set.cache) v

/-- The running firmware together with the plausible temperatures it has evaluated, latest first. -/
inductive Observed (c : Conf) : Sys → List Int → Prop where
  | boot {ee pinb s} : ValidEeprom c ee → boot c ee pinb = some s → Observed c s []
  | reads {s s' vs v} : Observed c s vs → TempReady c s v → PlausibleTemp v →
      step c s .measureWork = some s' → Observed c s' (v :: vs)
  | other {s e s' vs} : Observed c s vs → possible s e = true → step c s e = some s' →
      (∀ v, e = .measureWork → TempReady c s v → ¬ PlausibleTemp v) → Observed c s' vs

/-- The running firmware together with the ADC samples taken since the active channel was selected,
    latest first. -/
inductive Sampled (c : Conf) : Sys → List Nat → Prop where
  | boot {ee pinb s} : ValidEeprom c ee → boot c ee pinb = some s → Sampled c s []
  | sample {s s' xs x} : Sampled c s xs → possible s (.adc x) = true →
      step c s (.adc x) = some s' → Sampled c s' (x :: xs)
  | evaluated {s s' xs} : Sampled c s xs → s.meas.resultAvail = true →
      step c s .measureWork = some s' → Sampled c s' []
  | other {s e s' xs} : Sampled c s xs → possible s e = true → step c s e = some s' →
      (∀ x, e ≠ .adc x) → ¬ (e = .measureWork ∧ s.meas.resultAvail = true) → Sampled c s' xs

/-- The running firmware together with the channels whose results have been evaluated (0 the
    current, 1 the temperature), latest first. -/
inductive Results (c : Conf) : Sys → List Nat → Prop where
  | boot {ee pinb s} : ValidEeprom c ee → boot c ee pinb = some s → Results c s []
  | evaluated {s s' l} : Results c s l → s.meas.resultAvail = true →
      step c s .measureWork = some s' → Results c s' (s.meas.active :: l)
  | other {s e s' l} : Results c s l → possible s e = true → step c s e = some s' →
      ¬ (e = .measureWork ∧ s.meas.resultAvail = true) → Results c s' l

/-- For a history of readings (time in ms, plausible or not), latest first: since when there have
    been only implausible ones; nothing if the latest one is plausible. -/
def disturbedSince : List (Nat × Bool) → Option Nat
  | [] => none
  | (_, true) :: _ => none
  | (t, false) :: h => some ((disturbedSince h).getD t)

/-- What a channel reports for the latest of the readings. -/
def verdict (h : List (Nat × Bool)) (T : Nat) : Plaus :=
  match disturbedSince h with
  | none => .plausible
  | some t => if 3000 ≤ T - t then .timeout else .notPlausible

/-- Times of readings, latest first, with gaps of at most 32767 ms. -/
def GapsOk : List Nat → Prop
  | [] => True
  | [_] => True
  | a :: b :: l => b ≤ a ∧ a ≤ b + 32767 ∧ GapsOk (b :: l)

/-- The running firmware together with the time in ms since boot and the history of evaluated
    temperatures: time and whether plausible, latest first. -/
inductive Timed (c : Conf) : Sys → Nat → List (Nat × Bool) → Prop where
  | boot {ee pinb s} : ValidEeprom c ee → boot c ee pinb = some s → Timed c s 0 []
  | tick {s s' T h} : Timed c s T h → step c s .tick = some s' → Timed c s' (T + 1) h
  | reads {s s' T h v b} : Timed c s T h → TempReady c s v → (b = true ↔ PlausibleTemp v) →
      step c s .measureWork = some s' → Timed c s' T ((T, b) :: h)
  | other {s e s' T h} : Timed c s T h → possible s e = true → step c s e = some s' → e ≠ .tick →
      ¬ (e = .measureWork ∧ s.meas.resultAvail = true ∧ s.meas.active = 1) → Timed c s' T h

/-- Smoothing of readings (latest first) over 16 readings: the accumulator and the smoothed value.
    The first reading is taken as it is, and becomes the first content of the accumulator. -/
def smooth : List Int → Int × Int
  | [] => (0, 0)
  | [x] => (x, x)
  | x :: xs => let a := (smooth xs).1; (a - a / 16 + x, (a - a / 16 + x) / 16)

/-- A finished current measurement is waiting to be evaluated, the mean readings evaluated before are
    `xs` (latest first), and its value is `v`. -/
def CurrReady (s : Sys) (xs : List Int) (v : Int) : Prop :=
  s.meas.resultAvail = true ∧ s.meas.active = 0 ∧
    CurrValue (smooth (s.meas.avgSum / s.meas.avgCount :: xs)).2 v

/-- The running firmware together with the time in ms since boot, the mean current readings that have
    been evaluated, and for each the time and whether it was plausible, latest first. -/
inductive CurrHist (c : Conf) : Sys → Nat → List Int → List (Nat × Bool) → Prop where
  | boot {ee pinb s} : ValidEeprom c ee → boot c ee pinb = some s → CurrHist c s 0 [] []
  | tick {s s' T xs h} : CurrHist c s T xs h → step c s .tick = some s' → CurrHist c s' (T + 1) xs h
  | reads {s s' T xs h v b} : CurrHist c s T xs h → CurrReady s xs v → (b = true ↔ PlausibleCurr v) →
      step c s .measureWork = some s' →
      CurrHist c s' T (s.meas.avgSum / s.meas.avgCount :: xs) ((T, b) :: h)
  | other {s e s' T xs h} : CurrHist c s T xs h → possible s e = true → step c s e = some s' →
      e ≠ .tick → ¬ (e = .measureWork ∧ s.meas.resultAvail = true ∧ s.meas.active = 0) →
      CurrHist c s' T xs h

/-- The averaging time of a channel in ms: 5 for the current, 50 for the temperature. -/
def avgTime (ch : Nat) : Nat := if ch = 0 then 5 else 50

/-- The running firmware together with the time in ms since boot and the time at which the active
    channel was selected. -/
inductive Window (c : Conf) : Sys → Nat → Nat → Prop where
  | boot {ee pinb s} : ValidEeprom c ee → boot c ee pinb = some s → Window c s 0 0
  | tick {s s' T a} : Window c s T a → step c s .tick = some s' → Window c s' (T + 1) a
  | evaluated {s s' T a} : Window c s T a → s.meas.resultAvail = true →
      step c s .measureWork = some s' → Window c s' T T
  | other {s e s' T a} : Window c s T a → possible s e = true → step c s e = some s' → e ≠ .tick →
      ¬ (e = .measureWork ∧ s.meas.resultAvail = true) → Window c s' T a

end Verif.Spec
