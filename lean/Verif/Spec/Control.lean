import Verif.Spec.Arith
import Verif.Spec.Sys
/-
What the properties about the controllers talk about.  Temperatures are in steps of 1/64 degree,
currents in steps of 1/64 of 0.1 A, times in ms.
-/
namespace Verif.Spec

/-- The current demanded for a temperature controller output `y`: 1/50 A per degree to the nearest
    step, at most 5 A, which is reached at 250 C. -/
def CurrentFor (y a : Int) : Prop :=
  (y ≤ 250 * 64 → NearestAway (y * 640) (50 * 64) a) ∧ (250 * 64 ≤ y → a = 5 * 640)

/-- One step of a first-order low-pass filter over `k` samples with stored sum `m` and input `x`:
    the new sum `m'` and the output `r`. -/
def Lowpass (k m x m' r : Int) : Prop :=
  (∃ q, NearestAway m k q ∧ m' = m - q + x) ∧ NearestAway m' k r

/-- The model is being brought to the measurement `x`: the filter follows `x` over 24 samples, and the
    measurement is used again as soon as the model is less than 0.1 A off. -/
def Resync (m x r : Int) (st' : RState) (m' : Int) : Prop :=
  Lowpass 24 m x m' r ∧ st' = if (r - x).natAbs < 64 then .enabled else .syncing

/-- Which feedback `r` the current controller uses for the measurement `x`, and which mode and model
    sum it has afterwards.  `enabled` is the use of the measurement, `disabled` the use of the model
    (which follows the previous output `y` over 16 samples), `syncing` the return to the measurement. -/
def Selects (st : RState) (m y x r : Int) (st' : RState) (m' : Int) : Prop :=
  match st with
  | .enabled => r = x ∧ (if 18 * 64 ≤ x then st' = .disabled ∧ m' = x else st' = .enabled ∧ m' = m)
  | .disabled => if x ≤ 17 * 64 then Resync m x r st' m' else st' = .disabled ∧ Lowpass 16 m y m' r
  | .syncing => Resync m x r st' m'

/-- An evaluated measurement of channel `ch` (0 the current, 1 the temperature). -/
def Evaluates (s : Sys) (e : Ev) (ch : Nat) : Prop :=
  e = .measureWork ∧ s.meas.resultAvail = true ∧ s.meas.active = ch

/-- The step from `s` to `s'` runs the temperature controller: a temperature is evaluated while
    regulation is on and the sensor is not lost. -/
def RunsTemp (s : Sys) (e : Ev) (s' : Sys) : Prop :=
  Evaluates s e 1 ∧ s.ct.enabled = true ∧ s'.ct.emergency = false

/-- The step from `s` to `s'` runs the current controller: a current is evaluated and there is no
    emergency. -/
def RunsCurr (s : Sys) (e : Ev) (s' : Sys) : Prop := Evaluates s e 0 ∧ s'.cc.emerg = 0

/-- The running firmware together with the time `T` in ms since boot, the time `a` of the last run of
    the temperature controller, of its last switch or of boot, whatever came last, and the time `b`
    of the last run of the current controller or of boot. -/
inductive Clocked (c : Conf) : Sys → Nat → Nat → Nat → Prop where
  | boot {ee pinb s} : ValidEeprom c ee → boot c ee pinb = some s → Clocked c s 0 0 0
  | tick {s s' T a b} : Clocked c s T a b → step c s .tick = some s' → Clocked c s' (T + 1) a b
  | temp {s e s' T a b} : Clocked c s T a b → possible s e = true → step c s e = some s' →
      (RunsTemp s e s' ∨ s'.ct.enabled ≠ s.ct.enabled) → Clocked c s' T T b
  | curr {s e s' T a b} : Clocked c s T a b → step c s e = some s' → RunsCurr s e s' →
      Clocked c s' T a T
  | other {s e s' T a b} : Clocked c s T a b → possible s e = true → step c s e = some s' →
      e ≠ .tick → s'.ct.enabled = s.ct.enabled → ¬ RunsTemp s e s' → ¬ RunsCurr s e s' →
      Clocked c s' T a b

/-- `dt` is the time `ms` in seconds, rounded to the nearest 1/64. -/
def TimeStep (ms : Nat) (dt : Int) : Prop := 0 ≤ dt ∧ NearestAway (ms * 64) 1000 dt

/-- The iron button's pin (PB0) is low. -/
def IronDown (pinb : BitVec 8) : Bool := !pinb.getLsbD 0

/-- A press of the iron button: when it was first seen, and whether nothing more can come of it. -/
structure Press where
  since : Nat
  done : Bool

/-- The press as known after a sample at time `T` with `idle` the idle mode before it.  A press in idle
    mode is done at once, any other one after 1000 ms. -/
def nextPress (idle : Bool) (T : Nat) (p : Option Press) (down : Bool) : Option Press :=
  match p, down with
  | _, false => none
  | none, true => some ⟨T, idle⟩
  | some p, true => some ⟨p.since, p.done || decide (p.since + 1000 ≤ T)⟩

/-- Idle mode after a sample: a new press ends it, a press that completes 1000 ms starts it. -/
def idleAfter (idle : Bool) (T : Nat) (p : Option Press) (down : Bool) : Bool :=
  match p, down with
  | none, true => false
  | some p, true => if p.done = false ∧ p.since + 1000 ≤ T then true else idle
  | _, false => idle

/-- Boost mode after a sample: the release of a press that is not done advances it by one. -/
def boostAfter (boost : Nat) (p : Option Press) (down : Bool) : Nat :=
  match p, down with
  | some p, false => if p.done then boost else (boost + 1) % 3
  | _, _ => boost

/-- The step takes a sample of the buttons, with pins `pinb`: the debounce time has passed. -/
def Samples (s : Sys) (e : Ev) (pinb : BitVec 8) : Prop :=
  e = .buttonsWork pinb ∧ timerExpired s.now s.btn.debounce = true

/-- The running firmware together with the time `T` in ms since boot and the current press of the iron
    button.  A press is not left without a sample for so long that the firmware's 16-bit time wraps. -/
inductive IronHist (c : Conf) : Sys → Nat → Option Press → Prop where
  | boot {ee pinb s} : ValidEeprom c ee → boot c ee pinb = some s → IronHist c s 0 none
  | tick {s s' T p} : IronHist c s T p → step c s .tick = some s' → IronHist c s' (T + 1) p
  | sample {s s' T p pinb} : IronHist c s T p → Samples s (.buttonsWork pinb) pinb →
      step c s (.buttonsWork pinb) = some s' →
      (∀ q, p = some q → q.done = false → T < q.since + 33768) →
      IronHist c s' T (nextPress s.ct.idle T p (IronDown pinb))
  | other {s e s' T p} : IronHist c s T p → possible s e = true → step c s e = some s' → e ≠ .tick →
      (∀ pinb, ¬ Samples s e pinb) → IronHist c s' T p

end Verif.Spec
