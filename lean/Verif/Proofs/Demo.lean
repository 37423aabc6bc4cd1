import Verif.Proofs.InvBoot
/-
Concrete runs of the firmware, for the examples beside the property theorems.
-/
namespace Verif
open Spec

/-- a run in which every event is possible -/
def runOk (c : Conf) (s : Sys) : List Ev → Option Sys
  | [] => some s
  | e :: es => if possible s e then (step c s e).bind fun s' => runOk c s' es else none

theorem Running.runOk {c : Conf} {s s' : Sys} (h : Running c s) {es : List Ev}
    (e : Verif.runOk c s es = some s') : Running c s' := by
  induction es generalizing s with
  | nil => cases e; exact h
  | cons x xs ih =>
    unfold Verif.runOk at e
    split at e
    · rename_i hp
      obtain ⟨t, e1, e2⟩ := Option.bind_eq_some_iff.mp e
      exact ih (h.step hp e1) e2
    · cases e

/-- the firmware after booting from the shipped EEPROM and the given events -/
def demo (c : Conf) (pinb : BitVec 8) (es : List Ev) : Option Sys :=
  (boot c (shippedEeprom c) pinb).bind fun s => runOk c s es

theorem validEeprom_of_check {c : Conf} {ee : Nat → Nat}
    (h : (settingsInit c ee).all (fun st => decide (WithinLimits c st.cache)) = true) :
    ValidEeprom c ee := by
  intro st e
  rw [e] at h
  simpa using h

set_option maxRecDepth 100000 in
theorem validEeprom_m88p : ValidEeprom Conf.m88p (shippedEeprom Conf.m88p) :=
  validEeprom_of_check (by decide)

set_option maxRecDepth 100000 in
theorem validEeprom_m328p : ValidEeprom Conf.m328p (shippedEeprom Conf.m328p) :=
  validEeprom_of_check (by decide)

theorem demo_running {c : Conf} {pinb : BitVec 8} {es : List Ev} {s : Sys}
    (hv : ValidEeprom c (shippedEeprom c)) (e : demo c pinb es = some s) : Running c s := by
  obtain ⟨t, e1, e2⟩ := Option.bind_eq_some_iff.mp e
  exact Verif.Running.runOk (Running.boot hv e1) e2

/-- a run whose end satisfies a check gives a state of the running firmware -/
theorem demo_any {c : Conf} {pinb : BitVec 8} {es : List Ev} {P : Sys → Bool}
    (hv : ValidEeprom c (shippedEeprom c)) (h : (demo c pinb es).any P = true) :
    ∃ s, Running c s ∧ P s = true := by
  match e : demo c pinb es with
  | none => rw [e] at h; cases h
  | some s => rw [e] at h; exact ⟨s, demo_running hv e, h⟩

/-- `n` timer ticks -/
def ticks (n : Nat) : List Ev := List.replicate n .tick

/-- a reading of the active channel: one sample after the averaging time, then the evaluation -/
def reading (n raw : Nat) : List Ev := ticks n ++ [.adc raw, .measureWork]

theorem runOk_append (c : Conf) (s : Sys) (es fs : List Ev) :
    runOk c s (es ++ fs) = (runOk c s es).bind fun s' => runOk c s' fs := by
  induction es generalizing s with
  | nil => rfl
  | cons e es ih =>
    show (if possible s e then _ else none) = Option.bind (if possible s e then _ else none) _
    split
    · cases step c s e with
      | none => rfl
      | some t => exact ih t
    · rfl

/-- many ticks at once -/
theorem runOk_ticks (c : Conf) (s : Sys) (n : Nat) (h : 0 ≤ s.now ∧ s.now ≤ 65535) :
    runOk c s (ticks n) = some { s with now := (s.now + n) % 65536 } := by
  induction n generalizing s with
  | zero =>
    have : (s.now + (0 : Nat)) % 65536 = s.now := by omega
    rw [this]; rfl
  | succ n ih =>
    show runOk c { s with now := timerTick s.now } (ticks n) = _
    have h1 : timerTick s.now = (s.now + 1) % 65536 := rfl
    rw [ih _ (by show 0 ≤ timerTick s.now ∧ timerTick s.now ≤ 65535; omega)]
    have h2 : (timerTick s.now + n) % 65536 = (s.now + ((n + 1 : Nat) : Int)) % 65536 := by omega
    show some { s with now := (timerTick s.now + n) % 65536 } = _
    rw [h2]

/-- a run with a long pause -/
theorem demo_pause {c : Conf} {pinb : BitVec 8} {es fs : List Ev} {n : Nat} {P : Sys → Bool}
    (hv : ValidEeprom c (shippedEeprom c))
    (h : ((demo c pinb es).bind fun s => runOk c { s with now := (s.now + n) % 65536 } fs).any P = true) :
    (demo c pinb (es ++ ticks n ++ fs)).any P = true := by
  match e : demo c pinb es with
  | none => rw [e] at h; cases h
  | some s =>
    rw [e] at h
    obtain ⟨t, e1, e2⟩ := Option.bind_eq_some_iff.mp e
    have hn := (Running.inv (demo_running hv e)).now
    have : demo c pinb (es ++ ticks n ++ fs) = runOk c { s with now := (s.now + n) % 65536 } fs := by
      unfold demo
      rw [e1, Option.bind_some, List.append_assoc, runOk_append, e2, Option.bind_some, runOk_append,
        runOk_ticks c s n hn, Option.bind_some]
    rw [this]
    exact h

/-- a run with pauses: each part is a number of ticks and the events after them -/
def pausedEvs (l : List (Nat × List Ev)) : List Ev := l.flatMap fun x => ticks x.1 ++ x.2

/-- the same, computed without going through the ticks one by one -/
def runPaused (c : Conf) (s : Sys) : List (Nat × List Ev) → Option Sys
  | [] => some s
  | (n, es) :: l => (runOk c { s with now := (s.now + n) % 65536 } es).bind fun s' => runPaused c s' l

theorem runPaused_eq {c : Conf} (l : List (Nat × List Ev)) {s : Sys} (h : Running c s) :
    runOk c s (pausedEvs l) = runPaused c s l := by
  induction l generalizing s with
  | nil => rfl
  | cons x l ih =>
    obtain ⟨n, es⟩ := x
    have hn := (Running.inv h).now
    have et := runOk_ticks c s n hn
    show runOk c s ((ticks n ++ es) ++ pausedEvs l) = _
    rw [runOk_append, runOk_append, et, Option.bind_some]
    show _ = (runOk c { s with now := (s.now + n) % 65536 } es).bind _
    match e : runOk c { s with now := (s.now + n) % 65536 } es with
    | none => rfl
    | some t => exact ih (Verif.Running.runOk (Verif.Running.runOk h et) e)

/-- the firmware after booting from the shipped EEPROM and a run with pauses -/
def demoPaused (c : Conf) (pinb : BitVec 8) (l : List (Nat × List Ev)) : Option Sys :=
  (boot c (shippedEeprom c) pinb).bind fun s => runPaused c s l

theorem demoPaused_any {c : Conf} {pinb : BitVec 8} {l : List (Nat × List Ev)} {P : Sys → Bool}
    (hv : ValidEeprom c (shippedEeprom c)) (h : (demoPaused c pinb l).any P = true) :
    ∃ b s, boot c (shippedEeprom c) pinb = some b ∧ runOk c b (pausedEvs l) = some s ∧ P s = true := by
  unfold demoPaused at h
  match e : boot c (shippedEeprom c) pinb with
  | none => rw [e] at h; cases h
  | some b =>
    rw [e, Option.bind_some, ← runPaused_eq l (Running.boot hv e)] at h
    match e' : runOk c b (pausedEvs l) with
    | none => rw [e'] at h; cases h
    | some s => rw [e'] at h; exact ⟨b, s, rfl, e', h⟩

theorem pausedEvs_ticks (l : List (Nat × List Ev)) :
    (pausedEvs l).count .tick = (l.map fun x => x.1 + x.2.count .tick).sum := by
  induction l with
  | nil => rfl
  | cons x l ih =>
    show ((ticks x.1 ++ x.2) ++ pausedEvs l).count .tick = _
    rw [List.count_append, List.count_append, ih]
    simp [ticks]

set_option maxRecDepth 100000 in
example : (demo .m88p 0xFF (reading 50 300 ++ reading 5 0 ++ reading 50 300)).any
    (fun s => s.ocr != 0x1FFF && s.ct.feedback == 19057) = true := by decide

end Verif
