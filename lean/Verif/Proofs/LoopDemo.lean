import Verif.Proofs.Loop
import Verif.Proofs.Demo
/-
Concrete runs of the main loop, for the examples beside the property theorems.
-/
namespace Verif
open Spec

/-- a command for a run: a number of ticks, the reset of the watchdog, or an event -/
inductive Cmd where
  | pause (n : Nat)
  | reset
  | ev (e : Ev)

instance (v : Speed) (x : Loop) : Decidable (InTime v x) := by unfold InTime; infer_instance

/-- the pins read by an event -/
def Ev.pins : Ev → BitVec 8
  | .buttonsWork p => p
  | _ => 0

/-- the loop after a command; every step is in time and does not have the property `P` -/
def loopCmd (v : Speed) (c : Conf) (P : Loop → Option Ev → Loop → Prop) [∀ x e y, Decidable (P x e y)] (x : Loop) :
    Cmd → Option Loop
  | .pause n =>
    let y := { x with s := { x.s with now := (x.s.now + n) % 65536 }, T := x.T + n }
    if 0 ≤ x.s.now ∧ x.s.now ≤ 65535 ∧ InTime v y ∧ ¬ P x (some .tick) x then some y else none
  | .reset =>
    let y := { x with pc := .measure, reset := x.T }
    if x.pc = .reset ∧ InTime v y ∧ ¬ P x none y then some y else none
  | .ev e =>
    (step c x.s e).bind fun s' =>
      if e.isIsr = true then
        let y := x.after e s'
        if possible x.s e = true ∧ InTime v y ∧ ¬ P x (some e) y then some y else none
      else
        let y := { x.after e s' with pc := x.pc.next }
        if x.pc.call e.pins = some e ∧ InTime v y ∧ ¬ P x (some e) y then some y else none

def loopCmds (v : Speed) (c : Conf) (P : Loop → Option Ev → Loop → Prop) [∀ x e y, Decidable (P x e y)] (x : Loop) :
    List Cmd → Option Loop
  | [] => some x
  | a :: l => (loopCmd v c P x a).bind fun y => loopCmds v c P y l

variable {v : Speed} {c : Conf}

theorem Spec.Stretch.trans {P : Loop → Option Ev → Loop → Prop} {x y z : Loop} (h : Stretch v c P x y)
    (h' : Stretch v c P y z) : Stretch v c P x z := by
  induction h' with
  | start => exact h
  | step _ hs ht hn ih => exact Stretch.step ih hs ht hn

theorem after_tick {x : Loop} {s' : Sys} (h : s'.set = x.s.set) :
    x.after .tick s' = { x with s := s', T := x.T + 1 } := by
  unfold Loop.after
  rw [h]
  have : ¬ (Ev.tick = .eeIsr ∨ Ev.tick = .eeDone ∨ (x.s.set.storeRequest = true ∧ x.s.set.storeRequest = false)) := by
    rintro (h | h | ⟨h1, h2⟩)
    · cases h
    · cases h
    · rw [h1] at h2; cases h2
  rw [if_neg this]
  rfl

/-- whether a tick has the property does not depend on the time -/
def TickCheck (c : Conf) (P : Loop → Option Ev → Loop → Prop) : Prop :=
  ∀ x n y t, LoopStep c { x with s := { x.s with now := t }, T := n } (some .tick) y →
    P { x with s := { x.s with now := t }, T := n } (some .tick) y → P x (some .tick) x

theorem loop_ticks {P : Loop → Option Ev → Loop → Prop} (hP : TickCheck c P)
    (n : Nat) : ∀ {x : Loop}, 0 ≤ x.s.now ∧ x.s.now ≤ 65535 →
      InTime v { x with s := { x.s with now := (x.s.now + n) % 65536 }, T := x.T + n } → ¬ P x (some .tick) x →
      Stretch v c P x { x with s := { x.s with now := (x.s.now + n) % 65536 }, T := x.T + n } := by
  induction n with
  | zero =>
    intro x h _ _
    have : (x.s.now + (0 : Nat)) % 65536 = x.s.now := by omega
    rw [this]
    exact Stretch.start
  | succ n ih =>
    intro x h ht hn
    have hT : InTime v { x with s := { x.s with now := (x.s.now + n) % 65536 }, T := x.T + n } := by
      obtain ⟨h1, h2, h3⟩ := ht
      refine ⟨?_, fun hh => ?_, fun hh => ?_⟩
      · have h1 : x.T + (n + 1) ≤ x.reset + v.W := h1
        show x.T + n ≤ x.reset + v.W; omega
      · have h2 : x.T + (n + 1) ≤ x.conv + v.A := h2 hh
        show x.T + n ≤ x.conv + v.A; omega
      · have h3 : x.T + (n + 1) ≤ x.ee + v.B := h3 hh
        show x.T + n ≤ x.ee + v.B; omega
    have hst : LoopStep c { x with s := { x.s with now := (x.s.now + n) % 65536 }, T := x.T + n } (some .tick)
        { x with s := { x.s with now := (x.s.now + (n + 1 : Nat)) % 65536 }, T := x.T + (n + 1) } := by
      have := LoopStep.isr (c := c) (x := { x with s := { x.s with now := (x.s.now + n) % 65536 }, T := x.T + n })
        (e := .tick) (s' := { x.s with now := (x.s.now + (n + 1 : Nat)) % 65536 }) rfl rfl (by
          show some { x.s with now := timerTick ((x.s.now + n) % 65536) } = _
          have : timerTick ((x.s.now + n) % 65536) = (x.s.now + (n + 1 : Nat)) % 65536 := by
            show ((x.s.now + n) % 65536 + 1) % 65536 = _
            omega
          rw [this])
      have e := after_tick (x := { x with s := { x.s with now := (x.s.now + n) % 65536 }, T := x.T + n })
        (s' := { x.s with now := (x.s.now + (n + 1 : Nat)) % 65536 }) rfl
      rw [e] at this
      exact this
    exact Stretch.step (ih h hT hn) hst ht fun hh => hn (hP _ _ _ _ hst hh)

theorem loopCmd_stretch {P : Loop → Option Ev → Loop → Prop} [∀ x e y, Decidable (P x e y)]
    (hP : TickCheck c P) {x y : Loop} {a : Cmd}
    (h : loopCmd v c P x a = some y) : Stretch v c P x y := by
  cases a with
  | pause n =>
    unfold loopCmd at h
    simp only [] at h
    split at h
    · rename_i hh
      cases h
      exact loop_ticks hP n ⟨hh.1, hh.2.1⟩ hh.2.2.1 hh.2.2.2
    · cases h
  | reset =>
    unfold loopCmd at h
    simp only [] at h
    split at h
    · rename_i hh
      cases h
      exact Stretch.step Stretch.start (LoopStep.reset hh.1) hh.2.1 hh.2.2
    · cases h
  | ev e =>
    obtain ⟨s', es, h⟩ := Option.bind_eq_some_iff.mp h
    split at h
    · rename_i he
      simp only [] at h
      split at h
      · rename_i hh
        cases h
        exact Stretch.step Stretch.start (LoopStep.isr he hh.1 es) hh.2.1 hh.2.2
      · cases h
    · simp only [] at h
      split at h
      · rename_i hh
        cases h
        exact Stretch.step Stretch.start (LoopStep.call hh.1 es) hh.2.1 hh.2.2
      · cases h

theorem loopCmds_stretch {P : Loop → Option Ev → Loop → Prop} [∀ x e y, Decidable (P x e y)]
    (hP : TickCheck c P) {l : List Cmd} : ∀ {x y : Loop},
    loopCmds v c P x l = some y → Stretch v c P x y := by
  induction l with
  | nil => intro x y h; cases h; exact Stretch.start
  | cons a l ih =>
    intro x y h
    obtain ⟨z, h1, h2⟩ := Option.bind_eq_some_iff.mp h
    exact (loopCmd_stretch hP h1).trans (ih h2)

theorem Spec.Stretch.run {P : Loop → Option Ev → Loop → Prop} {x y : Loop} (h : LoopRun v c x) (hs : Stretch v c P x y) :
    LoopRun v c y := by
  induction hs with
  | start => exact h
  | step _ hs ht _ ih => exact ih.step hs ht

theorem Spec.Stretch.life {P : Loop → Option Ev → Loop → Prop} {x y : Loop} (h : LoopLife v c x) (hs : Stretch v c P x y) :
    LoopLife v c y := by
  induction hs with
  | start => exact h
  | step _ hs ht _ ih => exact ih.step hs ht

theorem Spec.Stretch.temps {x y : Loop} {l : List (Nat × Bool)} (h : LoopTemps v c x l)
    (hs : Stretch v c (EvaluatesCh 1) x y) : LoopTemps v c y l := by
  induction hs with
  | start => exact h
  | step _ hs ht hn ih => exact ih.other hs ht hn

theorem Spec.Stretch.currs {x y : Loop} {xs : List Int} {l : List (Nat × Bool)} (h : LoopCurrs v c x xs l)
    (hs : Stretch v c (EvaluatesCh 0) x y) : LoopCurrs v c y xs l := by
  induction hs with
  | start => exact h
  | step _ hs ht hn ih => exact ih.other hs ht hn

/-- nothing -/
def Never (_ : Loop) (_ : Option Ev) (_ : Loop) : Prop := False

instance (x : Loop) (e : Option Ev) (y : Loop) : Decidable (Never x e y) := .isFalse id
instance (ch : Nat) (x : Loop) (e : Option Ev) (y : Loop) : Decidable (EvaluatesCh ch x e y) := by
  unfold EvaluatesCh; infer_instance

theorem never_tick : TickCheck c Never := fun _ _ _ _ _ h => h.elim
theorem evaluates_tick (ch : Nat) : TickCheck c (EvaluatesCh ch) := by rintro _ _ _ _ _ ⟨h, -⟩; cases h

/-- one iteration of the loop, at one tick -/
def round (pinb : BitVec 8) : List Cmd :=
  [.reset, .ev .measureWork, .ev .menuWork, .ev .displayWork, .ev (.buttonsWork pinb), .ev .settingsWork]

/-- `n` ticks with a conversion after each -/
def samples (n raw : Nat) : List Cmd := (List.replicate n [Cmd.pause 1, .ev (.adc raw)]).flatten

/-- the loop just after the boot from the shipped EEPROM -/
def loopBoot (c : Conf) (pinb : BitVec 8) : Option Loop :=
  (boot c (shippedEeprom c) pinb).map fun s => ⟨s, .reset, 0, 0, 0, 0, 0⟩

/-! ### histories -/

instance (a b n : Int) : Decidable (NearestAway a b n) := by unfold NearestAway; infer_instance
instance (t : Int) : Decidable (PlausibleTemp t) := by unfold PlausibleTemp; infer_instance
instance (t : Int) : Decidable (PlausibleCurr t) := by unfold PlausibleCurr; infer_instance

/-- a fraction to the nearest integer -/
def nearest (a b : Int) : Int := if 0 ≤ a then (2 * a + b) / (2 * b) else -((2 * -a + b) / (2 * b))

theorem loopCmd_step {P : Loop → Option Ev → Loop → Prop} [∀ x e y, Decidable (P x e y)] {x y : Loop}
    (h : loopCmd v c P x (.ev .measureWork) = some y) : LoopStep c x (some .measureWork) y ∧ InTime v y := by
  obtain ⟨s', es, h⟩ := Option.bind_eq_some_iff.mp h
  rw [if_neg (by decide)] at h
  simp only [] at h
  split at h
  · rename_i hh
    cases h
    exact ⟨LoopStep.call hh.1 es, hh.2.1⟩
  · cases h

/-- a command, with the history of temperatures -/
def tempCmd (v : Speed) (c : Conf) (x : Loop × List (Nat × Bool)) (a : Cmd) : Option (Loop × List (Nat × Bool)) :=
  match a with
  | .ev .measureWork =>
    if x.1.s.meas.resultAvail = true ∧ x.1.s.meas.active = 1 then
      let a := (480 - 150) * 64 * (x.1.s.meas.avgSum / x.1.s.meas.avgCount - (sensorRaw c).1)
      let b := (sensorRaw c).2 - (sensorRaw c).1
      if NearestAway a b (nearest a b) then
        (loopCmd v c Never x.1 (.ev .measureWork)).map fun y =>
          (y, (x.1.T, decide (PlausibleTemp (150 * 64 + nearest a b - adjInForce c x.1.s.set.cache))) :: x.2)
      else none
    else (loopCmd v c (EvaluatesCh 1) x.1 (.ev .measureWork)).map fun y => (y, x.2)
  | a => (loopCmd v c (EvaluatesCh 1) x.1 a).map fun y => (y, x.2)

theorem tempCmd_temps {x y : Loop × List (Nat × Bool)} {a : Cmd} (hx : LoopTemps v c x.1 x.2)
    (h : tempCmd v c x a = some y) : LoopTemps v c y.1 y.2 := by
  have other : ∀ a, (loopCmd v c (EvaluatesCh 1) x.1 a).map (fun z => (z, x.2)) = some y → LoopTemps v c y.1 y.2 := by
    intro a h
    obtain ⟨z, h1, h2⟩ := Option.map_eq_some_iff.mp h
    cases h2
    exact (loopCmd_stretch (evaluates_tick 1) h1).temps hx
  unfold tempCmd at h
  split at h
  · split at h
    · rename_i hh
      simp only [] at h
      split at h
      · rename_i hn
        obtain ⟨z, h1, h2⟩ := Option.map_eq_some_iff.mp h
        cases h2
        obtain ⟨h3, h4⟩ := loopCmd_step h1
        exact LoopTemps.reads hx h3 h4 ⟨hh.1, hh.2, _, hn, rfl⟩ (by simp)
      · cases h
    · exact other _ h
  · exact other _ h

def tempCmds (v : Speed) (c : Conf) (pinb : BitVec 8) (l : List Cmd) : Option (Loop × List (Nat × Bool)) :=
  (loopBoot c pinb).bind fun x => l.foldlM (tempCmd v c) (x, [])

theorem foldlM_inv {α β : Type} {f : β → α → Option β} {P : β → Prop} (hf : ∀ x a y, P x → f x a = some y → P y)
    (l : List α) : ∀ {x y : β}, P x → l.foldlM f x = some y → P y := by
  induction l with
  | nil => intro x y h e; cases e; exact h
  | cons a l ih =>
    intro x y h e
    rw [List.foldlM_cons] at e
    obtain ⟨z, e1, e2⟩ := Option.bind_eq_some_iff.mp e
    exact ih (hf _ _ _ h e1) e2

theorem tempCmds_temps {pinb : BitVec 8} {l : List Cmd} {y : Loop × List (Nat × Bool)}
    (hv : ValidEeprom c (shippedEeprom c)) (h : tempCmds v c pinb l = some y) : LoopTemps v c y.1 y.2 := by
  obtain ⟨x, h1, h2⟩ := Option.bind_eq_some_iff.mp h
  obtain ⟨s, h3, rfl⟩ := Option.map_eq_some_iff.mp h1
  exact foldlM_inv (P := fun x => LoopTemps v c x.1 x.2) (fun x a y hx h => tempCmd_temps hx h) l
    (LoopTemps.boot hv h3) h2

/-- a command, with the history of currents -/
def currCmd (v : Speed) (c : Conf) (x : Loop × List Int × List (Nat × Bool)) (a : Cmd) :
    Option (Loop × List Int × List (Nat × Bool)) :=
  match a with
  | .ev .measureWork =>
    if x.1.s.meas.resultAvail = true ∧ x.1.s.meas.active = 0 then
      let xs := x.1.s.meas.avgSum / x.1.s.meas.avgCount :: x.2.1
      let a := 11 * 64 * (smooth xs).2
      if NearestAway a 65 (nearest a 65) then
        (loopCmd v c Never x.1 (.ev .measureWork)).map fun y =>
          (y, xs, (x.1.T, decide (PlausibleCurr (nearest a 65))) :: x.2.2)
      else none
    else (loopCmd v c (EvaluatesCh 0) x.1 (.ev .measureWork)).map fun y => (y, x.2)
  | a => (loopCmd v c (EvaluatesCh 0) x.1 a).map fun y => (y, x.2)

theorem currCmd_currs {x y : Loop × List Int × List (Nat × Bool)} {a : Cmd} (hx : LoopCurrs v c x.1 x.2.1 x.2.2)
    (h : currCmd v c x a = some y) : LoopCurrs v c y.1 y.2.1 y.2.2 := by
  have other : ∀ a, (loopCmd v c (EvaluatesCh 0) x.1 a).map (fun z => (z, x.2)) = some y →
      LoopCurrs v c y.1 y.2.1 y.2.2 := by
    intro a h
    obtain ⟨z, h1, h2⟩ := Option.map_eq_some_iff.mp h
    cases h2
    exact (loopCmd_stretch (evaluates_tick 0) h1).currs hx
  unfold currCmd at h
  split at h
  · split at h
    · rename_i hh
      simp only [] at h
      split at h
      · rename_i hn
        obtain ⟨z, h1, h2⟩ := Option.map_eq_some_iff.mp h
        cases h2
        obtain ⟨h3, h4⟩ := loopCmd_step h1
        exact LoopCurrs.reads hx h3 h4 ⟨hh.1, hh.2, hn⟩ (by simp)
      · cases h
    · exact other _ h
  · exact other _ h

def currCmds (v : Speed) (c : Conf) (pinb : BitVec 8) (l : List Cmd) : Option (Loop × List Int × List (Nat × Bool)) :=
  (loopBoot c pinb).bind fun x => l.foldlM (currCmd v c) (x, [], [])

theorem currCmds_currs {pinb : BitVec 8} {l : List Cmd} {y : Loop × List Int × List (Nat × Bool)}
    (hv : ValidEeprom c (shippedEeprom c)) (h : currCmds v c pinb l = some y) : LoopCurrs v c y.1 y.2.1 y.2.2 := by
  obtain ⟨x, h1, h2⟩ := Option.bind_eq_some_iff.mp h
  obtain ⟨s, h3, rfl⟩ := Option.map_eq_some_iff.mp h1
  exact foldlM_inv (P := fun x => LoopCurrs v c x.1 x.2.1 x.2.2) (fun x a y hx h => currCmd_currs hx h) l
    (LoopCurrs.boot hv h3) h2

theorem Spec.Stretch.mono {P Q : Loop → Option Ev → Loop → Prop} (hPQ : ∀ x e y, Q x e y → P x e y) {x y : Loop}
    (h : Stretch v c P x y) : Stretch v c Q x y := by
  induction h with
  | start => exact Stretch.start
  | step _ hs ht hn ih => exact Stretch.step ih hs ht fun hh => hn (hPQ _ _ _ hh)

/-- the EEPROM writer runs to its end, within one tick -/
def loopDrive (v : Speed) (c : Conf) (P : Loop → Option Ev → Loop → Prop) [∀ x e y, Decidable (P x e y)] :
    Nat → Loop → Option Loop
  | 0, x => some x
  | n + 1, x =>
    if x.s.set.prog.isSome then (loopCmd v c P x (.ev .eeDone)).bind (loopDrive v c P n)
    else if x.s.set.eerie then (loopCmd v c P x (.ev .eeIsr)).bind (loopDrive v c P n)
    else some x

theorem loopDrive_stretch {P : Loop → Option Ev → Loop → Prop} [∀ x e y, Decidable (P x e y)]
    (hP : TickCheck c P) (n : Nat) : ∀ {x y : Loop},
    loopDrive v c P n x = some y → Stretch v c P x y := by
  induction n with
  | zero => intro x y h; cases h; exact Stretch.start
  | succ n ih =>
    intro x y h
    unfold loopDrive at h
    split at h
    · obtain ⟨z, h1, h2⟩ := Option.bind_eq_some_iff.mp h
      exact (loopCmd_stretch hP h1).trans (ih h2)
    · split at h
      · obtain ⟨z, h1, h2⟩ := Option.bind_eq_some_iff.mp h
        exact (loopCmd_stretch hP h1).trans (ih h2)
      · cases h; exact Stretch.start

/-- a temperature and a current reading, each evaluated 250 ms after the one before -/
def cycle (temp curr : Nat) : List Cmd :=
  samples 50 temp ++ [.pause 200] ++ round 0xFF ++ samples 5 curr ++ [.pause 245] ++ round 0xFF

def cycles (n temp curr : Nat) : List Cmd := (List.replicate n (cycle temp curr)).flatten

theorem loopBoot_life {pinb : BitVec 8} {x : Loop} (h : loopBoot c pinb = some x) : LoopLife v c x := by
  obtain ⟨s, h3, rfl⟩ := Option.map_eq_some_iff.mp h
  exact LoopLife.first h3

theorem loopBoot_run {pinb : BitVec 8} {x : Loop} (h : loopBoot c pinb = some x)
    (hv : ValidEeprom c (shippedEeprom c)) : LoopRun v c x := by
  obtain ⟨s, h3, rfl⟩ := Option.map_eq_some_iff.mp h
  exact LoopRun.boot hv h3

end Verif
