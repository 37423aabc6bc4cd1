import Verif.Proofs.LoopIn
import Verif.Proofs.LoopDemo
/-
Concrete runs of the main loop with interrupts inside the work functions, for the examples beside the property
theorems.
-/
namespace Verif
open Spec

/-- a command for a run: a tick between work functions, the reset of the watchdog, a conversion, following the ADC up to
    the next tick, or a call with ticks inside -/
inductive CmdI where
  | tick
  | reset
  | adc (raw : Nat)
  | pass
  | call (e : Ev) (g : List Nat)

instance (v : Speed) (x : LoopI) : Decidable (InTimeI v x) := by unfold InTimeI; infer_instance

/-- the loop after a call -/
def LoopI.called (x : LoopI) (e : Ev) (g : List Nat) (s' : Sys) : LoopI :=
  { s := s', pc := x.pc.next, T := x.T + g.sum, reset := x.reset
    D := if x.evaluates e then x.T + g.sum else x.D
    sel := if x.evaluates e then x.T + g.sum else x.sel
    conv := if x.evaluates e then x.T + g.sum else x.conv }

/-- the loop after a command; the step is in time and does not have the property `P` -/
def loopCmdI (v : Speed) (c : Conf) (P : LoopI → Option Ev → LoopI → Prop) [∀ x e y, Decidable (P x e y)] (x : LoopI) :
    CmdI → Option LoopI
  | .tick =>
    (step c x.s .tick).bind fun s' =>
      let y := { x with s := s', T := x.T + 1, D := x.D + 1 }
      if x.D = x.T ∧ InTimeI v y ∧ ¬ P x (some .tick) y then some y else none
  | .reset =>
    let y := { x with pc := .measure, reset := x.T }
    if (x.D = x.T ∧ x.pc = .reset) ∧ InTimeI v y ∧ ¬ P x none y then some y else none
  | .adc raw =>
    let y := { x with s := { x.s with meas := adcIsr (toU16 (x.s.now - (x.T - x.D : Nat))) x.s.meas raw }, conv := x.D }
    if possible x.s (.adc raw) = true ∧ InTimeI v y ∧ ¬ P x (some (.adc raw)) y then some y else none
  | .pass =>
    let y := { x with D := x.D + 1 }
    if x.D < x.T ∧ InTimeI v y ∧ ¬ P x none y then some y else none
  | .call e g =>
    match workT c x.s e g with
    | some (s', []) =>
      let y := x.called e g s'
      if (x.D = x.T ∧ x.pc.call e.pins = some e) ∧ InTimeI v y ∧ ¬ P x (some e) y then some y else none
    | _ => none

def loopCmdsI (v : Speed) (c : Conf) (P : LoopI → Option Ev → LoopI → Prop) [∀ x e y, Decidable (P x e y)] (x : LoopI) :
    List CmdI → Option LoopI
  | [] => some x
  | a :: l => (loopCmdI v c P x a).bind fun y => loopCmdsI v c P y l

variable {v : Speed} {c : Conf}

theorem Spec.StretchI.trans {P : LoopI → Option Ev → LoopI → Prop} {x y z : LoopI} (h : StretchI v c P x y)
    (h' : StretchI v c P y z) : StretchI v c P x z := by
  induction h' with
  | start => exact h
  | step _ hs ht hn ih => exact StretchI.step ih hs ht hn

theorem Spec.StretchI.mono {P Q : LoopI → Option Ev → LoopI → Prop} (hPQ : ∀ x e y, Q x e y → P x e y) {x y : LoopI}
    (h : StretchI v c P x y) : StretchI v c Q x y := by
  induction h with
  | start => exact StretchI.start
  | step _ hs ht hn ih => exact StretchI.step ih hs ht fun hh => hn (hPQ _ _ _ hh)

theorem loopCmdI_stretch {P : LoopI → Option Ev → LoopI → Prop} [∀ x e y, Decidable (P x e y)] {x y : LoopI} {a : CmdI}
    (h : loopCmdI v c P x a = some y) : ∃ e, LoopIStep c x e y ∧ InTimeI v y ∧ ¬ P x e y := by
  cases a with
  | tick =>
    unfold loopCmdI at h
    obtain ⟨s', es, h⟩ := Option.bind_eq_some_iff.mp h
    simp only [] at h
    split at h
    · rename_i hh; cases h
      exact ⟨_, .tick hh.1 es, hh.2⟩
    · cases h
  | reset =>
    unfold loopCmdI at h
    simp only [] at h
    split at h
    · rename_i hh; cases h
      exact ⟨_, .reset hh.1.1 hh.1.2, hh.2⟩
    · cases h
  | adc raw =>
    unfold loopCmdI at h
    simp only [] at h
    split at h
    · rename_i hh; cases h
      exact ⟨_, .adc hh.1, hh.2⟩
    · cases h
  | pass =>
    unfold loopCmdI at h
    simp only [] at h
    split at h
    · rename_i hh; cases h
      exact ⟨_, .pass hh.1, hh.2⟩
    · cases h
  | call e g =>
    unfold loopCmdI at h
    simp only [] at h
    split at h
    · rename_i s' es
      split at h
      · rename_i hh; cases h
        exact ⟨_, .call hh.1.1 hh.1.2 es, hh.2⟩
      · cases h
    · cases h

theorem loopCmdI_call {P : LoopI → Option Ev → LoopI → Prop} [∀ x e y, Decidable (P x e y)] {x y : LoopI} {e : Ev}
    {g : List Nat} (h : loopCmdI v c P x (.call e g) = some y) :
    LoopIStep c x (some e) y ∧ InTimeI v y ∧ y.T = x.T + g.sum := by
  unfold loopCmdI at h
  simp only [] at h
  split at h
  · rename_i s' es
    split at h
    · rename_i hh; cases h
      exact ⟨.call hh.1.1 hh.1.2 es, hh.2.1, rfl⟩
    · cases h
  · cases h

theorem loopCmdsI_stretch {P : LoopI → Option Ev → LoopI → Prop} [∀ x e y, Decidable (P x e y)] {l : List CmdI} :
    ∀ {x y : LoopI}, loopCmdsI v c P x l = some y → StretchI v c P x y := by
  induction l with
  | nil => intro x y h; cases h; exact StretchI.start
  | cons a l ih =>
    intro x y h
    obtain ⟨z, h1, h2⟩ := Option.bind_eq_some_iff.mp h
    obtain ⟨e, k1, k2, k3⟩ := loopCmdI_stretch h1
    exact (StretchI.start.step k1 k2 k3).trans (ih h2)

/-- nothing -/
def NeverI (_ : LoopI) (_ : Option Ev) (_ : LoopI) : Prop := False

instance (x : LoopI) (e : Option Ev) (y : LoopI) : Decidable (NeverI x e y) := .isFalse id
instance (ch : Nat) (x : LoopI) (e : Option Ev) (y : LoopI) : Decidable (EvaluatesI ch x e y) := by
  unfold EvaluatesI; infer_instance

/-- one iteration of the loop, with ticks inside the evaluation -/
def roundI (g : List Nat) (pinb : BitVec 8) : List CmdI :=
  [.reset, .call .measureWork g, .call .menuWork [], .call .displayWork [], .call (.buttonsWork pinb) [],
    .call .settingsWork []]

/-- `n` ticks with a conversion after each -/
def samplesI (n raw : Nat) : List CmdI := (List.replicate n [CmdI.tick, .adc raw]).flatten

/-- a temperature and a current, with 240 and 195 ticks inside the evaluations -/
def cycleI (temp curr : Nat) : List CmdI :=
  samplesI 50 temp ++ roundI [240] 0xFF ++ samplesI 5 curr ++ roundI [195] 0xFF

def cyclesI (k temp curr : Nat) : List CmdI := (List.replicate k (cycleI temp curr)).flatten

/-- the loop just after the boot from the shipped EEPROM -/
def loopBootI (c : Conf) (pinb : BitVec 8) : Option LoopI :=
  (boot c (shippedEeprom c) pinb).map fun s => ⟨s, .reset, 0, 0, 0, 0, 0⟩

theorem loopBootI_run {pinb : BitVec 8} {x : LoopI} (h : loopBootI c pinb = some x) (hv : ValidEeprom c (shippedEeprom c)) :
    LoopIRun v c x := by
  obtain ⟨s, h1, rfl⟩ := Option.map_eq_some_iff.mp h
  exact .boot hv h1

/-- the event of a command -/
def evOfI : CmdI → Option Ev
  | .tick => some .tick
  | .reset => none
  | .adc raw => some (.adc raw)
  | .pass => none
  | .call e _ => some e

theorem cmdI_ev {v : Speed} {c : Conf} {x y : LoopI} {a : CmdI} (h : loopCmdI v c NeverI x a = some y) :
    LoopIStep c x (evOfI a) y ∧ InTimeI v y := by
  cases a with
  | tick =>
    unfold loopCmdI at h
    obtain ⟨s', es, h⟩ := Option.bind_eq_some_iff.mp h
    simp only [] at h
    split at h
    · rename_i hh; cases h
      exact ⟨.tick hh.1 es, hh.2.1⟩
    · cases h
  | reset =>
    unfold loopCmdI at h
    simp only [] at h
    split at h
    · rename_i hh; cases h
      exact ⟨.reset hh.1.1 hh.1.2, hh.2.1⟩
    · cases h
  | adc raw =>
    unfold loopCmdI at h
    simp only [] at h
    split at h
    · rename_i hh; cases h
      exact ⟨.adc hh.1, hh.2.1⟩
    · cases h
  | pass =>
    unfold loopCmdI at h
    simp only [] at h
    split at h
    · rename_i hh; cases h
      exact ⟨.pass hh.1, hh.2.1⟩
    · cases h
  | call e g => exact ⟨(loopCmdI_call h).1, (loopCmdI_call h).2.1⟩

theorem cmdsI_take {v : Speed} {c : Conf} : ∀ (l : List CmdI) {x y : LoopI}, loopCmdsI v c NeverI x l = some y →
    ∀ n (hn : n < l.length), ∃ a b, loopCmdsI v c NeverI x (l.take n) = some a ∧
      loopCmdsI v c NeverI x (l.take (n + 1)) = some b ∧ loopCmdI v c NeverI a l[n] = some b
  | [], _, _, _ => fun n hn => absurd hn (Nat.not_lt_zero _)
  | a :: l, x, y, h => by
    obtain ⟨z, h1, h2⟩ := Option.bind_eq_some_iff.mp h
    intro n hn
    cases n with
    | zero =>
      refine ⟨x, z, rfl, ?_, h1⟩
      show (loopCmdI v c NeverI x a).bind _ = _
      rw [h1]
      rfl
    | succ n =>
      obtain ⟨p, q, k1, k2, k3⟩ := cmdsI_take l h2 n (by simpa using hn)
      refine ⟨p, q, ?_, ?_, k3⟩
      · show (loopCmdI v c NeverI x a).bind _ = _
        rw [h1]
        exact k1
      · show (loopCmdI v c NeverI x a).bind _ = _
        rw [h1]
        exact k2

end Verif
