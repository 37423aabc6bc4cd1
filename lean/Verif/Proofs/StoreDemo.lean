import Verif.Proofs.StoreIn
import Verif.Proofs.LoopInDemo
/-
Concrete runs of the main loop with the EEPROM writer, for the examples.
-/
namespace Verif.StoreDemo
open Spec

instance (x : LoopI) (e : Option Ev) (y : LoopI) : Decidable (RequestsI x e y) := by unfold RequestsI; infer_instance
instance (s s' : Sys) : Decidable (StartsStore s s') := by unfold StartsStore; infer_instance
instance (x : LoopI) : Decidable (WriterBusy x) := by unfold WriterBusy; infer_instance

theorem trans {v : Speed} {c : Conf} {P : LoopI → Option Ev → LoopI → Prop} {x y z : LoopI} {L M N : Nat}
    (h : StretchE v c P x L y M) (h' : StretchE v c P y M z N) : StretchE v c P x L z N := by
  induction h' with
  | start => exact h
  | step _ hs hn ih => exact .step ih hs hn

theorem life {v : Speed} {c : Conf} {P : LoopI → Option Ev → LoopI → Prop} {x y : LoopI} {L M : Nat}
    (hx : LifeI v c x L) (h : StretchE v c P x L y M) : LifeI v c y M := by
  induction h with
  | start => exact hx
  | step _ hs _ ih => exact .step ih hs

variable (v : Speed) (c : Conf) (P : LoopI → Option Ev → LoopI → Prop) [∀ x e y, Decidable (P x e y)]

/-- follow the writer up to the present, with a step every `B` -/
def follow : Nat → LoopI × Nat → Option (LoopI × Nat)
  | 0, p => some p
  | n + 1, p =>
    let e := if possible p.1.s .eeIsr then Ev.eeIsr else .eeDone
    if possible p.1.s e = true ∧ p.2 + v.B ≤ p.1.T then
      (step c p.1.s e).bind fun s' =>
        let y := { p.1 with s := s' }
        if InTimeI v y ∧ ¬ P p.1 (some e) y then follow n (y, p.2 + v.B) else none
    else some p

theorem follow_stretch (n : Nat) : ∀ {p q : LoopI × Nat}, follow v c P n p = some q → StretchE v c P p.1 p.2 q.1 q.2 := by
  induction n with
  | zero => intro p q h; cases h; exact .start
  | succ n ih =>
    intro p q h
    have he : (if possible p.1.s .eeIsr = true then Ev.eeIsr else .eeDone) = .eeIsr ∨
        (if possible p.1.s .eeIsr = true then Ev.eeIsr else .eeDone) = .eeDone := by
      split
      · exact Or.inl rfl
      · exact Or.inr rfl
    unfold follow at h
    generalize (if possible p.1.s .eeIsr = true then Ev.eeIsr else .eeDone) = e at h he
    simp only [] at h
    split at h
    · rename_i h1
      obtain ⟨s', es, h⟩ := Option.bind_eq_some_iff.mp h
      split at h
      · rename_i h2
        exact trans (.step .start (.writer (.ee he h1.1 es) he h2.1 (by omega) (Nat.le_refl _) h1.2) h2.2) (ih h)
      · cases h
    · cases h; exact .start

/-- a command, the writer having been followed up to the present -/
def act (p : LoopI × Nat) (a : CmdI) : Option (LoopI × Nat) :=
  (loopCmdI v c P p.1 a).bind fun y =>
    if WriterBusy p.1 → p.1.T ≤ p.2 + v.B then some (y, if StartsStore p.1.s y.s then y.T else p.2) else none

def cmd (p : LoopI × Nat) (a : CmdI) : Option (LoopI × Nat) :=
  (follow v c P 130 p).bind fun q => act v c P q a

def cmds (p : LoopI × Nat) : List CmdI → Option (LoopI × Nat)
  | [] => some p
  | a :: l => (cmd v c P p a).bind fun q => cmds q l

theorem cmdI_ev {x y : LoopI} {a : CmdI} (h : loopCmdI v c P x a = some y) :
    ∃ e, LoopIStep c x e y ∧ InTimeI v y ∧ ¬ P x e y ∧ e ≠ some .eeIsr ∧ e ≠ some .eeDone := by
  cases a with
  | call f g =>
    unfold loopCmdI at h
    simp only [] at h
    split at h
    · rename_i s' es
      split at h
      · rename_i hh; cases h
        have hwk := call_work hh.1.2
        exact ⟨_, .call hh.1.1 hh.1.2 es, hh.2.1, hh.2.2, (by rintro h; cases h; cases hwk), (by rintro h; cases h; cases hwk)⟩
      · cases h
    · cases h
  | tick =>
    unfold loopCmdI at h
    obtain ⟨s', es, h⟩ := Option.bind_eq_some_iff.mp h
    simp only [] at h
    split at h
    · rename_i hh; cases h
      exact ⟨_, .tick hh.1 es, hh.2.1, hh.2.2, by simp, by simp⟩
    · cases h
  | reset =>
    unfold loopCmdI at h
    simp only [] at h
    split at h
    · rename_i hh; cases h
      exact ⟨_, .reset hh.1.1 hh.1.2, hh.2.1, hh.2.2, by simp, by simp⟩
    · cases h
  | adc raw =>
    unfold loopCmdI at h
    simp only [] at h
    split at h
    · rename_i hh; cases h
      exact ⟨_, .adc hh.1, hh.2.1, hh.2.2, by simp, by simp⟩
    · cases h
  | pass =>
    unfold loopCmdI at h
    simp only [] at h
    split at h
    · rename_i hh; cases h
      exact ⟨_, .pass hh.1, hh.2.1, hh.2.2, by simp, by simp⟩
    · cases h

theorem act_step {p q : LoopI × Nat} {a : CmdI} (h : act v c P p a = some q) :
    ∃ e, WriterStep v c p.1 p.2 e q.1 q.2 ∧ ¬ P p.1 e q.1 := by
  unfold act at h
  obtain ⟨y, h2, h⟩ := Option.bind_eq_some_iff.mp h
  obtain ⟨e, k1, k2, k3, k4, k5⟩ := cmdI_ev v c P h2
  split at h
  · rename_i hu
    cases h
    refine ⟨e, ?_, k3⟩
    by_cases hst : StartsStore p.1.s y.s
    · simp only [if_pos hst]; exact .starts k1 k2 hu hst
    · simp only [if_neg hst]; exact .other k1 k4 k5 k2 hu hst
  · cases h

theorem cmd_stretch {p q : LoopI × Nat} {a : CmdI} (h : cmd v c P p a = some q) : StretchE v c P p.1 p.2 q.1 q.2 := by
  obtain ⟨r, h1, h⟩ := Option.bind_eq_some_iff.mp h
  obtain ⟨e, k1, k2⟩ := act_step v c P h
  exact trans (follow_stretch v c P 130 h1) (.step .start k1 k2)

theorem cmds_stretch {l : List CmdI} : ∀ {p q : LoopI × Nat}, cmds v c P p l = some q →
    StretchE v c P p.1 p.2 q.1 q.2 := by
  induction l with
  | nil => intro p q h; cases h; exact .start
  | cons a l ih =>
    intro p q h
    obtain ⟨r, h1, h2⟩ := Option.bind_eq_some_iff.mp h
    exact trans (cmd_stretch v c P h1) (ih h2)

/-- plus is pressed twice, up to the iteration which sees the second release; the first part of that iteration -/
def press : List CmdI :=
  samplesI 20 280 ++ roundI [] 0xEF ++ samplesI 20 280 ++ roundI [] 0xFF ++ samplesI 10 280 ++
    List.replicate 10 .tick ++ roundI [] 0xEF ++ samplesI 5 0 ++ List.replicate 15 .tick ++
    [.reset, .call .measureWork [], .call .menuWork [], .call .displayWork []]

/-- its last part, and the time up to the iteration which starts the store -/
def wait : List CmdI :=
  (List.replicate 5 [CmdI.pass, .adc 280]).flatten ++ [.call .settingsWork []] ++
    samplesI 45 280 ++ roundI [240] 0xFF ++ samplesI 5 0 ++ roundI [195] 0xFF ++ cyclesI 1 280 0 ++ samplesI 50 280 ++
    [.reset, .call .measureWork [240], .call .menuWork [], .call .displayWork [], .call (.buttonsWork 0xFF) []]

/-- the time after the start of the store -/
def after : List CmdI :=
  (List.replicate 5 [CmdI.pass, .adc 0]).flatten ++ roundI [195] 0xFF ++ cyclesI 3 280 0

theorem any_some {α : Type} {x : Option α} {P : α → Bool} (h : x.any P = true) : ∃ a, x = some a ∧ P a = true := by
  match x, h with
  | some a, h => exact ⟨a, rfl, h⟩

theorem bind_some {α β : Type} {x : Option α} {f : α → Option β} {P : α → β → Bool}
    (h : x.any (fun a => (f a).any (P a)) = true) : ∃ a b, x = some a ∧ f a = some b ∧ P a b = true := by
  match x, h with
  | some a, h =>
    obtain ⟨b, h1, h2⟩ := any_some (x := f a) h
    exact ⟨a, b, rfl, h1, h2⟩

end Verif.StoreDemo
