import Verif.Proofs.WearIn
import Verif.Proofs.StoreDemo
/-
C120: how often the EEPROM is written, with interrupts inside the work functions.
-/
namespace Verif.Props
open Spec StoreDemo

/-- Two writes of the same byte of the EEPROM are at least as many seconds apart as there are places for the settings,
    less the time which a store may take (128 byte times: 0.512 s at the shipped speed). -/
theorem C120_wear (v : Speed) (hv : v.SaneE) (c : Conf) (x0 x : LoopI) (L0 L : Nat) (l : List (Nat × Nat))
    (h0 : LifeI v c x0 L0) (h : ProgramsI v c x0 L0 x L l) :
    l.Pairwise fun new old => old.1 ≤ new.1 ∧ (new.2 = old.2 → old.1 + 1000 * places c ≤ new.1 + 128 * v.B) := by
  obtain ⟨r, S, -, -, h⟩ := wear_invI hv h0 h
  exact h

/-- Only the places of the settings are written. -/
theorem C120_range (v : Speed) (hv : v.SaneE) (c : Conf) (x0 x : LoopI) (L0 L : Nat) (l : List (Nat × Nat))
    (h0 : LifeI v c x0 L0) (h : ProgramsI v c x0 L0 x L l) : ∀ p ∈ l, p.1 ≤ x.T ∧ p.2 < places c * 64 := by
  obtain ⟨r, S, -, h, -⟩ := wear_invI hv h0 h
  intro p hp
  obtain ⟨-, h1, h2⟩ := h.old p hp
  have := h.last
  exact ⟨by omega, h2⟩

/-- The station as it is shipped writes a byte of the EEPROM at most once in 7.488 seconds. -/
theorem C120_shipped (x0 x : LoopI) (L0 L : Nat) (l : List (Nat × Nat)) (h0 : LifeI .shipped .m88p x0 L0)
    (h : ProgramsI .shipped .m88p x0 L0 x L l) : l.Pairwise fun new old => new.2 = old.2 → old.1 + 7488 ≤ new.1 :=
  (C120_wear .shipped (by unfold Speed.SaneE Speed.SaneI; decide) .m88p x0 x L0 L l h0 h).imp fun ⟨_, h⟩ e => by
    have := h e
    simp only [places, Conf.m88p, Speed.shipped] at this
    simp at this
    omega

/-! ### example -/

/-- the step programs a byte -/
private def Burns (_ : LoopI) (e : Option Ev) (y : LoopI) : Prop := e = some .eeIsr ∧ y.s.set.prog ≠ none

private instance (x : LoopI) (e : Option Ev) (y : LoopI) : Decidable (Burns x e y) := by unfold Burns; infer_instance

variable {v : Speed} {c : Conf}

/-- follow the writer up to the present, with a step every `B`, and with the bytes programmed -/
private def burn (v : Speed) (c : Conf) : Nat → (LoopI × Nat) × List (Nat × Nat) → Option ((LoopI × Nat) × List (Nat × Nat))
  | 0, p => some p
  | n + 1, p =>
    let e := if possible p.1.1.s .eeIsr then Ev.eeIsr else .eeDone
    if possible p.1.1.s e = true ∧ p.1.2 + v.B ≤ p.1.1.T then
      (step c p.1.1.s e).bind fun s' =>
        let y := { p.1.1 with s := s' }
        if InTimeI v y then
          burn v c n ((y, p.1.2 + v.B),
            if Burns p.1.1 (some e) y then (p.1.2 + v.B, (s'.set.prog.getD (0, 0)).1) :: p.2 else p.2)
        else none
    else some p

private theorem burn_programs {x0 : LoopI} {L0 : Nat} (n : Nat) : ∀ {p q : (LoopI × Nat) × List (Nat × Nat)},
    burn v c n p = some q → ProgramsI v c x0 L0 p.1.1 p.1.2 p.2 → ProgramsI v c x0 L0 q.1.1 q.1.2 q.2 := by
  induction n with
  | zero => intro p q e h; cases e; exact h
  | succ n ih =>
    intro p q h hp
    have he : (if possible p.1.1.s .eeIsr = true then Ev.eeIsr else .eeDone) = .eeIsr ∨
        (if possible p.1.1.s .eeIsr = true then Ev.eeIsr else .eeDone) = .eeDone := by
      split
      · exact Or.inl rfl
      · exact Or.inr rfl
    unfold burn at h
    generalize (if possible p.1.1.s .eeIsr = true then Ev.eeIsr else .eeDone) = e at h he
    simp only [] at h
    split at h
    · rename_i h1
      obtain ⟨s', es, h⟩ := Option.bind_eq_some_iff.mp h
      split at h
      · rename_i h2
        have hw : WriterStep v c p.1.1 p.1.2 (some e) { p.1.1 with s := s' } (p.1.2 + v.B) :=
          .writer (.ee he h1.1 es) he h2 (by omega) (Nat.le_refl _) h1.2
        refine ih h ?_
        show ProgramsI v c x0 L0 { p.1.1 with s := s' } (p.1.2 + v.B) _
        split
        · rename_i hb
          obtain ⟨hb, hpr⟩ := hb
          cases hb
          obtain ⟨⟨a, d⟩, hd⟩ := Option.ne_none_iff_exists'.mp hpr
          have hd : s'.set.prog = some (a, d) := hd
          rw [hd]
          exact hp.programs hw hd
        · rename_i hb
          exact hp.other hw fun hh => Classical.byContradiction fun hpr => hb ⟨hh, hpr⟩
      · cases h
    · cases h; exact hp

private def burns (v : Speed) (c : Conf) (p : (LoopI × Nat) × List (Nat × Nat)) :
    List CmdI → Option ((LoopI × Nat) × List (Nat × Nat))
  | [] => some p
  | a :: l => (burn v c 130 p).bind fun q => (act v c Burns q.1 a).bind fun r => burns v c (r, q.2) l

private theorem burns_programs {x0 : LoopI} {L0 : Nat} {l : List CmdI} : ∀ {p q : (LoopI × Nat) × List (Nat × Nat)},
    burns v c p l = some q → ProgramsI v c x0 L0 p.1.1 p.1.2 p.2 → ProgramsI v c x0 L0 q.1.1 q.1.2 q.2 := by
  induction l with
  | nil => intro p q e h; cases e; exact h
  | cons a l ih =>
    intro p q h hp
    obtain ⟨q1, h1, h⟩ := Option.bind_eq_some_iff.mp h
    obtain ⟨r, h2, h⟩ := Option.bind_eq_some_iff.mp h
    obtain ⟨e, k1, k2⟩ := act_step v c Burns h2
    exact ih h ((burn_programs 130 h1 hp).other k1 fun hh => Classical.byContradiction fun hpr => k2 ⟨hh, hpr⟩)

/-- a build without the ring of places: every store writes the same place -/
private def noRing : Conf := { Conf.m88p with eering := false }

/-- another preset is selected and stored; the settings are stored by a call with 5 ticks inside -/
private def once : List CmdI :=
  press ++ [.call (.buttonsWork 0xFF) [2, 3]] ++ wait ++ [.call .settingsWork [5]] ++
    (List.replicate 5 [CmdI.pass, .adc 0]).flatten ++ roundI [195] 0xFF

set_option maxRecDepth 100000 in
/-- Without the ring, selecting another preset twice programs the byte at the address 57 twice, 1.55 s apart:
    `C120_wear` and `C120_range` apply. -/
example : ∃ x0 x L, LifeI .shipped noRing x0 0 ∧ ProgramsI .shipped noRing x0 0 x L [(3137, 57), (1587, 57)] ∧
    places noRing = 1 := by
  have h : (((loopBootI noRing 0xFF).bind fun x => (burns .shipped noRing ((x, 0), []) (once ++ once ++ samplesI 45 280)).map
      fun q => (x, q)).map fun q => q.2.2) = some [(3137, 57), (1587, 57)] := by decide +kernel
  obtain ⟨⟨x0, q⟩, e, hl⟩ := Option.map_eq_some_iff.mp h
  obtain ⟨b, hb, e⟩ := Option.bind_eq_some_iff.mp e
  obtain ⟨q', e1, e⟩ := Option.map_eq_some_iff.mp e
  cases e
  have hl : q.2 = [(3137, 57), (1587, 57)] := hl
  obtain ⟨s, hs, rfl⟩ := Option.map_eq_some_iff.mp hb
  have h1 := burns_programs e1 .start
  rw [hl] at h1
  exact ⟨_, q.1.1, q.1.2, .first hs, h1, by decide⟩

end Verif.Props
