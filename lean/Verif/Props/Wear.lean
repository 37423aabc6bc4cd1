import Verif.Spec.Wear
import Verif.Props.Loop
import Verif.Proofs.Wear
import Verif.Proofs.LoopDemo
/-
C81: how often the EEPROM is written.
-/
namespace Verif.Props
open Spec

variable {v : Speed} {c : Conf}

/-- the bytes programmed so far, seen from the store in progress (or the last one), which started at `S`: `m` stores
    after the byte was programmed -/
private def Old (v : Speed) (c : Conf) (x : Loop) (S : Nat) (p : Nat × Nat) : Prop :=
  ∃ m, (p.2 / 64 + m) % c.nrEe = x.s.set.eeIndex ∧ p.1 + 1000 * m ≤ S + 128 * v.B ∧ (m = 0 → p.2 % 64 < x.s.set.eeOff)

private def Apart (v : Speed) (c : Conf) (new old : Nat × Nat) : Prop :=
  old.1 ≤ new.1 ∧ (new.2 = old.2 → old.1 + 1000 * places c ≤ new.1 + 128 * v.B)

private theorem wear_inv {x0 x : Loop} {l : List (Nat × Nat)} (hv : v.Sane) (h0 : LoopLife v c x0)
    (h : Programs v c x0 x l) : LoopLife v c x ∧ ∃ r S, PendInv v c x r S ∧
      (∀ p ∈ l, Old v c x S p ∧ p.1 ≤ x.T ∧ p.2 < places c * 64) ∧ l.Pairwise (Apart v c) := by
  obtain ⟨pl, n1, n2⟩ := places_eq c
  -- a step which does not program anything
  have main : ∀ {x y : Loop} {e : Option Ev} {r : Option Nat} {S : Nat} {l : List (Nat × Nat)}, PendInv v c x r S →
      LoopStep c x e y → InTime v y →
      (∀ p ∈ l, Old v c x S p ∧ p.1 ≤ x.T ∧ p.2 < places c * 64) →
      ∃ r' S', PendInv v c y r' S' ∧ S ≤ S' ∧ (∀ p ∈ l, Old v c y S' p ∧ p.1 ≤ y.T ∧ p.2 < places c * 64) := by
    intro x y e r S l hp hs ht hl
    obtain ⟨r', S', hp', -, -, k1, k2⟩ := hp.step hv hs ht
    have hi := Running.inv (window_inv hp.inv.win).1
    have hT := hs.time
    have hSS : S ≤ S' := by
      by_cases hst : StartsStore x.s y.s
      · have := k1 hst; omega
      · have := k2 hst; omega
    refine ⟨r', S', hp', hSS, fun p hpl => ?_⟩
    obtain ⟨⟨m, m1, m2, m3⟩, b1, b2⟩ := hl p hpl
    refine ⟨?_, by omega, b2⟩
    by_cases hst : StartsStore x.s y.s
    · have hS := k1 hst
      refine ⟨m + 1, ?_, add_store m2 hS, fun h => absurd h (Nat.succ_ne_zero m)⟩
      rcases hs.sys with ⟨-, es, -⟩ | ⟨f, rfl, -, hf, -⟩
      · rw [es] at hst
        have h1 := hst.1
        rw [hst.2] at h1
        cases h1
      · have := C66_only c x.s y.s f (window_inv hp.inv.win).1 hf hst
        subst this
        have hf : y.s = { x.s with set := (settingsWork c x.s.now x.s.set).1 } := by
          rcases step_set hi hf with ⟨z, h, -⟩ | ⟨h, -⟩ | ⟨-, hw⟩ | hw | ⟨z, -, hw⟩
          · cases h
          · cases h
          · exact hw
          · exfalso
            have h1 := hst.1
            rw [← hw, hst.2] at h1
            cases h1
          · exfalso
            have h1 := hst.2
            rw [hw] at h1
            cases h1
        have hidx : y.s.set.eeIndex = (x.s.set.eeIndex + 1) % c.nrEe := by
          rw [hf] at hst ⊢
          exact start_index hi.set.idx hst.1 hst.2
        rw [hidx, ← m1]
        rw [← Nat.add_assoc, Nat.mod_add_mod]
    · have hS := k2 hst
      have hpos : y.s.set.eeIndex = x.s.set.eeIndex ∧ x.s.set.eeOff ≤ y.s.set.eeOff := by
        rcases hs.sys with ⟨-, es, -⟩ | ⟨f, rfl, hpo, hf, -⟩
        · rw [es]
          exact ⟨rfl, Nat.le_refl _⟩
        · rcases step_set hi hf with ⟨z, rfl, hz, hw⟩ | ⟨-, hw⟩ | ⟨rfl, hw⟩ | hw | ⟨z, -, hw⟩
          · simp only [possible, eeReady, Bool.and_eq_true, Option.isNone_iff_eq_none] at hpo
            obtain ⟨q1, q2, -⟩ := eeIsr_pos hz hpo.2 (hi.set.off hpo.1) hi.set.idx
            rw [hw]
            exact ⟨q1, by show x.s.set.eeOff ≤ z.eeOff; omega⟩
          · rw [hw]
            show (eeProgDone x.s.set).eeIndex = _ ∧ _ ≤ (eeProgDone x.s.set).eeOff
            unfold eeProgDone
            split <;> exact ⟨rfl, Nat.le_refl _⟩
          · rw [hw]
            have hsame : (settingsWork c x.s.now x.s.set).1 = x.s.set := by
              by_contra hne
              apply hst
              unfold StartsStore
              rw [hw]
              show _ ∧ (settingsWork c x.s.now x.s.set).1.storeRequest = false
              unfold settingsWork at hne ⊢
              split at hne
              · exact absurd rfl hne
              · rename_i h1
                rw [if_neg h1]
                split at hne
                · exact absurd rfl hne
                · rename_i h2
                  rw [if_neg h2]
                  refine ⟨by simpa using h1, ?_⟩
                  simp only []
                  split <;> rfl
            show (settingsWork c x.s.now x.s.set).1.eeIndex = _ ∧ _ ≤ (settingsWork c x.s.now x.s.set).1.eeOff
            rw [hsame]
            exact ⟨rfl, Nat.le_refl _⟩
          · rw [hw]; exact ⟨rfl, Nat.le_refl _⟩
          · rw [hw]; exact ⟨rfl, Nat.le_refl _⟩
      exact ⟨m, by rw [hpos.1]; exact m1, by rw [hS]; exact m2, fun h => by have := m3 h; omega⟩
  induction h with
  | start =>
    obtain ⟨r, S, h⟩ := h0.inv hv
    exact ⟨h0, r, S, h, fun p hp => (by cases hp), List.Pairwise.nil⟩
  | @programs x y l a d _ hs ht hpr ih =>
    obtain ⟨hx, r, S, hp, hl, hw⟩ := ih
    have hi := Running.inv (window_inv hp.inv.win).1
    obtain ⟨r', S', hp', hS', hl'⟩ := main hp hs ht hl
    have hpast := hp.past
    rcases hs.sys with ⟨h, -⟩ | ⟨f, hf', hpo, hf, eT, -⟩
    · cases h
    cases hf'
    have eT : y.T = x.T := eT
    have hst : ¬ StartsStore x.s y.s := fun hh => by
      have := C66_only c x.s y.s _ (window_inv hp.inv.win).1 hf hh
      cases this
    rcases step_set hi hf with ⟨z, -, hz, hw'⟩ | ⟨h, -⟩ | ⟨h, -⟩ | hw' | ⟨z, -, hw'⟩
    · simp only [possible, eeReady, Bool.and_eq_true, Option.isNone_iff_eq_none] at hpo
      have hoff := hi.set.off hpo.1
      have hidx := hi.set.idx
      obtain ⟨q1, q2, q3⟩ := eeIsr_pos hz hpo.2 hoff hidx
      rw [hw'] at hpr
      have ha := q3 a d hpr
      have hdiv : a / 64 = x.s.set.eeIndex ∧ a % 64 = x.s.set.eeOff := by omega
      have hbusy : x.T ≤ S + 128 * v.B := by
        obtain ⟨b1, b2⟩ := hp.busy (by simp [storing, hpo.1])
        have : 1 ≤ storeLeft x.s.set := by
          unfold storeLeft
          omega
        have : v.B * 1 ≤ v.B * storeLeft x.s.set := Nat.mul_le_mul_left _ this
        omega
      refine ⟨hx.step hs ht, r', S', hp', ?_, List.Pairwise.cons ?_ hw⟩
      · intro p hpm
        rcases List.mem_cons.mp hpm with rfl | hpm
        · refine ⟨⟨0, ?_, ?_, fun _ => ?_⟩, by show x.T ≤ y.T; omega, ?_⟩
          · show (a / 64 + 0) % c.nrEe = y.s.set.eeIndex
            rw [hdiv.1, hw']
            show _ = z.eeIndex
            rw [q1, Nat.add_zero, Nat.mod_eq_of_lt hidx]
          · show x.T + 1000 * 0 ≤ _
            omega
          · show a % 64 < y.s.set.eeOff
            rw [hw']
            show a % 64 < z.eeOff
            omega
          · show a < _
            rw [pl]
            have : (x.s.set.eeIndex + 1) * 64 ≤ c.nrEe * 64 := Nat.mul_le_mul_right _ hidx
            omega
        · exact hl' p hpm
      · intro p hpm
        obtain ⟨⟨m, m1, m2, m3⟩, b1, b2⟩ := hl p hpm
        refine ⟨b1, fun (he : a = p.2) => ?_⟩
        rw [← he] at m1 m3
        rw [hdiv.1] at m1
        have hm0 : m ≠ 0 := fun h => by have := m3 h; omega
        have hm : c.nrEe ≤ m := by
          by_contra hh
          by_cases h1 : x.s.set.eeIndex + m < c.nrEe
          · rw [Nat.mod_eq_of_lt h1] at m1
            omega
          · rw [Nat.mod_eq_sub_mod (by omega), Nat.mod_eq_of_lt (by omega)] at m1
            omega
        show p.1 + 1000 * places c ≤ x.T + 128 * v.B
        rw [pl]
        omega
    · cases h
    · cases h
    · simp only [possible, eeReady, Bool.and_eq_true, Option.isNone_iff_eq_none] at hpo
      rw [hw', hpo.2] at hpr
      cases hpr
    · simp only [possible, eeReady, Bool.and_eq_true, Option.isNone_iff_eq_none] at hpo
      rw [hw'] at hpr
      have hpr : x.s.set.prog = some (a, d) := hpr
      rw [hpo.2] at hpr
      cases hpr
  | other _ hs ht hn ih =>
    obtain ⟨hx, r, S, hp, hl, hw⟩ := ih
    obtain ⟨r', S', hp', hS', hl'⟩ := main hp hs ht hl
    exact ⟨hx.step hs ht, r', S', hp', hl', hw⟩

/-- Two writes of the same byte of the EEPROM are at least as many seconds apart as there are places for the settings,
    less the time which a store may take (128 byte times: 0.512 s at the shipped speed). -/
theorem C81_wear (v : Speed) (hv : v.Sane) (c : Conf) (x0 x : Loop) (l : List (Nat × Nat)) (h0 : LoopLife v c x0)
    (h : Programs v c x0 x l) :
    l.Pairwise fun new old => old.1 ≤ new.1 ∧ (new.2 = old.2 → old.1 + 1000 * places c ≤ new.1 + 128 * v.B) := by
  obtain ⟨-, r, S, -, -, h⟩ := wear_inv hv h0 h
  exact h

/-- Only the places of the settings are written. -/
theorem C81_range (v : Speed) (hv : v.Sane) (c : Conf) (x0 x : Loop) (l : List (Nat × Nat)) (h0 : LoopLife v c x0)
    (h : Programs v c x0 x l) : ∀ p ∈ l, p.1 ≤ x.T ∧ p.2 < places c * 64 := by
  obtain ⟨-, r, S, -, h, -⟩ := wear_inv hv h0 h
  exact fun p hp => (h p hp).2

/-- The station as it is shipped writes a byte of the EEPROM at most once in 7.488 seconds. -/
theorem C81_shipped (x0 x : Loop) (l : List (Nat × Nat)) (h0 : LoopLife .shipped .m88p x0)
    (h : Programs .shipped .m88p x0 x l) : l.Pairwise fun new old => new.2 = old.2 → old.1 + 7488 ≤ new.1 :=
  (C81_wear .shipped (by unfold Speed.Sane; decide) .m88p x0 x l h0 h).imp fun ⟨_, h⟩ e => by
    have := h e
    simp only [places, Conf.m88p, Speed.shipped] at this
    simp at this
    omega

/-! ### example -/

/-- the step programs a byte -/
private def Burns (_ : Loop) (e : Option Ev) (y : Loop) : Prop := e = some .eeIsr ∧ y.s.set.prog ≠ none

private instance (x : Loop) (e : Option Ev) (y : Loop) : Decidable (Burns x e y) := by unfold Burns; infer_instance

private theorem burns_tick : TickCheck c Burns := by rintro _ _ _ _ _ ⟨h, -⟩; cases h

private theorem stretch_programs {x0 x y : Loop} {l : List (Nat × Nat)} (h : Programs v c x0 x l)
    (hs : Stretch v c Burns x y) : Programs v c x0 y l := by
  induction hs with
  | start => exact h
  | step _ hs ht hn ih => exact ih.other hs ht fun he => Classical.byContradiction fun hh => hn ⟨he, hh⟩

/-- the EEPROM writer runs to its end, within one tick; with the bytes programmed -/
private def progDrive (v : Speed) (c : Conf) : Nat → Loop × List (Nat × Nat) → Option (Loop × List (Nat × Nat))
  | 0, p => some p
  | n + 1, p =>
    if p.1.s.set.prog.isSome then
      (loopCmd v c Burns p.1 (.ev .eeDone)).bind fun y => progDrive v c n (y, p.2)
    else if p.1.s.set.eerie then
      (loopCmd v c Never p.1 (.ev .eeIsr)).bind fun y =>
        progDrive v c n (y, (match y.s.set.prog with | some (a, _) => (p.1.T, a) :: p.2 | none => p.2))
    else some p

private theorem isr_step {x y : Loop} (h : loopCmd v c Never x (.ev .eeIsr) = some y) :
    LoopStep c x (some .eeIsr) y ∧ InTime v y := by
  obtain ⟨s', es, h⟩ := Option.bind_eq_some_iff.mp h
  rw [if_pos (by decide)] at h
  simp only [] at h
  split at h
  · rename_i hh
    cases h
    exact ⟨LoopStep.isr (by decide) hh.1 es, hh.2.1⟩
  · cases h

private theorem progDrive_programs {x0 : Loop} (n : Nat) : ∀ {p q : Loop × List (Nat × Nat)},
    progDrive v c n p = some q → Programs v c x0 p.1 p.2 → Programs v c x0 q.1 q.2 := by
  induction n with
  | zero => intro p q e h; cases e; exact h
  | succ n ih =>
    intro p q e h
    unfold progDrive at e
    split at e
    · obtain ⟨y, e1, e2⟩ := Option.bind_eq_some_iff.mp e
      exact ih e2 (stretch_programs h (loopCmd_stretch burns_tick e1))
    · split at e
      · obtain ⟨y, e1, e2⟩ := Option.bind_eq_some_iff.mp e
        obtain ⟨k1, k2⟩ := isr_step e1
        refine ih e2 ?_
        show Programs v c x0 y _
        split
        · rename_i hp
          exact h.programs k1 k2 hp
        · rename_i hp
          exact h.other k1 k2 fun _ => hp
      · cases e; exact h

/-- a build without the ring of places: every store writes the same place -/
private def noRing : Conf := { Conf.m88p with eering := false }

/-- the plus button is pressed and released, twice -/
private def plus : List Cmd :=
  samples 20 280 ++ round 0xEF ++ samples 20 280 ++ round 0xFF ++ samples 10 280 ++ [.pause 10] ++ round 0xEF ++
    samples 5 0 ++ [.pause 15] ++ round 0xFF

private def twice : Option (Loop × Loop × List (Nat × Nat)) :=
  (loopBoot noRing 0xFF).bind fun x =>
    (loopCmds .shipped noRing Burns x (plus ++ cycles 2 280 0)).bind fun y =>
      (progDrive .shipped noRing 130 (y, [])).bind fun p =>
        (loopCmds .shipped noRing Burns p.1 (plus ++ cycles 2 280 0)).bind fun z =>
          (progDrive .shipped noRing 130 (z, p.2)).map fun q => (x, q)

set_option maxRecDepth 100000 in
/-- Without the ring, selecting another preset twice programs the byte at the address 57 twice, 1.08 s apart. -/
example : ∃ x0 x, LoopLife .shipped noRing x0 ∧ Programs .shipped noRing x0 x [(2160, 57), (1080, 57)] ∧
    places noRing = 1 := by
  have h : (twice.map fun q => q.2.2) = some [(2160, 57), (1080, 57)] := by decide
  obtain ⟨⟨x0, q⟩, e, hl⟩ := Option.map_eq_some_iff.mp h
  obtain ⟨b, hb, e⟩ := Option.bind_eq_some_iff.mp e
  obtain ⟨y, e1, e⟩ := Option.bind_eq_some_iff.mp e
  obtain ⟨p, e2, e⟩ := Option.bind_eq_some_iff.mp e
  obtain ⟨z, e3, e⟩ := Option.bind_eq_some_iff.mp e
  obtain ⟨q', e4, e⟩ := Option.map_eq_some_iff.mp e
  cases e
  have hl : q.2 = [(2160, 57), (1080, 57)] := hl
  have h1 := stretch_programs Programs.start (loopCmds_stretch burns_tick e1)
  have h2 := progDrive_programs 130 e2 h1
  have h3 := stretch_programs h2 (loopCmds_stretch burns_tick e3)
  have h4 := progDrive_programs 130 e4 h3
  rw [hl] at h4
  exact ⟨x0, q.1, loopBoot_life hb, h4, by decide⟩

end Verif.Props
