import Verif.Spec.WearIn
import Verif.Proofs.Wear
import Verif.Proofs.StoreIn
/-
How often the EEPROM is written, with interrupts inside the work functions.
-/
namespace Verif
open Spec Props

variable {v : Speed} {c : Conf}

theorem Spec.WriterStep.loop {x y : LoopI} {L M : Nat} {e : Option Ev} (h : WriterStep v c x L e y M) :
    LoopIStep c x e y ∧ InTimeI v y := by
  cases h with
  | writer h1 _ h2 => exact ⟨h1, h2⟩
  | starts h1 h2 => exact ⟨h1, h2⟩
  | other h1 _ _ h2 => exact ⟨h1, h2⟩

/-- the ticks of the writer do not go back -/
theorem Spec.WriterStep.mono {x y : LoopI} {L M : Nat} {e : Option Ev} (h : WriterStep v c x L e y M) (hL : L ≤ x.T) :
    L ≤ M ∧ M ≤ y.T := by
  have hT := h.loop.1.time
  cases h with
  | writer _ _ _ h1 _ h2 => exact ⟨h1, by omega⟩
  | starts => exact ⟨by omega, Nat.le_refl _⟩
  | other => exact ⟨Nat.le_refl _, by omega⟩

theorem Spec.LifeI.last {x : LoopI} {L : Nat} (hv : v.SaneE) (h : LifeI v c x L) :
    ∃ r S, StoreI v c x L r S ∧ S ≤ L ∧ L ≤ x.T := by
  induction h with
  | @first pinb s e =>
    exact ⟨none, 0, StoreI.boot (shipped_valid c) e (lasting_inv (Lasting.first e)).2, Nat.le_refl _, Nat.le_refl _⟩
  | @step x L e y M _ hs ih =>
    obtain ⟨r, S, h, h1, h2⟩ := ih
    obtain ⟨r', S', h', hn⟩ := h.step hv hs
    obtain ⟨k1, k2⟩ := hs.mono h2
    refine ⟨r', S', h', ?_, k2⟩
    by_cases hst : StartsStore x.s y.s
    · have : M = y.T := by
        cases hs with
        | starts => rfl
        | other _ _ _ _ _ hh => exact absurd hst hh
        | writer hl he =>
          exfalso
          obtain ⟨j, κ, hp⟩ := h.pinv
          rcases hl.set h.inv.now with ⟨f, -, he, hpo, hs', -⟩ | ⟨hf, -⟩ | ⟨-, ne1, ne2, -⟩
          · obtain ⟨-, -, k3, -⟩ := hp.write he hpo hs'
            obtain ⟨h1, h2⟩ := hst
            rw [k3, h1] at h2; cases h2
          · rcases he with rfl | rfl <;> cases hf
          · rcases he with rfl | rfl
            · exact ne1 rfl
            · exact ne2 rfl
      have := (hn.start hst).1
      omega
    · have := hn.keep hst
      omega
  | @reboot x L b pinb s _ hb hvalid e ih =>
    obtain ⟨r, S, h, -⟩ := ih
    obtain ⟨j, κ, hp⟩ := h.pinv
    exact ⟨none, 0, StoreI.boot hvalid e (hp.reboot hb (boot_set hvalid e)), Nat.le_refl _, Nat.le_refl _⟩

/-- the bytes programmed so far, seen from the store in progress (or the last one), which started at `S`: `m` stores
    after the byte was programmed -/
def OldI (v : Speed) (c : Conf) (x : LoopI) (S : Nat) (p : Nat × Nat) : Prop :=
  ∃ m, (p.2 / 64 + m) % c.nrEe = x.s.set.eeIndex ∧ p.1 + 1000 * m ≤ S + 128 * v.B ∧ (m = 0 → p.2 % 64 < x.s.set.eeOff)

def ApartI (v : Speed) (c : Conf) (new old : Nat × Nat) : Prop :=
  old.1 ≤ new.1 ∧ (new.2 = old.2 → old.1 + 1000 * places c ≤ new.1 + 128 * v.B)

/-- what is known about the bytes programmed so far -/
structure WornI (v : Speed) (c : Conf) (x : LoopI) (L S : Nat) (l : List (Nat × Nat)) : Prop where
  start : S ≤ L
  last : L ≤ x.T
  old : ∀ p ∈ l, OldI v c x S p ∧ p.1 ≤ L ∧ p.2 < places c * 64

/-- how a step moves the position of the writer, other than at the start of a store -/
theorem LoopIStep.pos {x y : LoopI} {e : Option Ev} (hi : LoopIInv v c x) (hs : LoopIStep c x e y)
    (hst : ¬ StartsStore x.s y.s) : y.s.set.eeIndex = x.s.set.eeIndex ∧ x.s.set.eeOff ≤ y.s.set.eeOff := by
  rcases hs.set hi.now with ⟨f, -, he, hpo, hf, -⟩ | ⟨-, hset, -⟩ | ⟨-, -, -, hset⟩
  · rcases he with rfl | rfl
    · rcases step_set hi.inv hf with ⟨z, -, hz, hw⟩ | ⟨h, -⟩ | ⟨h, -⟩ | hw | ⟨z, -, hw⟩
      · simp only [possible, eeReady, Bool.and_eq_true, Option.isNone_iff_eq_none] at hpo
        obtain ⟨q1, q2, -⟩ := eeIsr_pos hz hpo.2 (hi.inv.set.off hpo.1) hi.inv.set.idx
        rw [hw]
        exact ⟨q1, by show x.s.set.eeOff ≤ z.eeOff; omega⟩
      · cases h
      · cases h
      · rw [hw]; exact ⟨rfl, Nat.le_refl _⟩
      · rw [hw]; exact ⟨rfl, Nat.le_refl _⟩
    · rw [← Option.some.inj hf]
      show (eeProgDone x.s.set).eeIndex = _ ∧ _ ≤ (eeProgDone x.s.set).eeOff
      unfold eeProgDone
      split <;> exact ⟨rfl, Nat.le_refl _⟩
  · rcases settingsWork_cases (c := c) (nowAt y.T) x.s.set with ⟨hsame, -⟩ | ⟨q1, -, q3, -⟩
    · rw [hset, hsame]; exact ⟨rfl, Nat.le_refl _⟩
    · exact absurd ⟨q1, by rw [hset]; exact q3⟩ hst
  · rcases hset with hset | ⟨z, t, -, -, -, hset⟩ <;> rw [hset] <;> exact ⟨rfl, Nat.le_refl _⟩

/-- the start of a store goes on to the next place -/
theorem LoopIStep.next {x y : LoopI} {e : Option Ev} {L S : Nat} {r : Option Nat} (hi : StoreI v c x L r S)
    (hs : LoopIStep c x e y) (hst : StartsStore x.s y.s) :
    e = some .settingsWork ∧ y.s.set.eeIndex = (x.s.set.eeIndex + 1) % c.nrEe := by
  obtain ⟨j, κ, hp⟩ := hi.pinv
  obtain ⟨h1, h2⟩ := hst
  rcases hs.set hi.inv.now with ⟨f, -, he, hpo, hf, -⟩ | ⟨he, hset, -⟩ | ⟨-, -, -, hset⟩
  · obtain ⟨-, -, k3, -⟩ := hp.write he hpo hf
    rw [k3, h1] at h2; cases h2
  · rw [hset] at h2 ⊢
    exact ⟨he, start_index hi.inv.inv.set.idx h1 h2⟩
  · rcases hset with hset | ⟨z, t, -, -, -, hset⟩
    · rw [hset, h1] at h2; cases h2
    · rw [hset] at h2; cases h2

theorem WornI.step {x y : LoopI} {e : Option Ev} {L M S : Nat} {r : Option Nat} {l : List (Nat × Nat)} (hv : v.SaneE)
    (hp : StoreI v c x L r S) (h : WornI v c x L S l) (hw : WriterStep v c x L e y M) :
    ∃ r' S', StoreI v c y M r' S' ∧ WornI v c y M S' l ∧ (¬ StartsStore x.s y.s → S' = S) := by
  obtain ⟨r', S', hp', hn⟩ := hp.step hv hw
  obtain ⟨hs, -⟩ := hw.loop
  obtain ⟨k1, k2⟩ := hw.mono h.last
  by_cases hst : StartsStore x.s y.s
  · obtain ⟨eS, -, R, eR, hR, -⟩ := hn.start hst
    have hSR := (hp.timer R eR).2.1
    obtain ⟨he, hidx⟩ := hs.next hp hst
    have hM : M = y.T := by
      cases hw with
      | starts => rfl
      | other _ _ _ _ _ hh => exact absurd hst hh
      | writer _ hh => cases he; rcases hh with hh | hh <;> cases hh
    refine ⟨r', S', hp', ⟨by omega, k2, fun p hpl => ?_⟩, fun hh => absurd hst hh⟩
    obtain ⟨⟨m, m1, m2, m3⟩, b1, b2⟩ := h.old p hpl
    refine ⟨⟨m + 1, ?_, add_store m2 (by omega), fun h => absurd h (Nat.succ_ne_zero m)⟩, by omega, b2⟩
    rw [hidx, ← m1, ← Nat.add_assoc, Nat.mod_add_mod]
  · have eS := hn.keep hst
    have h0 := h.start
    obtain ⟨q1, q2⟩ := hs.pos hp.inv hst
    refine ⟨r', S', hp', ⟨by omega, k2, fun p hpl => ?_⟩, fun _ => eS⟩
    obtain ⟨⟨m, m1, m2, m3⟩, b1, b2⟩ := h.old p hpl
    exact ⟨⟨m, by rw [q1]; exact m1, by rw [eS]; exact m2, fun h => by have := m3 h; omega⟩, by omega, b2⟩

/-- what is programmed is the byte at the position of the writer -/
theorem LoopIStep.programs {x y : LoopI} {a d : Nat} (hi : LoopIInv v c x) (hs : LoopIStep c x (some .eeIsr) y)
    (hpr : y.s.set.prog = some (a, d)) : storing x.s.set = true ∧ x.s.set.eeOff < 64 ∧
      a = x.s.set.eeIndex * 64 + x.s.set.eeOff ∧ y.s.set.eeIndex = x.s.set.eeIndex ∧ y.s.set.eeOff = x.s.set.eeOff + 1 := by
  rcases hs.set hi.now with ⟨f, hf', he, hpo, hf, -⟩ | ⟨h, -⟩ | ⟨-, ne1, -⟩
  · cases hf'
    simp only [possible, eeReady, Bool.and_eq_true, Option.isNone_iff_eq_none] at hpo
    rcases step_set hi.inv hf with ⟨z, -, hz, hw⟩ | ⟨h, -⟩ | ⟨h, -⟩ | hw | ⟨z, -, hw⟩
    · have hoff := hi.inv.set.off hpo.1
      obtain ⟨q1, q2, q3⟩ := eeIsr_pos hz hpo.2 hoff hi.inv.set.idx
      rw [hw] at hpr ⊢
      exact ⟨by simp [storing, hpo.1], hoff, q3 a d hpr, q1, q2⟩
    · cases h
    · cases h
    · rw [hw, hpo.2] at hpr; cases hpr
    · rw [hw] at hpr
      have hpr : x.s.set.prog = some (a, d) := hpr
      rw [hpo.2] at hpr; cases hpr
  · cases h
  · exact absurd rfl ne1

theorem wear_invI {x0 x : LoopI} {L0 L : Nat} {l : List (Nat × Nat)} (hv : v.SaneE) (h0 : LifeI v c x0 L0)
    (h : ProgramsI v c x0 L0 x L l) :
    ∃ r S, StoreI v c x L r S ∧ WornI v c x L S l ∧ l.Pairwise (ApartI v c) := by
  obtain ⟨pl, n1, n2⟩ := places_eq c
  induction h with
  | start =>
    obtain ⟨r, S, h, h1, h2⟩ := h0.last hv
    exact ⟨r, S, h, ⟨h1, h2, fun p hp => (by cases hp)⟩, List.Pairwise.nil⟩
  | @programs x L y M l a d _ hw hpr ih =>
    obtain ⟨r, S, hp, hl, hpw⟩ := ih
    obtain ⟨hs, -⟩ := hw.loop
    obtain ⟨p1, p2, ha, p3, p4⟩ := hs.programs hp.inv hpr
    have hst : ¬ StartsStore x.s y.s := fun hh => by
      have := (hs.next hp hh).1
      cases this
    obtain ⟨r', S', hp', hl', eS⟩ := hl.step hv hp hw
    have eS := eS hst
    have hidx := hp.inv.inv.set.idx
    have hdiv : a / 64 = x.s.set.eeIndex ∧ a % 64 = x.s.set.eeOff := by omega
    have hLM := hw.mono hl.last
    have hSL := hl.start
    have hbusy : M ≤ S + 128 * v.B := by
      have b1 := hp.busy p1
      have : 1 ≤ storeLeft x.s.set := by
        unfold storeLeft
        omega
      have : v.B * 1 ≤ v.B * storeLeft x.s.set := Nat.mul_le_mul_left _ this
      cases hw with
      | writer _ _ _ _ h2 => omega
      | starts _ _ _ hh => exact absurd hh hst
      | other _ hh => exact absurd rfl hh
    refine ⟨r', S', hp', ⟨hl'.start, hl'.last, ?_⟩, List.Pairwise.cons ?_ hpw⟩
    · intro p hpm
      rcases List.mem_cons.mp hpm with rfl | hpm
      · refine ⟨⟨0, ?_, ?_, fun _ => ?_⟩, Nat.le_refl _, ?_⟩
        · show (a / 64 + 0) % c.nrEe = y.s.set.eeIndex
          rw [hdiv.1, p3, Nat.add_zero, Nat.mod_eq_of_lt hidx]
        · show M + 1000 * 0 ≤ _
          omega
        · show a % 64 < y.s.set.eeOff
          omega
        · show a < _
          rw [pl]
          have : (x.s.set.eeIndex + 1) * 64 ≤ c.nrEe * 64 := Nat.mul_le_mul_right _ hidx
          omega
      · exact hl'.old p hpm
    · intro p hpm
      obtain ⟨⟨m, m1, m2, m3⟩, b1, b2⟩ := hl.old p hpm
      refine ⟨by show p.1 ≤ M; omega, fun (he : a = p.2) => ?_⟩
      rw [← he] at m1 m3
      rw [hdiv.1] at m1
      have hm0 : m ≠ 0 := fun h => by have := m3 h; omega
      have hm : c.nrEe ≤ m := by
        by_contra hh
        by_cases h1 : x.s.set.eeIndex + m < c.nrEe
        · rw [Nat.mod_eq_of_lt h1] at m1
          omega
        · rw [Nat.mod_eq_sub_mod (by omega), Nat.mod_eq_of_lt (by omega)] at m1
          omega
      show p.1 + 1000 * places c ≤ M + 128 * v.B
      rw [pl]
      omega
  | other _ hw hn ih =>
    obtain ⟨r, S, hp, hl, hpw⟩ := ih
    obtain ⟨r', S', hp', hl', -⟩ := hl.step hv hp hw
    exact ⟨r', S', hp', hl', hpw⟩

end Verif
