import Verif.Spec.Wear
import Verif.Proofs.Inv
/-
The positions of the EEPROM writer.
-/
namespace Verif
open Spec

variable {c : Conf}

theorem places_eq (c : Conf) : places c = c.nrEe ∧ 1 ≤ c.nrEe ∧ c.nrEe * 64 ≤ c.e2size := by
  unfold places Conf.nrEe Conf.e2size
  cases c.eering <;> cases c.bigEe <;> decide

/-- what the writer does to its position, and what it programs -/
theorem eeIsr_pos {st st' : SettingsSt} (e : eeIsr c st = some st') (hp : st.prog = none) (ho : st.eeOff < 64)
    (hx : st.eeIndex < c.nrEe) :
    st'.eeIndex = st.eeIndex ∧ st'.eeOff = st.eeOff + 1 ∧
    ∀ a d, st'.prog = some (a, d) → a = st.eeIndex * 64 + st.eeOff := by
  obtain ⟨-, h1, h2⟩ := places_eq c
  have hidx : (if c.eering then st.eeIndex else 0) = st.eeIndex := by
    cases hc : c.eering with
    | true => rfl
    | false =>
      have : c.nrEe = 1 := by unfold Conf.nrEe; rw [hc]; rfl
      show 0 = st.eeIndex
      omega
  have hmod : (st.eeIndex * 64 + st.eeOff) % c.e2size = st.eeIndex * 64 + st.eeOff := by
    apply Nat.mod_eq_of_lt
    have : (st.eeIndex + 1) * 64 ≤ c.nrEe * 64 := Nat.mul_le_mul_right _ hx
    omega
  unfold eeIsr at e
  simp only [hidx] at e
  obtain ⟨data, -, e⟩ := Option.bind_eq_some_iff.mp e
  rw [if_pos hx] at e
  have e := Option.some.inj e
  subst e
  refine ⟨?_, ?_, ?_⟩
  · show SettingsSt.eeIndex (if _ then _ else _) = _
    split <;> rfl
  · have : (if eeReadByte c st.eeprom (st.eeIndex * 64 + st.eeOff) = data then st
             else { st with prog := some ((st.eeIndex * 64 + st.eeOff) % c.e2size, data) }).eeOff = st.eeOff := by
      split <;> rfl
    show (SettingsSt.eeOff (if _ then _ else _) + 1) % 256 = _
    rw [this]
    omega
  · intro a d h
    have h : SettingsSt.prog (if eeReadByte c st.eeprom (st.eeIndex * 64 + st.eeOff) = data then st
             else { st with prog := some ((st.eeIndex * 64 + st.eeOff) % c.e2size, data) }) = some (a, d) := h
    split at h
    · rw [hp] at h; cases h
    · cases h
      exact hmod

theorem start_index {now : Int} {st : SettingsSt} (hx : st.eeIndex < c.nrEe) (h1 : st.storeRequest = true)
    (h2 : (settingsWork c now st).1.storeRequest = false) :
    (settingsWork c now st).1.eeIndex = (st.eeIndex + 1) % c.nrEe := by
  have h16 : c.nrEe ≤ 16 := by
    unfold Conf.nrEe Conf.e2size
    cases c.eering <;> cases c.bigEe <;> decide
  unfold settingsWork at h2 ⊢
  rw [h1] at h2 ⊢
  rw [if_neg (by decide)] at h2 ⊢
  by_cases ht : (!timerExpired now st.storeTimer) = true
  · rw [if_pos ht, h1] at h2
    cases h2
  · rw [if_neg ht]
    cases hc : c.eering with
    | true =>
      show ringNext st.eeIndex (c.nrEe - 1) = _
      unfold ringNext
      simp only []
      rw [Nat.mod_eq_of_lt (show st.eeIndex + 1 < 256 by omega)]
      split
      · rw [show st.eeIndex + 1 = c.nrEe by omega, Nat.mod_self]
      · rw [Nat.mod_eq_of_lt (by omega)]
    | false =>
      have : c.nrEe = 1 := by unfold Conf.nrEe; rw [hc]; rfl
      show st.eeIndex = _
      rw [this] at hx ⊢
      omega

theorem add_store {t m S S' b : Nat} (h : t + 1000 * m ≤ S + 128 * b) (h2 : S + 1000 ≤ S') :
    t + 1000 * (m + 1) ≤ S' + 128 * b := by
  rw [Nat.mul_succ, ← Nat.add_assoc]
  omega

end Verif
