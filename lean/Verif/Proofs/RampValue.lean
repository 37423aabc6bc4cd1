import Verif.Spec.LoopRamp
import Verif.Proofs.RampHold
/-
The values a held button changes, and the times of its steps.
-/
namespace Verif.Props
open Spec

/-! ### the values -/

theorem value_in {c : Conf} {s : Sys} (hi : Inv c s) {w : Int}
    (h : valueIn s.set.cache s.ct.boost s.menu.state = some w) : ∃ inc lo hi',
    valueRange s.menu.state = some (inc, lo, hi') ∧ 0 < inc ∧ lo ≤ w ∧ w ≤ hi' := by
  have hl := hi.set.lim
  have hb := hi.ct.boost
  have hb3 : s.ct.boost < 3 := by
    have : c.nrBoost ≤ 3 := by unfold Conf.nrBoost; split <;> omega
    omega
  obtain ⟨k1, k2, k3, -⟩ := hl.k s.ct.boost hb3 hb
  have hsp : ∀ w, s.set.cache.sp[s.set.cache.active]? = some w → 0 ≤ w ∧ w ≤ 480 * 64 := by
    intro w h
    obtain ⟨h1, h2⟩ := Vector.getElem?_eq_some_iff.mp h
    rw [← h2]
    exact hl.sp _ h1
  have hk : s.set.cache.k[s.ct.boost]? = some s.set.cache.k[s.ct.boost] := Vector.getElem?_eq_getElem hb3
  revert h
  cases s.menu.state <;> simp only [valueIn, valueRange, hk, Option.map_some] <;> intro h <;>
    first
    | (cases h; done)
    | exact ⟨_, _, _, rfl, by decide, hsp _ h⟩
    | (cases h; exact ⟨_, _, _, rfl, by decide, k1⟩)
    | (cases h; exact ⟨_, _, _, rfl, by decide, k2⟩)
    | (cases h; exact ⟨_, _, _, rfl, by decide, k3⟩)
    | (cases h; exact ⟨_, _, _, rfl, by decide, hl.idleSp⟩)
    | (cases h; exact ⟨_, _, _, rfl, by decide, hl.adj⟩)

theorem value_same {a b : Settings} (h : SameVals a b) (n : Nat) (m : MenuState) : valueIn a n m = valueIn b n m := by
  unfold SameVals at h
  obtain ⟨a1, a2, a3, a4, a5, a6⟩ := a
  obtain ⟨b1, b2, b3, b4, b5, b6⟩ := b
  simp only [Settings.mk.injEq] at h
  cases m <;> simp [valueIn, h]

theorem value_boost {x : Settings} {n n' : Nat} {m : MenuState} (h : Tuning m = true → n' = n) :
    valueIn x n' m = valueIn x n m := by
  cases m <;> first | rfl | rw [h rfl]

theorem value_with {x : Settings} {n : Nat} {m : MenuState} {w : Int} (h : valueIn x n m = some w) (z : Int) :
    valueIn (withValue x n z m) n m = some z := by
  have sp : x.sp[x.active]? = some w → (x.sp.setIfInBounds x.active z)[x.active]? = some z := by
    intro h
    obtain ⟨h1, -⟩ := Vector.getElem?_eq_some_iff.mp h
    rw [Vector.getElem?_setIfInBounds_self_of_lt h1]
  have k : ∀ (g : PidK → Int) (f : Fin 3 → PidK), (x.k[n]?).map g = some w → (∀ i, i.val = n → g (f i) = z) →
      ((Vector.ofFn f)[n]?).map g = some z := by
    intro g f h hf
    obtain ⟨p, h1, -⟩ := Option.map_eq_some_iff.mp h
    obtain ⟨h2, -⟩ := Vector.getElem?_eq_some_iff.mp h1
    rw [Vector.getElem?_ofFn, dif_pos h2, Option.map_some, hf _ rfl]
  cases m <;> first
    | (cases h; done)
    | exact sp h
    | rfl
    | (refine k _ _ h fun i hi => ?_; simp [hi])

theorem ramping_ne {r : Ramp} (h : Ramping r = true) : r ≠ .none := by
  rintro rfl; cases h

theorem kind_value {m m' : MenuState} (h : m' = m ∨ ((m = .curtemp ∨ m = .selpreset) ∧ m' = .chgpreset)) :
    valueRange m' = valueRange m ∧ ∀ x n, valueIn x n m' = valueIn x n m := by
  rcases h with rfl | ⟨rfl | rfl, rfl⟩ <;> exact ⟨rfl, fun _ _ => rfl⟩

/-! ### the times -/

theorem due_le (k : Nat) : due k ≤ due (k - 1) + 400 := by
  cases k with
  | zero => exact Nat.le_add_right _ _
  | succ k => exact (due_succ k).2.1

theorem dueIn_fast {W : Nat} (h : W ≤ 25) (k : Nat) : dueIn W k = due k := by
  induction k with
  | zero => rfl
  | succ k ih =>
    have := (due_succ k).1
    show dueIn W k + max W (due (k + 1) - due k) = _
    rw [ih]
    omega

theorem due_dueIn (W k : Nat) : due k ≤ dueIn W k := by
  induction k with
  | zero => exact Nat.le_refl _
  | succ k ih =>
    show _ ≤ dueIn W k + max W (due (k + 1) - due k)
    omega

theorem dueIn_mono {W k n : Nat} (h : k ≤ n) : dueIn W k ≤ dueIn W n := by
  induction h with
  | refl => exact Nat.le_refl _
  | step _ ih => exact Nat.le_trans ih (Nat.le_add_right _ _)

theorem ramped_step {r : Ramp} {v0 inc lo hi : Int} (h1 : lo ≤ v0) (h2 : v0 ≤ hi) (h3 : 0 < inc)
    (k : Nat) : max lo (min hi (if r = .up then ramped r v0 inc lo hi k + inc else ramped r v0 inc lo hi k - inc)) =
      ramped r v0 inc lo hi (k + 1) := by
  have hk : 0 ≤ (k : Int) * inc := Int.mul_nonneg (by omega) (by omega)
  have e : ((k + 1 : Nat) : Int) * inc = k * inc + inc := by rw [Int.natCast_add, Int.add_mul]; simp
  unfold ramped
  rw [e]
  split <;> omega

end Verif.Props
