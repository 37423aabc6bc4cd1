import Verif.Model.Bitmap
import Verif.Spec.Bits
import Mathlib.Tactic.Linarith
import Mathlib.Tactic.IntervalCases
/-
Helper definitions and lemmas for the bit maps.
-/
namespace Verif
open Spec

/-- one operation, executed with the firmware's functions -/
def bmExec (bm : List (BitVec 8)) : BitOp → Option (List (BitVec 8))
  | .set n => bmSetBit bm n
  | .clear n => bmClearBit bm n
  | .write n v => bmWriteBit bm n v

/-- a sequence of operations; `none` if any of them accesses memory outside the map -/
def bmExecAll (bm : List (BitVec 8)) : List BitOp → Option (List (BitVec 8))
  | [] => some bm
  | op :: ops => do
    let bm' ← bmExec bm op
    bmExecAll bm' ops

theorem mask_some {j : Nat} (h : j < 8) : bitToMask8[j]? = some (BitVec.twoPow 8 j) := by
  interval_cases j <;> rfl

theorem bmGetBool_eq {bm : List (BitVec 8)} {n : Nat} (h : n < 8 * bm.length) :
    bmGetBool bm n = some ((bm[n / 8]'(by omega)).getLsbD (n % 8)) := by
  have h1 : n / 8 < bm.length := by omega
  have h2 : n % 8 < 8 := by omega
  simp only [bmGetBool, bmGetBit, List.getElem?_eq_getElem h1, mask_some h2,
    Option.bind_eq_bind, Option.bind_some, pure, BitVec.and_twoPow]
  congr 1
  split <;> rename_i hb <;> simp only [hb]
  · generalize n % 8 = j at *
    interval_cases j <;> rfl
  · rfl

/-- every operation inside the map is defined, keeps the size, and stores its value in its
    bit only -/
theorem bmExec_spec (bm : List (BitVec 8)) (op : BitOp) (h : op.bit < 8 * bm.length) :
    ∃ bm', bmExec bm op = some bm' ∧ bm'.length = bm.length ∧
      ∀ k, k < 8 * bm.length →
        bmGetBool bm' k = if op.bit = k then some op.value else bmGetBool bm k := by
  have upd : ∀ (n : Nat) (f : BitVec 8) (v : Bool), n < 8 * bm.length →
      (∀ j, j < 8 → f.getLsbD j = if n % 8 = j then v else (bm[n / 8]?.getD 0).getLsbD j) →
      ∀ k, k < 8 * bm.length →
        bmGetBool (bm.set (n / 8) f) k = if n = k then some v else bmGetBool bm k := by
    intro n f v hn hf k hk
    rw [bmGetBool_eq (by simpa using hk), bmGetBool_eq hk]
    simp only [List.getElem_set]
    by_cases hb : n / 8 = k / 8
    · rw [if_pos hb, hf (k % 8) (by omega)]
      by_cases hkn : n = k
      · simp [hkn]
      · have : n % 8 ≠ k % 8 := by omega
        simp only [hkn, this, if_false]
        rw [hb, List.getElem?_eq_getElem (by omega)]; rfl
    · have : n ≠ k := fun e => hb (by rw [e])
      simp [hb, this]
  have hset : ∀ n, n < 8 * bm.length → ∃ bm', bmSetBit bm n = some bm' ∧
      bm'.length = bm.length ∧ ∀ k, k < 8 * bm.length →
        bmGetBool bm' k = if n = k then some true else bmGetBool bm k := by
    intro n hn
    have h1 : n / 8 < bm.length := by omega
    refine ⟨bm.set (n / 8) (bm[n/8] ||| BitVec.twoPow 8 (n % 8)), ?_, by simp, ?_⟩
    · simp [bmSetBit, List.getElem?_eq_getElem h1, mask_some (by omega : n % 8 < 8)]
    · apply upd n _ true hn
      intro j hj
      rw [List.getElem?_eq_getElem h1]
      simp only [BitVec.getLsbD_or, BitVec.getLsbD_twoPow, Option.getD_some]
      have : n % 8 < 8 := by omega
      by_cases he : n % 8 = j <;> simp [he, this, hj]
  have hclear : ∀ n, n < 8 * bm.length → ∃ bm', bmClearBit bm n = some bm' ∧
      bm'.length = bm.length ∧ ∀ k, k < 8 * bm.length →
        bmGetBool bm' k = if n = k then some false else bmGetBool bm k := by
    intro n hn
    have h1 : n / 8 < bm.length := by omega
    refine ⟨bm.set (n / 8) (bm[n/8] &&& ~~~(BitVec.twoPow 8 (n % 8))), ?_, by simp, ?_⟩
    · simp [bmClearBit, List.getElem?_eq_getElem h1, mask_some (by omega : n % 8 < 8)]
    · apply upd n _ false hn
      intro j hj
      rw [List.getElem?_eq_getElem h1]
      simp only [BitVec.getLsbD_and, BitVec.getLsbD_not, BitVec.getLsbD_twoPow, Option.getD_some]
      have : n % 8 < 8 := by omega
      by_cases he : n % 8 = j <;> simp [he, this, hj]
  cases op with
  | set n => exact hset n h
  | clear n => exact hclear n h
  | write n v =>
    cases v
    · exact hclear n h
    · exact hset n h

end Verif

