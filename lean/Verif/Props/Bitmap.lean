import Verif.Proofs.Bitmap
/-
C15: bit maps (bitmap.h).
-/
namespace Verif.Props
open Spec

/-- After any sequence of operations aimed inside the map, no access was outside of it, the
    size is unchanged, and every bit reads as the value last written to it (or its old value). -/
theorem C15_bits (bm : List (BitVec 8)) (ops : List BitOp)
    (h : ∀ op ∈ ops, op.bit < 8 * bm.length) :
    ∃ bm', bmExecAll bm ops = some bm' ∧ bm'.length = bm.length ∧
      ∀ k < 8 * bm.length, ∃ v0, bmGetBool bm k = some v0 ∧
        bmGetBool bm' k = some (lastWritten v0 k ops) := by
  induction ops generalizing bm with
  | nil =>
    refine ⟨bm, rfl, rfl, fun k hk => ?_⟩
    exact ⟨_, bmGetBool_eq hk, bmGetBool_eq hk⟩
  | cons op ops ih =>
    obtain ⟨bm1, e1, l1, g1⟩ := bmExec_spec bm op (h op (by simp))
    obtain ⟨bm2, e2, l2, g2⟩ := ih bm1 (fun o ho => by rw [l1]; exact h o (by simp [ho]))
    refine ⟨bm2, by simp [bmExecAll, e1, e2], by omega, fun k hk => ?_⟩
    obtain ⟨v1, hv1, hk2⟩ := g2 k (by omega)
    refine ⟨_, bmGetBool_eq hk, ?_⟩
    rw [hk2, lastWritten]
    congr 2
    rw [g1 k hk, bmGetBool_eq hk] at hv1
    split at hv1 <;> split <;> simp_all

/-- a map of 16 bits with a few operations -/
example : bmExecAll (bmDefine 16) [.set 3, .set 12, .clear 3, .write 9 true]
    = some [0x00, 0x12] ∧ lastWritten false 12 [.set 3, .set 12, .clear 3, .write 9 true] = true := by
  decide

/-- `bm_init` gives every bit the requested value. -/
theorem C15_init (bm : List (BitVec 8)) (v : Bool) (k : Nat) (hk : k < 8 * bm.length) :
    bmGetBool (bmInit bm v) k = some v := by
  rw [bmGetBool_eq (by simpa [bmInit] using hk)]
  simp only [bmInit, List.getElem_replicate]
  have : k % 8 < 8 := by omega
  generalize k % 8 = j at *
  cases v <;> interval_cases j <;> rfl

example : bmGetBool (bmInit (bmDefine 16) true) 13 = some true := by decide

/-- A map declared for a multiple of 8 bits has room for exactly these bits … -/
theorem C15_size (n : Nat) (h : n % 8 = 0) : 8 * (bmDefine n).length = n := by
  simp [bmDefine]; omega

example : 8 * (bmDefine 24).length = 24 := by decide

/-- … but the declared size must be a multiple of 8: a map declared for 12 bits has no room
    for bit 8 (finding F10). -/
theorem C15_size_truncated_false : bmSetBit (bmDefine 12) 8 = none := by decide

end Verif.Props
