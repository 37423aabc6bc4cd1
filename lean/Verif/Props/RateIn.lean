import Verif.Proofs.RateIn
import Verif.Proofs.LoopInDemo
/-
C121: the conversions are counted without overflow, with interrupts inside the work functions.
-/
namespace Verif.Props
open Spec

/-- If the ADC finishes at most `N` (up to 1310; the real rate is 9.7) conversions in a tick, then the firmware counts
    at most `N` per millisecond of averaging and one more, so its 16-bit counter does not overflow: what is assumed
    about the conversions in the loop with interrupts inside the work functions is what happens. -/
theorem C121_count (v : Speed) (hv : v.SaneI) (c : Conf) (N : Nat) (hN : N ≤ 1310) (x : LoopI) (k : Nat)
    (h : RatedRunI v c N x k) :
    LoopIRun v c x ∧ x.s.meas.avgCount ≤ (N : Int) * (if x.s.meas.active = 0 then 5 else 50) + 1 := by
  have hi := rate_invI hv (by omega) h
  refine ⟨hi.run, ?_⟩
  have := hi.any
  unfold avgTime at this
  split at this <;> rename_i h0
  · rw [if_pos h0]; exact this
  · rw [if_neg h0]; exact this

/-! ### example -/

variable {v : Speed} {c : Conf} {N : Nat}

/-- a command, with the number of conversions in the tick -/
private def rated (v : Speed) (c : Conf) (N : Nat) (x : LoopI × Nat) (a : CmdI) : Option (LoopI × Nat) :=
  match a with
  | .adc raw =>
    if x.2 < N ∧ x.1.s.meas.adcOn = true ∧ raw < 1024 ∧ InTimeI v (converts x.1 raw) then some (converts x.1 raw, x.2 + 1)
    else none
  | a => (loopCmdI v c NeverI x.1 a).map fun y => (y, if y.D = x.1.D then x.2 else 0)

private theorem cmd_other {x y : LoopI} {a : CmdI} (ha : ∀ raw, a ≠ .adc raw) (h : loopCmdI v c NeverI x a = some y) :
    ∃ e, LoopIStep c x e y ∧ InTimeI v y ∧ ∀ raw, e ≠ some (.adc raw) := by
  cases a with
  | call f g =>
    unfold loopCmdI at h
    simp only [] at h
    split at h
    · rename_i s' es
      split at h
      · rename_i hh; cases h
        have hwk := call_work hh.1.2
        exact ⟨_, .call hh.1.1 hh.1.2 es, hh.2.1, fun raw hr => by cases hr; cases hwk⟩
      · cases h
    · cases h
  | tick =>
    unfold loopCmdI at h
    obtain ⟨s', es, h⟩ := Option.bind_eq_some_iff.mp h
    simp only [] at h
    split at h
    · rename_i hh; cases h
      exact ⟨_, .tick hh.1 es, hh.2.1, by simp⟩
    · cases h
  | reset =>
    unfold loopCmdI at h
    simp only [] at h
    split at h
    · rename_i hh; cases h
      exact ⟨_, .reset hh.1.1 hh.1.2, hh.2.1, by simp⟩
    · cases h
  | adc raw => exact absurd rfl (ha raw)
  | pass =>
    unfold loopCmdI at h
    simp only [] at h
    split at h
    · rename_i hh; cases h
      exact ⟨_, .pass hh.1, hh.2.1, by simp⟩
    · cases h

private theorem rated_run {x y : LoopI × Nat} {a : CmdI} (hx : RatedRunI v c N x.1 x.2) (h : rated v c N x a = some y) :
    RatedRunI v c N y.1 y.2 := by
  have other : (∀ raw, a ≠ .adc raw) → ((loopCmdI v c NeverI x.1 a).map fun y => (y, if y.D = x.1.D then x.2 else 0)) = some y →
      RatedRunI v c N y.1 y.2 := by
    intro ha h
    obtain ⟨z, hz, rfl⟩ := Option.map_eq_some_iff.mp h
    obtain ⟨e, h1, h2, h3⟩ := cmd_other ha hz
    exact hx.other h1 h2 h3
  cases a with
  | adc raw =>
    unfold rated at h
    simp only [] at h
    split at h
    · rename_i hh
      cases h
      exact hx.adc hh.1 hh.2.1 hh.2.2.1 hh.2.2.2
    · cases h
  | tick | reset | pass | call => exact other (by simp) h

/-- all 50 ms of the first averaging come inside one call, with 10 conversions in each of them -/
private def fullRate : Option (LoopI × Nat) :=
  (loopBootI .m88p 0xFF).bind fun x => ([CmdI.reset, .call .measureWork [], .call .menuWork [], .call .displayWork [50]] ++
    (List.replicate 50 (List.replicate 10 (CmdI.adc 100) ++ [CmdI.pass])).flatten ++ [CmdI.adc 100]).foldlM
      (rated .shipped .m88p 10) (x, 0)

set_option maxRecDepth 100000 in
private theorem fullRate_run : fullRate.any (fun y => y.1.s.meas.active == 1 && y.1.s.meas.avgCount == 501) = true := by
  decide +kernel

/-- The bound is reached: 501 conversions of the temperature. -/
example : ∃ x k, RatedRunI .shipped .m88p 10 x k ∧ Speed.shipped.SaneI ∧ x.s.meas.active = 1 ∧
    x.s.meas.avgCount = 10 * 50 + 1 := by
  have h := fullRate_run
  match e : fullRate with
  | none => rw [e] at h; cases h
  | some y =>
    rw [e] at h
    simp only [Option.any_some, Bool.and_eq_true, beq_iff_eq] at h
    obtain ⟨x, h1, h2⟩ := Option.bind_eq_some_iff.mp e
    obtain ⟨s, h3, rfl⟩ := Option.map_eq_some_iff.mp h1
    exact ⟨y.1, y.2, foldlM_inv (P := fun x => RatedRunI .shipped .m88p 10 x.1 x.2) (fun x a y hx h => rated_run hx h) _
      (RatedRunI.boot validEeprom_m88p h3) h2, by unfold Speed.SaneI; decide, h.1, h.2⟩

end Verif.Props
