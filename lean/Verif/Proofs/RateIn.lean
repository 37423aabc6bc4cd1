import Verif.Spec.RateIn
import Verif.Proofs.LoopIn
/-
The rate of the ADC, with interrupts inside the work functions.
-/
namespace Verif
open Spec

variable {v : Speed} {c : Conf}

/-- a step other than a conversion evaluates the measurement, or leaves it alone -/
theorem LoopIStep.count {x y : LoopI} {e : Option Ev} (hv : v.SaneI) (h : LoopIInv v c x) (hs : LoopIStep c x e y)
    (ht : InTimeI v y) (hne : ∀ raw, e ≠ some (.adc raw)) :
    y.s.meas.avgCount = 0 ∨ (y.s.meas.avgCount = x.s.meas.avgCount ∧ y.s.meas.adcOn = x.s.meas.adcOn ∧
      y.s.meas.active = x.s.meas.active ∧ y.sel = x.sel ∧ (y.D = x.D ∨ y.D = x.D + 1)) := by
  by_cases hev : e = some .measureWork ∧ x.s.meas.resultAvail = true
  · obtain ⟨rfl, hav⟩ := hev
    obtain ⟨g, t, t', p, pl, -, -, -, -, -, -, -, -, hm, sb⟩ := hs.evaluates hv h ht hav
    obtain ⟨_, _, _, -, km⟩ := hm.meas
    left
    rw [← sb.same.2.2.2.2.1, km]
  · right
    obtain ⟨k1, k2, -⟩ := hs.other hv h ht hev
    cases hs with
    | reset => exact ⟨rfl, rfl, rfl, rfl, Or.inl rfl⟩
    | pass => exact ⟨rfl, rfl, rfl, rfl, Or.inr rfl⟩
    | tick _ hs => cases hs; exact ⟨rfl, rfl, rfl, rfl, Or.inr rfl⟩
    | @adc raw => exact absurd rfl (hne raw)
    | @ee e s' he hp hs =>
      have hm := step_meas h.inv hs (by rcases he with rfl | rfl <;> simp) (by rcases he with rfl | rfl <;> simp)
      exact ⟨(congrArg Meas.avgCount hm :), (congrArg Meas.adcOn hm :), k2, rfl, Or.inl rfl⟩
    | @call e g s' pinb hD hc hw =>
      have hne : ¬ (e = .measureWork ∧ x.s.meas.resultAvail = true) := fun hh => hev ⟨congrArg some hh.1, hh.2⟩
      have hevf : x.evaluates e = false := by
        unfold LoopI.evaluates
        rw [Bool.eq_false_iff]
        intro hh
        rw [Bool.and_eq_true, decide_eq_true_eq] at hh
        exact hne hh
      have hm : stripAdj s'.meas = stripAdj x.s.meas := by
        by_cases hme : e = .measureWork
        · subst hme
          rw [(work_none (by simpa using fun hh => hne ⟨rfl, hh⟩) hw).1]
        · exact workT_meas hme hw
      refine ⟨(congrArg Meas.avgCount hm :), (congrArg Meas.adcOn hm :), k2, k1, Or.inl ?_⟩
      show (if x.evaluates e then _ else _) = _
      rw [hevf]; rfl

/-- the conversions counted so far -/
structure RateInvI (v : Speed) (c : Conf) (N : Nat) (x : LoopI) (k : Nat) : Prop where
  run : LoopIRun v c x
  tick : k ≤ N
  early : x.s.meas.adcOn = true → x.D < x.sel + avgTime x.s.meas.active →
    x.s.meas.avgCount ≤ (N : Int) * ((x.D - x.sel : Nat) : Int) + (k : Int)
  on : x.s.meas.adcOn = true → x.s.meas.avgCount ≤ (N : Int) * (avgTime x.s.meas.active : Int)
  any : x.s.meas.avgCount ≤ (N : Int) * (avgTime x.s.meas.active : Int) + 1

private theorem mul_le {N a b : Nat} (h : a ≤ b) : (N : Int) * (a : Int) ≤ (N : Int) * (b : Int) := by
  exact_mod_cast Nat.mul_le_mul_left N h

theorem rate_invI {N k : Nat} {x : LoopI} (hv : v.SaneI) (hN : 50 * N < 65535) (h : RatedRunI v c N x k) :
    RateInvI v c N x k := by
  induction h with
  | @boot ee pinb s hv' e =>
    obtain ⟨-, st, -, b, t, hb, -, rfl⟩ := (boot_ok hv').elim e
    have h0 : (0 : Int) ≤ (N : Int) * (avgTime 1 : Int) := by positivity
    exact ⟨LoopIRun.boot hv' e, Nat.zero_le _, fun _ _ => by show (0 : Int) ≤ (N : Int) * ((0 - 0 : Nat) : Int) + 0; simp,
      fun _ => h0, by show (0 : Int) ≤ (N : Int) * (avgTime 1 : Int) + 1; omega⟩
  | @adc x k raw _ hk hon hraw ht ih =>
    have h50 := (avgTime_pos x.s.meas.active).2
    have hc := ih.on hon
    have hb := mul_le (N := N) h50
    have hi := ih.run.inv hv
    have hcnt := hi.inv.meas.cnt
    have hp : possible x.s (.adc raw) = true := by
      simp only [possible, Bool.and_eq_true, decide_eq_true_eq]
      exact ⟨⟨hon, hraw⟩, by omega⟩
    have hs : LoopIStep c x (some (.adc raw)) (converts x raw) := LoopIStep.adc hp
    have hrun := ih.run.step hs ht
    have hj := hrun.inv hv
    obtain ⟨hact, hcount⟩ : (converts x raw).s.meas.active = x.s.meas.active ∧
        (converts x raw).s.meas.avgCount = toU16 (x.s.meas.avgCount + 1) := by
      unfold converts adcIsr
      simp only []
      split <;> exact ⟨rfl, rfl⟩
    have hcount : (converts x raw).s.meas.avgCount = x.s.meas.avgCount + 1 := by
      rw [hcount]; unfold toU16; omega
    have hsel := hi.conv
    have hearly : x.D < x.sel + avgTime x.s.meas.active →
        (converts x raw).s.meas.avgCount ≤ (N : Int) * ((x.D - x.sel : Nat) : Int) + ((k + 1 : Nat) : Int) := by
      intro hh
      have := ih.early hon hh
      omega
    refine ⟨hrun, hk, fun _ hh => ?_, fun hh => ?_, ?_⟩
    · rw [hact] at hh
      exact hearly hh
    · have hlt := (hj.on hh).1
      rw [hact] at hlt ⊢
      have hlt : x.D < x.sel + avgTime x.s.meas.active := hlt
      have h1 := hearly hlt
      have h2 := mul_le (N := N) (show x.D - x.sel + 1 ≤ avgTime x.s.meas.active by omega)
      have h3 : (N : Int) * ((x.D - x.sel + 1 : Nat) : Int) = (N : Int) * ((x.D - x.sel : Nat) : Int) + (N : Int) := by
        push_cast; ring
      omega
    · rw [hact]
      omega
  | @other x k e y _ hs ht hne ih =>
    have hi := ih.run.inv hv
    have hrun := ih.run.step hs ht
    have hk : (if y.D = x.D then k else 0) ≤ N := by
      have := ih.tick
      split <;> omega
    rcases hs.count hv hi ht hne with k0 | ⟨k1, k2, k3, k4, k5⟩
    · have h0 : (0 : Int) ≤ (N : Int) * (avgTime y.s.meas.active : Int) := by positivity
      have h1 : (0 : Int) ≤ (N : Int) * ((y.D - y.sel : Nat) : Int) := by positivity
      exact ⟨hrun, hk, fun _ _ => by rw [k0]; omega, fun _ => by rw [k0]; omega, by rw [k0]; omega⟩
    · refine ⟨hrun, hk, ?_, by rw [k1, k2, k3]; exact ih.on, by rw [k1, k3]; exact ih.any⟩
      rw [k1, k2, k3, k4]
      intro hh hl
      have hsel := hi.conv
      have h1 := ih.early hh (by omega)
      rcases k5 with k5 | k5
      · rw [if_pos k5, k5]
        exact h1
      · rw [if_neg (by omega), k5]
        have h3 : (N : Int) * ((x.D + 1 - x.sel : Nat) : Int) = (N : Int) * ((x.D - x.sel : Nat) : Int) + (N : Int) := by
          rw [show x.D + 1 - x.sel = (x.D - x.sel) + 1 by omega]; push_cast; ring
        have := ih.tick
        omega

end Verif
