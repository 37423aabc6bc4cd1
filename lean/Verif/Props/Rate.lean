import Verif.Spec.Rate
import Verif.Proofs.Loop
import Verif.Proofs.LoopDemo
/-
C84: the conversions are counted without overflow.
-/
namespace Verif.Props
open Spec

variable {v : Speed} {c : Conf} {N k : Nat} {x : Loop}

private structure RateInv (v : Speed) (c : Conf) (N : Nat) (x : Loop) (k : Nat) : Prop where
  run : LoopRun v c x
  tick : k ≤ N
  early : x.s.meas.adcOn = true → x.T < x.sel + avgTime x.s.meas.active →
    x.s.meas.avgCount ≤ (N : Int) * ((x.T - x.sel : Nat) : Int) + (k : Int)
  on : x.s.meas.adcOn = true → x.s.meas.avgCount ≤ (N : Int) * (avgTime x.s.meas.active : Int)
  any : x.s.meas.avgCount ≤ (N : Int) * (avgTime x.s.meas.active : Int) + 1

private theorem mul_le {N a b : Nat} (h : a ≤ b) : (N : Int) * (a : Int) ≤ (N : Int) * (b : Int) := by
  exact_mod_cast Nat.mul_le_mul_left N h

private theorem rate_inv (hv : v.Sane) (hN : 50 * N < 65535) (h : RatedRun v c N x k) : RateInv v c N x k := by
  induction h with
  | @boot ee pinb s hv' e =>
    obtain ⟨-, st, -, b, t, hb, -, rfl⟩ := (boot_ok hv').elim e
    have h0 : (0 : Int) ≤ (N : Int) * (avgTime 1 : Int) := by positivity
    exact ⟨LoopRun.boot hv' e, Nat.zero_le _, fun _ _ => by show (0 : Int) ≤ (N : Int) * ((0 - 0 : Nat) : Int) + 0; simp, fun _ => h0,
      by show (0 : Int) ≤ (N : Int) * (avgTime 1 : Int) + 1; omega⟩
  | @adc x k raw s' _ hk hon hraw hf ht ih =>
    have h50 := (avgTime_pos x.s.meas.active).2
    have hc := ih.on hon
    have hb := mul_le (N := N) h50
    have hi := (LoopRun.inv hv ih.run)
    have hcnt := (Running.inv (window_inv hi.win).1).meas.cnt
    have hp : possible x.s (.adc raw) = true := by
      simp only [possible, Bool.and_eq_true, decide_eq_true_eq]
      exact ⟨⟨hon, hraw⟩, by omega⟩
    have hs : LoopStep c x (some (.adc raw)) (x.after (.adc raw) s') := LoopStep.isr rfl hp hf
    obtain ⟨on1, on2⟩ := hi.on hon
    obtain ⟨w1, w2⟩ := C63_window c x.s s' x.T x.sel raw hi.win hp hf (by have : 5 + 50 + 2 * v.A + 4 * v.W ≤ 32767 := hv.1; omega)
    have hf' : some _ = some s' := hf
    have hact : s'.meas.active = x.s.meas.active := by
      rw [← Option.some.inj hf']
      unfold adcIsr
      simp only []
      split <;> rfl
    have hcount : s'.meas.avgCount = toU16 (x.s.meas.avgCount + 1) := by
      rw [← Option.some.inj hf']
      unfold adcIsr
      simp only []
      split <;> rfl
    have hcount : s'.meas.avgCount = x.s.meas.avgCount + 1 := by
      rw [hcount]; unfold toU16; omega
    have hsel := hi.conv
    have hearly : x.T < x.sel + avgTime x.s.meas.active → s'.meas.avgCount ≤ (N : Int) * ((x.T - x.sel : Nat) : Int) + ((k + 1 : Nat) : Int) := by
      intro hh
      have := ih.early hon hh
      omega
    refine ⟨ih.run.step hs ht, hk, fun _ hh => ?_, fun hh => ?_, ?_⟩
    · show s'.meas.avgCount ≤ (N : Int) * ((x.T - x.sel : Nat) : Int) + ((k + 1 : Nat) : Int)
      have hh : x.T < x.sel + avgTime s'.meas.active := hh
      exact hearly (hact ▸ hh)
    · show s'.meas.avgCount ≤ (N : Int) * (avgTime s'.meas.active : Int)
      have hh : s'.meas.adcOn = true := hh
      have hlt : x.T < x.sel + avgTime x.s.meas.active := by
        rw [w2] at hh
        have : ¬ (x.sel + avgTime x.s.meas.active ≤ x.T) := fun hq => by
          rw [w1.mpr hq] at hh; cases hh
        omega
      have h1 := hearly hlt
      have h2 := mul_le (N := N) (show x.T - x.sel + 1 ≤ avgTime x.s.meas.active by omega)
      have h3 : (N : Int) * ((x.T - x.sel + 1 : Nat) : Int) = (N : Int) * ((x.T - x.sel : Nat) : Int) + (N : Int) := by
        push_cast; ring
      rw [hact]
      omega
    · show s'.meas.avgCount ≤ (N : Int) * (avgTime s'.meas.active : Int) + 1
      rw [hact]
      omega
  | @other x k e y _ hs ht hne ih =>
    have hi := (LoopRun.inv hv ih.run)
    have hinv := Running.inv (window_inv hi.win).1
    have hT := hs.time
    have hrun := ih.run.step hs ht
    rcases hs.sys with ⟨rfl, es, eT, esel, ec, -⟩ | ⟨f, rfl, hp, hf, eT, esel, ec, -, er⟩
    · rw [if_neg (by simp)]
      exact ⟨hrun, ih.tick, by rw [es, eT, esel]; exact ih.early, by rw [es]; exact ih.on, by rw [es]; exact ih.any⟩
    by_cases hev : f = .measureWork ∧ x.s.meas.resultAvail = true
    · obtain ⟨rfl, hav⟩ := hev
      rcases measureWork_eff hinv hf with ⟨h, -⟩ | ⟨-, p, pl, hm⟩
      · rw [hav] at h; cases h
      obtain ⟨_, _, _, -, kk⟩ := hm.meas
      have k1 : y.s.meas.avgCount = 0 := by rw [kk]
      rw [if_neg (by simp)]
      have h0 : (0 : Int) ≤ (N : Int) * (avgTime y.s.meas.active : Int) := by positivity
      have h1 : (0 : Int) ≤ (N : Int) * ((y.T - y.sel : Nat) : Int) := by positivity
      exact ⟨hrun, ih.tick, fun _ _ => by rw [k1]; omega, fun _ => by rw [k1]; omega, by rw [k1]; omega⟩
    · have hm := step_meas hinv hf (fun r hh => hne r (congrArg some hh)) hev
      have k1 : y.s.meas.avgCount = x.s.meas.avgCount := (congrArg Meas.avgCount hm :)
      have k2 : y.s.meas.adcOn = x.s.meas.adcOn := (congrArg Meas.adcOn hm :)
      have k3 : y.s.meas.active = x.s.meas.active := (congrArg Meas.active hm :)
      have esel : y.sel = x.sel := by
        rw [esel]; unfold Loop.after; simp only []; rw [if_neg hev]
      refine ⟨hrun, ?_, ?_, by rw [k1, k2, k3]; exact ih.on, by rw [k1, k3]; exact ih.any⟩
      · split
        · exact Nat.zero_le _
        · exact ih.tick
      · rw [k1, k2, k3, esel]
        intro hh hl
        have h1 := ih.early hh (by omega)
        have hsel := hi.conv
        by_cases htick : f = .tick
        · subst htick
          have eT : y.T = x.T + 1 := eT
          rw [if_pos rfl, eT]
          have h3 : (N : Int) * ((x.T + 1 - x.sel : Nat) : Int) = (N : Int) * ((x.T - x.sel : Nat) : Int) + (N : Int) := by
            rw [show x.T + 1 - x.sel = (x.T - x.sel) + 1 by omega]; push_cast; ring
          have := ih.tick
          omega
        · have eT : y.T = x.T := by
            rw [eT]; unfold Loop.after; simp only []; rw [if_neg htick]
          rw [if_neg (fun hh => htick (Option.some.inj hh)), eT]
          exact h1

/-- If the ADC finishes at most `N` (up to 1310; the real rate is 9.7) conversions in a tick, then the firmware counts
    at most `N` per millisecond of averaging and one more, so its 16-bit counter does not overflow: what is assumed
    everywhere else (`possible`) is what happens. -/
theorem C84_count (hv : v.Sane) (hN : N ≤ 1310) (h : RatedRun v c N x k) :
    LoopRun v c x ∧ x.s.meas.avgCount ≤ (N : Int) * (if x.s.meas.active = 0 then 5 else 50) + 1 := by
  have hi := rate_inv hv (by omega) h
  refine ⟨hi.run, ?_⟩
  have := hi.any
  unfold avgTime at this
  split at this <;> rename_i h0
  · rw [if_pos h0]; exact this
  · rw [if_neg h0]; exact this

/-- an interrupt, with the number of conversions since the last tick -/
private def rated (v : Speed) (c : Conf) (N : Nat) (x : Loop × Nat) (e : Ev) : Option (Loop × Nat) :=
  (step c x.1.s e).bind fun s' =>
    let y := x.1.after e s'
    match e with
    | .tick => if InTime v y then some (y, 0) else none
    | .adc raw => if x.2 < N ∧ x.1.s.meas.adcOn = true ∧ raw < 1024 ∧ InTime v y then some (y, x.2 + 1) else none
    | _ => none

private theorem rated_run {x y : Loop × Nat} {e : Ev} (hx : RatedRun v c N x.1 x.2) (h : rated v c N x e = some y) :
    RatedRun v c N y.1 y.2 := by
  obtain ⟨s', es, h⟩ := Option.bind_eq_some_iff.mp h
  simp only [] at h
  split at h
  · split at h
    · rename_i hh
      cases h
      exact hx.other (LoopStep.isr rfl rfl es) hh (fun _ h => by cases h)
    · cases h
  · split at h
    · rename_i hh
      cases h
      exact hx.adc hh.1 hh.2.1 hh.2.2.1 es hh.2.2.2
    · cases h
  · cases h

private def fullRate : Option (Loop × Nat) :=
  (loopBoot .m88p 0xFF).bind fun x => ((List.replicate 50 (List.replicate 10 (Ev.adc 100) ++ [Ev.tick])).flatten ++
    [Ev.adc 100]).foldlM (rated .shipped .m88p 10) (x, 0)

set_option maxRecDepth 100000 in
/-- with 10 conversions in a tick the bound is reached: 501 conversions of the temperature -/
example : ∃ x k, RatedRun .shipped .m88p 10 x k ∧ x.s.meas.active = 1 ∧ x.s.meas.avgCount = 10 * 50 + 1 := by
  have h : fullRate.any (fun y => y.1.s.meas.active == 1 && y.1.s.meas.avgCount == 501) = true := by decide
  match e : fullRate with
  | none => rw [e] at h; cases h
  | some y =>
    rw [e] at h
    simp only [Option.any_some, Bool.and_eq_true, beq_iff_eq] at h
    obtain ⟨x, h1, h2⟩ := Option.bind_eq_some_iff.mp e
    obtain ⟨s, h3, rfl⟩ := Option.map_eq_some_iff.mp h1
    exact ⟨y.1, y.2, foldlM_inv (P := fun x => RatedRun .shipped .m88p 10 x.1 x.2) (fun x a y hx h => rated_run hx h) _
      (RatedRun.boot validEeprom_m88p h3) h2, h.1, h.2⟩

end Verif.Props
