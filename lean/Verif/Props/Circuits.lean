import Verif.Model.Circuits
import Verif.Spec.Circuits
import Mathlib.Analysis.SpecialFunctions.ExpDeriv
import Mathlib.Tactic.Ring
import Mathlib.Tactic.FieldSimp
import Mathlib.Tactic.Linarith
import Mathlib.Tactic.NormNum
/-
C108: the circuits of the simulator.
-/
namespace Verif.Props
open Spec

/-! ### the resistor and the capacitor -/

private theorem calc_ok {n : RcNet} (h : n.r * n.c ≠ 0) (vIn dt : ℝ) : n.calc vIn dt =
    some ⟨n.r, n.c, n.v + (vIn - n.v) * (1 - Real.exp (-1 / (n.r * n.c) * dt)),
      (vIn - n.v) / n.r * Real.exp (-1 / (n.r * n.c) * dt)⟩ := by
  unfold RcNet.calc
  rw [if_neg h]

/-- A step of any length is what the circuit does in that time: the voltage begins where it was, the current is the one
    through the resistor, and it is what the charge of the capacitor grows by. -/
theorem C108_rc (n : RcNet) (vIn : ℝ) (h : n.r * n.c ≠ 0) : ∃ v i : ℝ → ℝ,
    (∀ t, n.calc vIn t = some ⟨n.r, n.c, v t, i t⟩) ∧ v 0 = n.v ∧ (∀ t, i t = (vIn - v t) / n.r) ∧
    ∀ t, HasDerivAt (fun t => n.c * v t) (i t) t := by
  refine ⟨_, _, fun t => calc_ok h vIn t, by simp, fun t => ?_, fun t => ?_⟩
  · ring
  · have hc : n.c ≠ 0 := fun e => h (by rw [e, mul_zero])
    have hr : n.r ≠ 0 := fun e => h (by rw [e, zero_mul])
    have h1 : HasDerivAt (fun t : ℝ => -1 / (n.r * n.c) * t) (-1 / (n.r * n.c)) t := by
      simpa using (hasDerivAt_id t).const_mul (-1 / (n.r * n.c))
    have h2 := ((((h1.exp).const_sub 1).const_mul (vIn - n.v)).const_add n.v).const_mul n.c
    have e : (vIn - n.v) / n.r * Real.exp (-1 / (n.r * n.c) * t) =
        n.c * ((vIn - n.v) * -(Real.exp (-1 / (n.r * n.c) * t) * (-1 / (n.r * n.c)))) := by
      generalize Real.exp _ = e
      field_simp
    rw [e]
    exact h2

/-- With a constant input, any number of steps is as good as a single one of their total length. -/
theorem C108_rc_steps (n : RcNet) (vIn : ℝ) (h : n.r * n.c ≠ 0) (ts : List ℝ) (t : ℝ) :
    (t :: ts).foldlM (fun n dt => n.calc vIn dt) n = n.calc vIn (t + ts.sum) := by
  induction ts generalizing n t with
  | nil =>
    simp only [List.foldlM_cons, List.foldlM_nil, List.sum_nil, add_zero]
    exact Option.bind_fun_some _
  | cons t' ts ih =>
    rw [List.foldlM_cons, calc_ok h vIn t]
    show (t' :: ts).foldlM (fun (n : RcNet) dt => n.calc vIn dt) _ = _
    have h' : (⟨n.r, n.c, n.v + (vIn - n.v) * (1 - Real.exp (-1 / (n.r * n.c) * t)),
      (vIn - n.v) / n.r * Real.exp (-1 / (n.r * n.c) * t)⟩ : RcNet).r *
      (⟨n.r, n.c, n.v + (vIn - n.v) * (1 - Real.exp (-1 / (n.r * n.c) * t)),
      (vIn - n.v) / n.r * Real.exp (-1 / (n.r * n.c) * t)⟩ : RcNet).c ≠ 0 := h
    have e : Real.exp (-1 / (n.r * n.c) * (t + (t' + ts.sum))) =
        Real.exp (-1 / (n.r * n.c) * t) * Real.exp (-1 / (n.r * n.c) * (t' + ts.sum)) := by
      rw [mul_add, Real.exp_add]
    rw [ih _ h', calc_ok h', calc_ok h, List.sum_cons, e]
    simp only [Option.some.injEq, RcNet.mk.injEq, true_and]
    generalize Real.exp (-1 / (n.r * n.c) * t) = a
    generalize Real.exp (-1 / (n.r * n.c) * (t' + ts.sum)) = b
    constructor <;> ring

/-- The voltage moves towards the input and never beyond it. -/
theorem C108_rc_between (n n' : RcNet) (vIn dt : ℝ) (hr : 0 < n.r) (hc : 0 < n.c) (ht : 0 ≤ dt)
    (h : n.calc vIn dt = some n') :
    (n.v ≤ vIn → n.v ≤ n'.v ∧ n'.v ≤ vIn) ∧ (vIn ≤ n.v → vIn ≤ n'.v ∧ n'.v ≤ n.v) := by
  have hrc : 0 < n.r * n.c := mul_pos hr hc
  rw [calc_ok (ne_of_gt hrc)] at h
  cases h
  have e0 := Real.exp_pos (-1 / (n.r * n.c) * dt)
  have e1 : Real.exp (-1 / (n.r * n.c) * dt) ≤ 1 := by
    rw [Real.exp_le_one_iff]
    exact mul_nonpos_of_nonpos_of_nonneg (div_nonpos_of_nonpos_of_nonneg (by norm_num) hrc.le) ht
  generalize Real.exp (-1 / (n.r * n.c) * dt) = e at e0 e1
  constructor <;> intro hv <;> constructor <;> simp only [] <;> nlinarith

/-- The calculation fails only without a resistor or without a capacitor. -/
theorem C108_rc_error (n : RcNet) (vIn dt : ℝ) : n.calc vIn dt = none ↔ n.r = 0 ∨ n.c = 0 := by
  rw [← mul_eq_zero]
  by_cases h : n.r * n.c = 0
  · simp [RcNet.calc, h]
  · simp [calc_ok h, h]

/-- A network with a charge has it; giving both a charge and a voltage is refused. -/
theorem C108_rc_init (r c q : ℝ) (v : ℝ) (hc : c ≠ 0) :
    (∃ n, rcNet r c none (some q) = some n ∧ n.q = q ∧ n.i = 0) ∧ rcNet r c (some v) (some q) = none := by
  refine ⟨⟨⟨r, c, q / c, 0⟩, ?_, ?_, rfl⟩, rfl⟩
  · simp [rcNet, hc]
  · show c * (q / c) = q
    field_simp

/-- `C108_rc`, `C108_rc_steps`, `C108_rc_between`: the network of the demonstration in rcnet.py, 10 kOhm and 220 uF -/
example : ∃ n n', rcNet 10000 (220 / 1000000) none (some 0) = some n ∧ n.r * n.c ≠ 0 ∧ 0 < n.r ∧ 0 < n.c ∧ n.v ≤ 5 ∧
    n.calc 5 (1 / 100) = some n' := by
  refine ⟨⟨10000, 220 / 1000000, 0 / (220 / 1000000), 0⟩, _, ?_, ?_, ?_, ?_, ?_, calc_ok ?_ _ _⟩
  · simp [rcNet]
  all_goals norm_num

/-! ### the voltage divider -/

/-- The two voltages are in the ratio of the resistors and add up to the input. -/
theorem C108_divider (n n' : VoltDiv) (uIn : ℝ) (h : n.calc uIn = some n') :
    n'.u1 + n'.u2 = uIn ∧ n'.u1 * n.r2 = n'.u2 * n.r1 := by
  unfold VoltDiv.calc at h
  split at h
  · cases h
  · rename_i hh
    cases h
    constructor
    · show uIn / (n.r1 + n.r2) * n.r1 + uIn / (n.r1 + n.r2) * n.r2 = uIn
      field_simp
    · show uIn / (n.r1 + n.r2) * n.r1 * n.r2 = uIn / (n.r1 + n.r2) * n.r2 * n.r1
      ring

/-- `C108_divider`: 1 kOhm and 2 kOhm -/
example : ∃ n', VoltDiv.calc ⟨1000, 2000, 0⟩ 9 = some n' ∧ n'.u2 = 6 := by
  refine ⟨⟨1000, 2000, 9 / (1000 + 2000)⟩, ?_, ?_⟩
  · unfold VoltDiv.calc
    rw [if_neg (by norm_num)]
  · show 9 / (1000 + 2000) * 2000 = (6 : ℝ)
    norm_num

/-! ### the sine generator -/

/-- After steps of any length the voltage is that of the sine at their total time. -/
theorem C108_sine (f rms : ℝ) (hf : 0 < f) (ts : List ℝ) (t : ℝ) :
    ((ts ++ [t]).foldl SineGen.calc (sineGen f rms)).v =
      rms * Real.sqrt 2 * Real.sin (2 * Real.pi * f * (ts.sum + t)) := by
  have hf' : max f 0 = f := max_eq_left hf.le
  have inv : ∀ ts : List ℝ, (ts.foldl SineGen.calc (sineGen f rms)).f = f ∧
      (ts.foldl SineGen.calc (sineGen f rms)).peakV = rms * Real.sqrt 2 ∧
      (ts.foldl SineGen.calc (sineGen f rms)).cycleT = ts.sum := by
    intro ts
    induction ts using List.reverseRecOn with
    | nil => exact ⟨hf', rfl, rfl⟩
    | append_singleton ts t ih =>
      rw [List.foldl_append, List.sum_append]
      obtain ⟨h1, h2, h3⟩ := ih
      generalize ts.foldl SineGen.calc (sineGen f rms) = n at h1 h2 h3
      simp only [List.foldl_cons, List.foldl_nil, SineGen.calc, h1, ne_eq, hf.ne', not_false_eq_true, if_true]
      exact ⟨trivial, h2, by rw [h3]; simp⟩
  obtain ⟨h1, h2, h3⟩ := inv ts
  rw [List.foldl_append]
  generalize ts.foldl SineGen.calc (sineGen f rms) = n at h1 h2 h3
  simp only [List.foldl_cons, List.foldl_nil, SineGen.calc, h1, ne_eq, hf.ne', not_false_eq_true, if_true]
  rw [h2, h3]
  congr 2
  field_simp

/-- Without a frequency the voltage stays 0. -/
theorem C108_sine_off (f rms : ℝ) (hf : f ≤ 0) (ts : List ℝ) : (ts.foldl SineGen.calc (sineGen f rms)).v = 0 := by
  have e : ∀ t, (sineGen f rms).calc t = sineGen f rms := by
    intro t
    unfold SineGen.calc
    rw [if_neg]
    simp [sineGen, hf]
  induction ts with
  | nil => rfl
  | cons t ts ih => rw [List.foldl_cons, e, ih]

/-- `C108_sine`: 50 Hz -/
example : (0 : ℝ) < 50 ∧ (sineGen 50 230).peakV = 230 * Real.sqrt 2 := ⟨by norm_num, rfl⟩

/-! ### the PWM generator -/

private structure PwmRel (f duty t : Rat) (n : PwmGen) (started : Bool) : Prop where
  hf : n.f = f
  hduty : n.duty = duty
  errors : n.errors = 0
  lo : 0 ≤ n.cycleT
  hi : n.cycleT < 1 / f
  cyc : ∃ k : Int, t = 1 / f * k + n.cycleT
  hout : (n.out = true ↔ (1 - duty) * (1 / f) ≤ n.cycleT) ∨ (started = false ∧ n.out = false ∧ n.cycleT = 0)

private theorem pwm_step {f duty t dt : Rat} {n : PwmGen} {b : Bool} (hf : 0 < f) (h0 : 0 ≤ duty) (h1 : duty ≤ 1)
    (h : PwmRel f duty t n b) (hs : PwmStep (1 / f) duty dt) : PwmRel f duty (t + dt) (n.calc dt) true := by
  obtain ⟨q1, q2, q3, q4, q5, ⟨k, q6⟩, q7⟩ := h
  obtain ⟨s1, s2, s3, s4⟩ := hs
  obtain ⟨f', d', T, o, e⟩ := n
  simp only at q1 q2 q3 q4 q5 q6 q7
  subst q1 q2 q3
  have hd : 0 < 1 / f' := by positivity
  have hd0 : 0 ≤ d' * (1 / f') := mul_nonneg h0 hd.le
  have hd1 : d' * (1 / f') ≤ 1 / f' := by nlinarith
  have e1 : (1 - d') * (1 / f') = 1 / f' - d' * (1 / f') := by ring
  have e2 : 1 / f' * (1 - d') = 1 / f' - d' * (1 / f') := by ring
  rw [e1] at q7 s4
  have z1 : 0 < d' → 0 < d' * (1 / f') := fun h => mul_pos h hd
  have z2 : d' < 1 → d' * (1 / f') < 1 / f' := fun h => by nlinarith
  have z3 : d' = 0 → d' * (1 / f') = 0 := fun h => by rw [h, zero_mul]
  have z4 : d' = 1 → d' * (1 / f') = 1 / f' := fun h => by rw [h, one_mul]
  have c1 : ∃ j : Int, t + dt = 1 / f' * j + (T + dt) := ⟨k, by rw [q6]; ring⟩
  have c2 : ∃ j : Int, t + dt = 1 / f' * j + (T + dt - 1 / f') := ⟨k + 1, by rw [q6]; push_cast; ring⟩
  unfold PwmGen.calc
  simp only [ne_eq, hf.ne', not_false_eq_true, if_true, PwmGen.dur, PwmGen.wrap, e2]
  cases o
  · have hT : d' < 1 → T < 1 / f' - d' * (1 / f') := by
      intro hlt
      have := z2 hlt
      rcases q7 with q7 | ⟨-, -, q7⟩
      · exact not_le.1 fun h => by simpa using q7.2 h
      · linarith
    have hT1 : d' = 1 → T = 0 := by
      intro he
      have := z4 he
      rcases q7 with q7 | ⟨-, -, q7⟩
      · have := q7.2 (by linarith)
        simp at this
      · exact q7
    simp only [Bool.false_eq_true, if_false, ge_iff_le]
    split
    · split
      · refine ⟨rfl, rfl, rfl, by simp only; linarith, ?_, c1, Or.inl ?_⟩
        · simp only
          rcases lt_or_eq_of_le h1 with h1 | h1
          · rcases s3 with s3 | s3
            · linarith
            · linarith [hT h1]
          · rw [hT1 h1]
            linarith
        · simp only [e1, true_iff]
          assumption
      · have hz : d' = 0 := by linarith
        have hz' := z3 hz
        have hlt : ¬ (1 / f' ≤ T + dt - 1 / f') := by linarith
        rw [if_neg hlt]
        refine ⟨rfl, rfl, rfl, by simp only; linarith, by simp only; linarith, c2, Or.inl ?_⟩
        simp only [e1, Bool.false_eq_true, false_iff]
        linarith
    · refine ⟨rfl, rfl, rfl, by simp only; linarith, by simp only; linarith, c1, Or.inl ?_⟩
      simp only [e1, Bool.false_eq_true, false_iff]
      assumption
  · have hT : 1 / f' - d' * (1 / f') ≤ T := by
      rcases q7 with q7 | ⟨-, q7, -⟩
      · exact q7.1 rfl
      · cases q7
    simp only [if_true, ge_iff_le]
    split
    · have hlt : ¬ (1 / f' ≤ T + dt - 1 / f') := by linarith
      by_cases hd' : d' < 1
      · simp only [if_pos hd', if_neg hlt]
        refine ⟨rfl, rfl, rfl, by simp only; linarith, by simp only; linarith, c2, Or.inl ?_⟩
        simp only [e1, Bool.false_eq_true, false_iff]
        rcases s4 with s4 | s4 <;> linarith
      · have hz := z4 (by linarith)
        simp only [if_neg hd', if_neg hlt]
        refine ⟨rfl, rfl, rfl, by simp only; linarith, by simp only; linarith, c2, Or.inl ?_⟩
        simp only [e1, true_iff]
        linarith
    · refine ⟨rfl, rfl, rfl, by simp only; linarith, by simp only; linarith, c1, Or.inl ?_⟩
      simp only [e1, true_iff]
      linarith

private theorem pwm_start {f duty : Rat} (hf : 0 < f) (h0 : 0 ≤ duty) (h1 : duty ≤ 1) :
    PwmRel f duty 0 (pwmGen f duty) false :=
  ⟨max_eq_left hf.le, by simp [pwmGen, h0, h1], rfl, le_refl _, by simp only [pwmGen]; positivity,
    ⟨0, by simp [pwmGen]⟩, Or.inr ⟨rfl, rfl, rfl⟩⟩

/-- With steps that are short enough the output is the signal at the total time, and no message is printed. -/
theorem C108_pwm (f duty : Rat) (hf : 0 < f) (h0 : 0 ≤ duty) (h1 : duty ≤ 1) (ts : List Rat) (hn : ts ≠ [])
    (hs : ∀ dt ∈ ts, PwmStep (1 / f) duty dt) :
    (ts.foldl PwmGen.calc (pwmGen f duty)).out = pwmWave (1 / f) duty ts.sum ∧
    (ts.foldl PwmGen.calc (pwmGen f duty)).errors = 0 := by
  have inv : ∀ ts : List Rat, (∀ dt ∈ ts, PwmStep (1 / f) duty dt) →
      ∃ b, PwmRel f duty ts.sum (ts.foldl PwmGen.calc (pwmGen f duty)) b ∧ (ts ≠ [] → b = true) := by
    intro ts
    induction ts using List.reverseRecOn with
    | nil => exact fun _ => ⟨false, pwm_start hf h0 h1, fun h => absurd rfl h⟩
    | append_singleton ts t ih =>
      intro hs
      obtain ⟨b, hb, -⟩ := ih fun dt h => hs dt (List.mem_append_left _ h)
      rw [List.foldl_append, List.sum_append, List.sum_singleton]
      exact ⟨true, pwm_step hf h0 h1 hb (hs t (by simp)), fun _ => rfl⟩
  obtain ⟨b, hb, hb'⟩ := inv ts hs
  cases hb' hn
  obtain ⟨-, -, q3, q4, q5, ⟨k, q6⟩, q7⟩ := hb
  refine ⟨?_, q3⟩
  generalize ts.foldl PwmGen.calc (pwmGen f duty) = n at q3 q4 q5 q6 q7
  have hd : 0 < 1 / f := by positivity
  have hfl : ⌊ts.sum / (1 / f)⌋ = k := by
    rw [Int.floor_eq_iff, le_div_iff₀ hd, div_lt_iff₀ hd, q6]
    constructor <;> nlinarith
  rcases q7 with q7 | ⟨q7, -⟩
  · unfold pwmWave
    rw [hfl, Bool.eq_iff_iff, decide_eq_true_iff, q7, q6, add_sub_cancel_left]
  · cases q7

/-- Without a frequency the output stays off. -/
theorem C108_pwm_off (f duty : Rat) (hf : f ≤ 0) (ts : List Rat) : (ts.foldl PwmGen.calc (pwmGen f duty)).out = false := by
  have e : ∀ t, (pwmGen f duty).calc t = pwmGen f duty := by
    intro t
    unfold PwmGen.calc
    rw [if_neg]
    simp [pwmGen, hf]
  induction ts with
  | nil => rfl
  | cons t ts ih => rw [List.foldl_cons, e, ih]

/-- A duty out of range is the nearest one in range. -/
theorem C108_pwm_clamp (f duty : Rat) : (1 ≤ duty → pwmGen f duty = pwmGen f 1) ∧ (duty ≤ 0 → pwmGen f duty = pwmGen f 0) := by
  constructor <;> intro h
  · simp [pwmGen, h]
  · have h' : duty ≤ 1 := h.trans (by norm_num)
    simp [pwmGen, h, h']

/-- `C108_pwm`: 100 Hz, a duty of one half, steps of 4 ms; after 8 ms the output is on, after 12 ms it is off -/
example : (∀ dt ∈ [(4 / 1000 : Rat), 4 / 1000, 4 / 1000], PwmStep (1 / 100) (1 / 2) dt) ∧
    ([(4 / 1000 : Rat), 4 / 1000].foldl PwmGen.calc (pwmGen 100 (1 / 2))).out = true ∧
    ([(4 / 1000 : Rat), 4 / 1000, 4 / 1000].foldl PwmGen.calc (pwmGen 100 (1 / 2))).out = false := by
  refine ⟨?_, by decide +kernel, by decide +kernel⟩
  simp only [List.mem_cons, List.not_mem_nil, or_false, or_self, forall_eq, PwmStep]
  norm_num

/-- With longer steps, still shorter than a period, the output is another one, and still no message is printed
    (finding F34). -/
theorem C108_pwm_lost : ∃ ts : List Rat, (∀ dt ∈ ts, 0 ≤ dt ∧ dt < 1 / 100) ∧
    (ts.foldl PwmGen.calc (pwmGen 100 (1 / 2))).out ≠ pwmWave (1 / 100) (1 / 2) ts.sum ∧
    (ts.foldl PwmGen.calc (pwmGen 100 (1 / 2))).errors = 0 :=
  ⟨[8 / 1000, 8 / 1000], by decide +kernel, by decide +kernel, by decide +kernel⟩

end Verif.Props
