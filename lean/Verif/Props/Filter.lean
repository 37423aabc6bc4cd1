import Verif.Proofs.Filter
import Verif.Spec.Filter
/-
C16, C17: low-pass filters (filter.c, filter.h).
-/
namespace Verif.Props
open Spec

/-- all outputs of the integer filter while it processes a list of inputs -/
def lpU16Outs (s : Nat) (buf : Int) : List Int → List Int
  | [] => []
  | x :: xs => (lpU16Run buf x s).2 :: lpU16Outs s (lpU16Run buf x s).1 xs

/-- For every input history with values in `[0,M]` (any 16-bit `M`) and any start value in
    `[0,M]`, with a shift of at most 8, no output exceeds `M`, and the 24-bit accumulator
    never wraps: it equals the recurrence computed on unbounded integers. -/
theorem C16_bounded (s : Nat) (M v : Int) (xs : List Int) (hs : s ≤ 8) (hM : M ≤ 65535)
    (hv : 0 ≤ v ∧ v ≤ M) (hx : ∀ x ∈ xs, 0 ≤ x ∧ x ≤ M) :
    (∀ y ∈ lpU16Outs s (lpU16Set v) xs, 0 ≤ y ∧ y ≤ M) ∧
    lpU16Runs s (lpU16Set v) xs = exactAcc s v xs ∧
    0 ≤ exactAcc s v xs ∧ exactAcc s v xs < 2 ^ 24 := by
  have hP := two_pow_pos s
  have hP256 : (2:Int) ^ s ≤ 256 := by
    calc (2:Int)^s ≤ 2^8 := by gcongr; norm_num
      _ = 256 := by norm_num
  have gen : ∀ (xs : List Int) (b : Int), (∀ x ∈ xs, 0 ≤ x ∧ x ≤ M) → 0 ≤ b → b ≤ M * 2 ^ s →
      (∀ y ∈ lpU16Outs s b xs, 0 ≤ y ∧ y ≤ M) ∧ lpU16Runs s b xs = exactAcc s b xs ∧
      0 ≤ exactAcc s b xs ∧ exactAcc s b xs ≤ M * 2 ^ s := by
    intro xs
    induction xs with
    | nil => intro b _ h0 h1; simp [lpU16Outs, lpU16Runs, exactAcc, h0, h1]
    | cons x xs ih =>
      intro b hx h0 h1
      obtain ⟨hx0, hx1⟩ := hx x (by simp)
      have e := lpU16Run_eq hs hM h0 h1 hx0 hx1
      have hup := lpStep_upper hP h1 hx1
      have hlo : 0 ≤ lpStep b x (2 ^ s) := by
        have := lpStep_lower (m := 0) hP (by simpa using h0) hx0
        simpa using this
      obtain ⟨i1, i2, i3, i4⟩ := ih (lpStep b x (2 ^ s)) (fun y hy => hx y (by simp [hy])) hlo hup
      simp only [lpU16Outs, lpU16Runs, exactAcc, e]
      refine ⟨?_, i2, i3, i4⟩
      intro y hy
      rcases List.mem_cons.1 hy with rfl | hy
      · exact ⟨Int.ediv_nonneg hlo (by omega), Int.ediv_le_of_le_mul hP hup⟩
      · exact i1 y hy
  have hMP : M * 2 ^ s ≤ 65535 * 256 := by nlinarith [hv.1, hv.2]
  obtain ⟨g1, g2, g3, g4⟩ := gen xs v hx hv.1 (by nlinarith [hv.1, hv.2])
  exact ⟨g1, g2, g3, by norm_num; omega⟩

/-- the shift used by the firmware (4), full-scale inputs -/
example : lpU16Outs 4 (lpU16Set 65535) [65535, 0, 65535] = [7935, 7440, 11070] := by decide

/-- Once the accumulator is at or above `m * 2^s`, inputs of at least `m` keep every output
    at or above `m`. -/
theorem C16_lower (s : Nat) (m M b : Int) (xs : List Int) (hs : s ≤ 8) (hM : M ≤ 65535)
    (hm : 0 ≤ m) (hb : m * 2 ^ s ≤ b ∧ b ≤ M * 2 ^ s) (hx : ∀ x ∈ xs, m ≤ x ∧ x ≤ M) :
    ∀ y ∈ lpU16Outs s b xs, m ≤ y ∧ y ≤ M := by
  have hP := two_pow_pos s
  induction xs generalizing b with
  | nil => simp [lpU16Outs]
  | cons x xs ih =>
    obtain ⟨hx0, hx1⟩ := hx x (by simp)
    have hb0 : 0 ≤ b := by nlinarith [hb.1]
    have e := lpU16Run_eq hs hM hb0 hb.2 (by omega) hx1
    have hup := lpStep_upper hP hb.2 hx1
    have hlo := lpStep_lower hP hb.1 hx0
    simp only [lpU16Outs, e]
    intro y hy
    rcases List.mem_cons.1 hy with rfl | hy
    · exact ⟨(Int.le_ediv_iff_mul_le hP).2 hlo, Int.ediv_le_of_le_mul hP hup⟩
    · exact ih _ ⟨hlo, hup⟩ (fun y hy => hx y (by simp [hy])) y hy

example : ∀ y ∈ lpU16Outs 4 (100 * 2 ^ 4) [100, 200, 150], (100 : Int) ≤ y ∧ y ≤ 200 :=
  C16_lower 4 100 200 _ _ (by decide) (by decide) (by decide) (by decide) (by decide)

/-- Under a constant input `x` the output becomes exactly `x` after finitely many runs and
    stays there. -/
theorem C16_settles (s : Nat) (v x : Int) (hs : s ≤ 8) (hv : 0 ≤ v ∧ v ≤ 65535)
    (hx : 0 ≤ x ∧ x ≤ 65535) :
    ∃ N, ∀ n, N ≤ n →
      (lpU16Run (lpU16Runs s (lpU16Set v) (List.replicate n x)) x s).2 = x := by
  have hP := two_pow_pos s
  have stay : ∀ (n : Nat) (b : Int), b / 2 ^ s = x → 0 ≤ b → b ≤ 65535 * 2 ^ s →
      lpU16Runs s b (List.replicate n x) = b := by
    intro n
    induction n with
    | zero => intros; rfl
    | succ n ih =>
      intro b h h0 h1
      rw [List.replicate_succ, lpU16Runs, lpU16Run_eq hs le_rfl h0 h1 hx.1 hx.2]
      simp only [(lpStep_const b x _ hP).1 h]
      exact ih b h h0 h1
  have gen : ∀ (k : Nat) (b : Int), (b - x * 2 ^ s).natAbs ≤ k → 0 ≤ b → b ≤ 65535 * 2 ^ s →
      ∃ N, ∀ n, N ≤ n → (lpU16Runs s b (List.replicate n x)) / 2 ^ s = x ∧
        0 ≤ lpU16Runs s b (List.replicate n x) ∧
        lpU16Runs s b (List.replicate n x) ≤ 65535 * 2 ^ s := by
    intro k
    induction k with
    | zero =>
      intro b hb h0 h1
      have hbx : b = x * 2 ^ s := by omega
      have hq : b / 2 ^ s = x := by rw [hbx]; exact Int.mul_ediv_cancel _ (by omega)
      exact ⟨0, fun n _ => by rw [stay n b hq h0 h1]; exact ⟨hq, h0, h1⟩⟩
    | succ k ih =>
      intro b hb h0 h1
      by_cases hq : b / 2 ^ s = x
      · exact ⟨0, fun n _ => by rw [stay n b hq h0 h1]; exact ⟨hq, h0, h1⟩⟩
      · obtain ⟨_, c2, c3⟩ := lpStep_const b x _ hP
        have hup := lpStep_upper hP h1 hx.2
        have hlo : 0 ≤ lpStep b x (2 ^ s) := by
          have := lpStep_lower (m := 0) hP (by simpa using h0) hx.1
          simpa using this
        obtain ⟨N, hN⟩ := ih (lpStep b x (2 ^ s)) (by
          rcases lt_or_gt_of_ne hq with h | h
          · have := c2 h; omega
          · have := c3 h; omega) hlo hup
        refine ⟨N + 1, fun n hn => ?_⟩
        obtain ⟨n', rfl⟩ : ∃ n', n = n' + 1 := ⟨n - 1, by omega⟩
        rw [List.replicate_succ, lpU16Runs, lpU16Run_eq hs le_rfl h0 h1 hx.1 hx.2]
        exact hN n' (by omega)
  obtain ⟨N, hN⟩ := gen _ v le_rfl hv.1 (by nlinarith [hv.1, hv.2])
  refine ⟨N, fun n hn => ?_⟩
  obtain ⟨h1, h2, h3⟩ := hN n hn
  unfold lpU16Set
  rw [lpU16Run_eq hs le_rfl h2 h3 hx.1 hx.2]
  simp only [(lpStep_const _ x _ hP).1 h1, h1]

/-- the output is not settled at the start, but later -/
example : (lpU16Run (lpU16Set 100) 100 1).2 = 75 ∧
    (lpU16Run (lpU16Runs 1 (lpU16Set 100) (List.replicate 8 100)) 100 1).2 = 100 := by decide

/-- all (accumulator, output) pairs of the fixed-point filter while it processes a list of
    inputs; `none` on undefined behaviour -/
def lpFixptTrace (div buf : Int) : List Int → Option (List (Int × Int))
  | [] => some []
  | x :: xs => do
    let r ← lpFixptRun buf x div
    let rs ← lpFixptTrace div r.1 xs
    return r :: rs

/-- For a divisor of `k` (a whole number) and inputs in `[0,M]` that leave headroom in
    24 bits, every run of the fixed-point filter is free of overflow, its accumulator stays
    strictly below the saturation limit, and every output is in `[0,M]`. -/
theorem C17_bounded (k M b : Int) (xs : List Int) (hk : 0 < k) (hk2 : k * 64 ≤ 8388607)
    (hM : M * k + k ≤ 8388607) (hb : 0 ≤ b ∧ b ≤ M * k) (hx : ∀ x ∈ xs, 0 ≤ x ∧ x ≤ M) :
    ∃ tr, lpFixptTrace (k * 64) b xs = some tr ∧ tr.length = xs.length ∧
      ∀ r ∈ tr, 0 ≤ r.2 ∧ r.2 ≤ M ∧ 0 ≤ r.1 ∧ r.1 < 8388607 := by
  have gen : ∀ (xs : List Int) (b : Int), (∀ x ∈ xs, 0 ≤ x ∧ x ≤ M) → 0 ≤ b →
      2 * b < 2 * (M * k) + k →
      ∃ tr, lpFixptTrace (k * 64) b xs = some tr ∧ tr.length = xs.length ∧
      ∀ r ∈ tr, 0 ≤ r.2 ∧ r.2 ≤ M ∧ 0 ≤ r.1 ∧ r.1 < 8388607 := by
    intro xs
    induction xs with
    | nil => intro b _ _ _; exact ⟨[], rfl, rfl, by simp⟩
    | cons x xs ih =>
      intro b hx h0 h1
      obtain ⟨hx0, hx1⟩ := hx x (by simp)
      obtain ⟨u1, _⟩ := lfStep_upper hk h0 h1 hx1
      have l1 := lfStep_nonneg hk h0 hx0
      obtain ⟨tr, e, l, g⟩ := ih _ (fun y hy => hx y (by simp [hy])) l1 u1
      refine ⟨(lfStep b x k, rdiv (lfStep b x k) k) :: tr, by simp [lpFixptTrace, lpFixptRun_eq hk hM h0 h1 hx0 hx1 hk2, e], by simp [l], ?_⟩
      intro r hr
      rcases List.mem_cons.1 hr with rfl | hr
      · exact ⟨rdiv_nonneg hk l1, (lfStep_upper (x := x) hk l1 u1 hx1).2, l1, by simp only []; omega⟩
      · exact g r hr
  exact gen xs b hx hb.1 (by omega)

/-- the divisor 16.0 used by the firmware, 5 A inputs -/
example : lpFixptTrace (16 * 64) 3200 [3200, 3200] = some [(6200, 388), (9012, 563)] := by decide

/-- Under a constant input the output of the fixed-point filter becomes exactly that input
    after finitely many runs and stays there. -/
theorem C17_settles (k M b x : Int) (hk : 0 < k) (hk2 : k * 64 ≤ 8388607)
    (hM : M * k + k ≤ 8388607) (hb : 0 ≤ b ∧ b ≤ M * k) (hx : 0 ≤ x ∧ x ≤ M) :
    ∃ N, ∀ n, N ≤ n → ∀ tr, lpFixptTrace (k * 64) b (List.replicate (n + 1) x) = some tr →
      (tr.getLast?).map Prod.snd = some x := by
  -- the trace of a constant input
  have step : ∀ (n : Nat) (b : Int), 0 ≤ b → 2 * b < 2 * (M * k) + k → ∀ tr,
      lpFixptTrace (k * 64) b (List.replicate (n + 1) x) = some tr →
      ∃ rs, tr = (lfStep b x k, rdiv (lfStep b x k) k) :: rs ∧
        lpFixptTrace (k * 64) (lfStep b x k) (List.replicate n x) = some rs := by
    intro n b h0 h1 tr h
    rw [List.replicate_succ, lpFixptTrace, lpFixptRun_eq hk hM h0 h1 hx.1 hx.2 hk2] at h
    simp only [Option.bind_eq_bind, Option.bind_some, Option.bind_eq_some_iff, pure] at h
    obtain ⟨rs, e, h⟩ := h
    exact ⟨rs, (Option.some.inj h).symm, e⟩
  have stay : ∀ (n : Nat) (b : Int), rdiv b k = x → 0 ≤ b → 2 * b < 2 * (M * k) + k → ∀ tr,
      lpFixptTrace (k * 64) b (List.replicate (n + 1) x) = some tr →
      (tr.getLast?).map Prod.snd = some x := by
    intro n
    induction n with
    | zero =>
      intro b h h0 h1 tr htr
      obtain ⟨rs, rfl, e⟩ := step 0 b h0 h1 tr htr
      simp only [List.replicate_zero, lpFixptTrace, Option.some.injEq] at e
      subst e
      simp [(lfStep_const b x k hk h0).1 h, h]
    | succ n ih =>
      intro b h h0 h1 tr htr
      obtain ⟨rs, rfl, e⟩ := step (n + 1) b h0 h1 tr htr
      rw [(lfStep_const b x k hk h0).1 h] at e
      have hne : rs ≠ [] := by
        obtain ⟨rs', rfl, _⟩ := step n b h0 h1 rs e
        simp
      rw [List.getLast?_cons_of_ne_nil hne]
      exact ih b h h0 h1 rs e
  have gen : ∀ (m : Nat) (b : Int), (b - x * k).natAbs ≤ m → 0 ≤ b → 2 * b < 2 * (M * k) + k →
      ∃ N, ∀ n, N ≤ n → ∀ tr, lpFixptTrace (k * 64) b (List.replicate (n + 1) x) = some tr →
        (tr.getLast?).map Prod.snd = some x := by
    intro m
    induction m with
    | zero =>
      intro b hb h0 h1
      have : rdiv b k = x := by rw [show b = x * k by omega]; exact rdiv_mul_self _ _ (by omega)
      exact ⟨0, fun n _ => stay n b this h0 h1⟩
    | succ m ih =>
      intro b hb h0 h1
      by_cases hq : rdiv b k = x
      · exact ⟨0, fun n _ => stay n b hq h0 h1⟩
      · obtain ⟨u1, _⟩ := lfStep_upper hk h0 h1 hx.2
        have l1 := lfStep_nonneg hk h0 hx.1
        obtain ⟨_, c2, c3⟩ := lfStep_const b x k hk h0
        obtain ⟨d1, d2, _⟩ := rdiv_band b k hk
        have hdec : (lfStep b x k - x * k).natAbs < (b - x * k).natAbs := by
          rcases lt_or_gt_of_ne hq with h | h
          · obtain ⟨e1, e2⟩ := c2 h
            have : rdiv b k * k ≤ x * k - k := by nlinarith
            omega
          · obtain ⟨e1, e2⟩ := c3 h
            by_cases h2 : rdiv b k = x + 1
            · have e3 : lfStep b x k = b - 1 := by unfold lfStep; omega
              have : rdiv b k * k = x * k + k := by rw [h2]; ring
              omega
            · have : x * k + 2 * k ≤ rdiv b k * k := by
                have : x + 2 ≤ rdiv b k := by omega
                nlinarith
              omega
        obtain ⟨N, hN⟩ := ih (lfStep b x k) (by omega) l1 u1
        refine ⟨N + 1, fun n hn tr htr => ?_⟩
        obtain ⟨n', rfl⟩ : ∃ n', n = n' + 1 := ⟨n - 1, by omega⟩
        obtain ⟨rs, rfl, e⟩ := step (n' + 1) b h0 h1 tr htr
        have hne : rs ≠ [] := by
          obtain ⟨rs', rfl, _⟩ := step n' _ l1 u1 rs e
          simp
        rw [List.getLast?_cons_of_ne_nil hne]
        exact hN n' (by omega) rs e
  exact gen _ b le_rfl hb.1 (by omega)

/-- the model filter of the current controller: settled at 3.0 (192) -/
example : (lpFixptTrace (2 * 64) 0 (List.replicate 10 192)).map (fun tr => tr.map Prod.snd) =
    some [96, 144, 168, 180, 186, 189, 191, 191, 192, 192] := by decide

end Verif.Props
