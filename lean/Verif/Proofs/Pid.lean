import Verif.Model.Pid
import Verif.Proofs.Fixpt
import Verif.Spec.Pid
/-
Helper lemmas for the PID controller.
-/
namespace Verif
open Spec

theorem cClamp_limited {v lo hi : Int} (h : lo ≤ hi) : LimitedTo lo hi v (cClamp v lo hi) := by
  unfold LimitedTo cClamp cMax cMin
  split_ifs <;> omega

theorem cClamp_range {v lo hi : Int} (h : lo ≤ hi) : lo ≤ cClamp v lo hi ∧ cClamp v lo hi ≤ hi := by
  unfold cClamp cMax cMin
  split_ifs <;> omega

theorem nearestUp_div (x : Int) : NearestUp x 64 ((x + 32) / 64) := by
  unfold NearestUp; omega

theorem fixptMul_inv {a b y : Int} (h : fixptMul a b = some y) :
    S32 (a * b) ∧ S32 (a * b + 32) ∧ y = sat ((a * b + 32) / 64) := by
  simp only [fixptMul, fixptBigMul, Option.bind_eq_bind, Option.bind_eq_some_iff, ck32_some,
    pure, Option.some.injEq] at h
  obtain ⟨t, ⟨u, ⟨h1, rfl⟩, v, ⟨h2, rfl⟩, rfl⟩, rfl⟩ := h
  exact ⟨h1, h2, fixptDeflate_eq _⟩

theorem fixptMul_prod {a b y : Int} (h : fixptMul a b = some y) : FxProd a b y := by
  obtain ⟨_, _, rfl⟩ := fixptMul_inv h
  exact ⟨_, nearestUp_div _, rfl⟩

/-- everything `pid_run` computes, read off a defined run -/
theorem pidRun_inv {p p' : Pid} {dt r y : Int} (h : pidRun p dt r = some (p', y)) :
    ∃ e pt kie inc i0 res0 de d pe res,
      fixptSub p.setpoint r = some e ∧ fixptMul p.k.kp e = some pt ∧
      fixptMul p.k.ki e = some kie ∧ fixptMul kie dt = some inc ∧
      fixptAdd p.integr inc = some i0 ∧
      fixptAdd pt (cClamp i0 p.iNeg p.iPos) = some res0 ∧
      fixptSub e p.prevE = some de ∧ fixptMulDiv de p.k.kd dt = some d ∧
      fixptDiv e p.k.decay = some pe ∧ fixptAdd res0 d = some res ∧
      p' = { p with integr := cClamp i0 p.iNeg p.iPos, prevE := pe } ∧
      y = cClamp res p.yNeg p.yPos := by
  simp only [pidRun, Option.bind_eq_bind, Option.bind_eq_some_iff, pure, Option.some.injEq,
    Prod.mk.injEq] at h
  obtain ⟨e, h1, pt, h2, kie, h3, inc, h4, i0, h5, res0, h6, de, h7, d, h8, pe, h9, res, h10,
    h11, h12⟩ := h
  exact ⟨e, pt, kie, inc, i0, res0, de, d, pe, res, h1, h2, h3, h4, h5, h6, h7, h8, h9, h10,
    h11.symm, h12.symm⟩

theorem abs_le_iff {x : Int} {n : Nat} : x.natAbs ≤ n ↔ -(n : Int) ≤ x ∧ x ≤ n := by omega

theorem fixptMul_bound {a b : Int} {A B : Nat} (ha : a.natAbs ≤ A) (hb : b.natAbs ≤ B)
    (h : A * B ≤ 536870400) :
    ∃ y, fixptMul a b = some y ∧ y = (a * b + 32) / 64 ∧ 64 * y.natAbs ≤ A * B + 32 := by
  have h1 := natAbs_mul_le ha hb
  generalize A * B = C at *
  have e := fixptMul_eq (a := a) (b := b) (by unfold S32; omega) (by unfold S32; omega)
  refine ⟨(a * b + 32) / 64, ?_, rfl, by omega⟩
  rw [e, sat_eq (by omega) (by omega)]

theorem fixptMul_bound' {a b : Int} {A B : Nat} (ha : a.natAbs ≤ A) (hb : b.natAbs ≤ B)
    (h : A * B ≤ 2147483600) :
    ∃ y, fixptMul a b = some y ∧ S24 y := by
  have h1 := natAbs_mul_le ha hb
  generalize A * B = C at *
  have e := fixptMul_eq (a := a) (b := b) (by unfold S32; omega) (by unfold S32; omega)
  exact ⟨_, e, sat_S24 _⟩

theorem fixptMulDiv_ok {a b c : Int} {A B : Nat} (ha : a.natAbs ≤ A) (hb : b.natAbs ≤ B)
    (hc : S24 c) (h : A * B ≤ 2130000000) : ∃ y, fixptMulDiv a b c = some y ∧ S24 y := by
  have h1 := natAbs_mul_le ha hb
  generalize A * B = C at *
  unfold fixptMulDiv fixptBigMulDiv
  rw [fixptBigMul_eq (by unfold S32; omega) (by unfold S32; omega)]
  simp only [Option.bind_eq_bind, Option.bind_some]
  by_cases h0 : c = 0
  · simp only [fixptBigDiv, h0, if_true]
    split <;> simp only [Option.bind_some, pure, fixptDeflate_eq] <;>
      exact ⟨_, rfl, sat_S24 _⟩
  · unfold S24 at hc
    rw [fixptBigDiv_eq h0 (by unfold S32; omega) (by omega)]
    simp only [Option.bind_some, pure, fixptDeflate_eq]
    exact ⟨_, rfl, sat_S24 _⟩

theorem rdiv_small {a b : Int} {A : Nat} (ha : a.natAbs ≤ A) (hb : 64 ≤ b) :
    (rdiv (a * 64) b).natAbs ≤ A := by
  obtain ⟨h1, h2⟩ := rdiv_spec (a * 64) b (by omega)
  generalize rdiv (a * 64) b = n at *
  by_contra hlt
  have key : (n * b).natAbs = n.natAbs * b.natAbs := Int.natAbs_mul _ _
  have h3 : (A + 1) * b.natAbs ≤ n.natAbs * b.natAbs := Nat.mul_le_mul_right _ (by omega)
  have h4 : A * 64 ≤ A * b.natAbs := Nat.mul_le_mul_left _ (by omega)
  have h5 : (A + 1) * b.natAbs = A * b.natAbs + b.natAbs := by ring
  omega

/-- the numeric ranges in which `pid_run` is proved free of overflow -/
structure PidRange (p : Pid) : Prop where
  kp : p.k.kp.natAbs ≤ 6336
  ki : p.k.ki.natAbs ≤ 576
  kd : p.k.kd.natAbs ≤ 6336
  decay : 64 ≤ p.k.decay ∧ p.k.decay ≤ 8388607
  sp : 0 ≤ p.setpoint ∧ p.setpoint ≤ 30720
  prevE : p.prevE.natAbs ≤ 32000
  iLim : S24 p.iNeg ∧ S24 p.iPos ∧ p.iNeg ≤ p.iPos
  integr : p.iNeg ≤ p.integr ∧ p.integr ≤ p.iPos
  yLim : p.yNeg ≤ p.yPos

theorem pidRun_ok {p : Pid} (hp : PidRange p) {dt r : Int} (hr : -1280 ≤ r ∧ r ≤ 32000)
    (hdt : dt.natAbs ≤ 2097) :
    ∃ i pe y, pidRun p dt r = some ({ p with integr := i, prevE := pe }, y) ∧
      PidRange { p with integr := i, prevE := pe } ∧ p.yNeg ≤ y ∧ y ≤ p.yPos := by
  obtain ⟨hkp, hki, hkd, hdec, hsp, hpe, hil, hin, hy⟩ := hp
  have e1 : fixptSub p.setpoint r = some (p.setpoint - r) := by
    rw [fixptSub_eq (by unfold S24; omega) (by unfold S24; omega), sat_eq (by omega) (by omega)]
  have he : (p.setpoint - r).natAbs ≤ 32000 := by omega
  obtain ⟨pt, e2, s2⟩ := fixptMul_bound' hkp he (by norm_num)
  obtain ⟨kie, e3, _, b3⟩ := fixptMul_bound hki he (by norm_num)
  have b3' : kie.natAbs ≤ 288000 := by omega
  obtain ⟨inc, e4, s4⟩ := fixptMul_bound' b3' hdt (by norm_num)
  have sI : S24 p.integr := by unfold S24 at *; omega
  have e5 := fixptAdd_eq sI s4
  obtain ⟨c1, c2⟩ := cClamp_range (v := sat (p.integr + inc)) hil.2.2
  have sI' : S24 (cClamp (sat (p.integr + inc)) p.iNeg p.iPos) := by unfold S24 at *; omega
  have e6 := fixptAdd_eq s2 sI'
  have e7 : fixptSub (p.setpoint - r) p.prevE = some (p.setpoint - r - p.prevE) := by
    rw [fixptSub_eq (by unfold S24; omega) (by unfold S24; omega), sat_eq (by omega) (by omega)]
  obtain ⟨d, e8, s8⟩ := fixptMulDiv_ok (a := p.setpoint - r - p.prevE) (A := 64000) (by omega) hkd
    (c := dt) (by unfold S24; omega) (by norm_num)
  have e9 := fixptDiv_eq (a := p.setpoint - r) (b := p.k.decay) (by unfold S24; omega)
    (by unfold S24; omega) (by omega)
  have r9 := rdiv_small he hdec.1
  rw [sat_eq (by omega) (by omega)] at e9
  have e10 := fixptAdd_eq (sat_S24 (pt + cClamp (sat (p.integr + inc)) p.iNeg p.iPos)) s8
  refine ⟨cClamp (sat (p.integr + inc)) p.iNeg p.iPos, rdiv ((p.setpoint - r) * 64) p.k.decay,
    cClamp (sat (sat (pt + cClamp (sat (p.integr + inc)) p.iNeg p.iPos) + d)) p.yNeg p.yPos, ?_,
    ⟨hkp, hki, hkd, hdec, hsp, r9, hil, ⟨c1, c2⟩, hy⟩, cClamp_range hy⟩
  simp only [pidRun, e1, e2, e3, e4, e5, e6, e7, e8, e9, e10, Option.bind_eq_bind,
    Option.bind_some, pure]

/-- a defined run always satisfies the output and integral limits -/
theorem pidRun_limits {p p' : Pid} {dt r y : Int} (h : pidRun p dt r = some (p', y))
    (hi : p.iNeg ≤ p.iPos) (hy : p.yNeg ≤ p.yPos) :
    p.yNeg ≤ y ∧ y ≤ p.yPos ∧ p.iNeg ≤ p'.integr ∧ p'.integr ≤ p.iPos ∧
    p'.iNeg = p.iNeg ∧ p'.iPos = p.iPos ∧ p'.yNeg = p.yNeg ∧ p'.yPos = p.yPos ∧
    p'.k = p.k ∧ p'.setpoint = p.setpoint := by
  obtain ⟨e, pt, kie, inc, i0, res0, de, d, pe, res, h1, h2, h3, h4, h5, h6, h7, h8, h9, h10,
    rfl, rfl⟩ := pidRun_inv h
  obtain ⟨c1, c2⟩ := cClamp_range (v := i0) hi
  obtain ⟨d1, d2⟩ := cClamp_range (v := res) hy
  exact ⟨d1, d2, c1, c2, rfl, rfl, rfl, rfl, rfl, rfl⟩

theorem fixptSub_inv {a b y : Int} (h : fixptSub a b = some y) : y = sat (a - b) := by
  simp only [fixptSub, fixptBigSub, Option.bind_eq_bind, Option.bind_eq_some_iff, ck32_some,
    pure, Option.some.injEq] at h
  obtain ⟨t, ⟨_, rfl⟩, rfl⟩ := h
  exact fixptDeflate_eq _

theorem fixptAdd_inv {a b y : Int} (h : fixptAdd a b = some y) : y = sat (a + b) := by
  simp only [fixptAdd, fixptBigAdd, Option.bind_eq_bind, Option.bind_eq_some_iff, ck32_some,
    pure, Option.some.injEq] at h
  obtain ⟨t, ⟨_, rfl⟩, rfl⟩ := h
  exact fixptDeflate_eq _

theorem fixptBigDiv_nearest {a b y : Int} (hb : b ≠ 0) (h : fixptBigDiv a b = some y) :
    NearestAway (a * 64) b y := by
  simp only [fixptBigDiv, hb, if_false, Option.bind_eq_bind, Option.bind_eq_some_iff,
    ck32_some] at h
  obtain ⟨t, ⟨_, rfl⟩, h⟩ := h
  have := nearestAway_tdiv (a * 64) b hb
  split at h <;> rename_i hc <;> simp only [Option.bind_eq_some_iff, ck32_some] at h <;>
    obtain ⟨u, ⟨_, rfl⟩, _, rfl⟩ := h
  · rwa [if_pos hc] at this
  · rwa [if_neg hc] at this

theorem fixptDiv_quot {a b y : Int} (hb : b ≠ 0) (h : fixptDiv a b = some y) : FxQuot a b y := by
  simp only [fixptDiv, Option.bind_eq_bind, Option.bind_eq_some_iff, pure, Option.some.injEq] at h
  obtain ⟨t, h, rfl⟩ := h
  exact ⟨hb, t, fixptBigDiv_nearest hb h, fixptDeflate_eq _⟩

theorem fixptMulDiv_prodQuot {a b c y : Int} (hc : c ≠ 0) (h : fixptMulDiv a b c = some y) :
    FxProdQuot a b c y := by
  simp only [fixptMulDiv, fixptBigMulDiv, fixptBigMul, Option.bind_eq_bind,
    Option.bind_eq_some_iff, ck32_some, pure, Option.some.injEq] at h
  obtain ⟨t, ⟨m, ⟨u, ⟨_, rfl⟩, v, ⟨_, rfl⟩, rfl⟩, h⟩, rfl⟩ := h
  exact ⟨hc, _, t, nearestUp_div _, fixptBigDiv_nearest hc h, fixptDeflate_eq _⟩

/-- a division by a zero time step gives ∓1 step, whatever the operands (finding F1) -/
theorem fixptMulDiv_zero {a b y : Int} (h : fixptMulDiv a b 0 = some y) :
    (a * b < -32 → y = 1) ∧ (-32 ≤ a * b → y = -1) := by
  simp only [fixptMulDiv, fixptBigMulDiv, fixptBigMul, fixptBigDiv, if_true, Option.bind_eq_bind,
    Option.bind_eq_some_iff, ck32_some, pure, Option.some.injEq] at h
  obtain ⟨t, ⟨m, ⟨u, ⟨_, rfl⟩, v, ⟨_, rfl⟩, rfl⟩, h⟩, rfl⟩ := h
  rw [FIXPTBIG_MIN_eq, FIXPTBIG_MAX_eq] at h
  constructor
  · intro hc
    rw [if_pos (by omega)] at h
    obtain rfl := Option.some.inj h
    rw [fixptDeflate_eq]; rfl
  · intro hc
    rw [if_neg (by omega)] at h
    obtain rfl := Option.some.inj h
    rw [fixptDeflate_eq]; rfl

end Verif
