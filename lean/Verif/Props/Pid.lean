import Verif.Proofs.Pid
/-
C22, C23: the PID controller (pid.c).
-/
namespace Verif.Props
open Spec

/-- everything a user of the PID controller can do to it after `pid_init` -/
inductive PidOp where
  | setpoint (w : Int)
  | factors (k : PidK)
  | reset
  | run (dt r : Int)
  deriving Repr, DecidableEq

/-- executes the operations; collects the outputs of all runs; `none` on undefined behaviour -/
def pidExec (p : Pid) : List PidOp → Option (Pid × List Int)
  | [] => some (p, [])
  | .setpoint w :: ops => pidExec (pidSetSetpoint p w) ops
  | .factors k :: ops => pidExec (pidSetFactors p k) ops
  | .reset :: ops => pidExec (pidReset p) ops
  | .run dt r :: ops => do
    let (p', y) ← pidRun p dt r
    let (p'', ys) ← pidExec p' ops
    return (p'', y :: ys)

/-- For every history of set-point changes, factor changes, resets and runs after `pid_init`
    (whatever was in the structure before), with any values: every output lies within the output
    limits, and the integral always stays within its own limits. -/
theorem C22_limits (p0 p : Pid) (k : PidK) (iLo iHi yLo yHi : Int) (ops : List PidOp)
    (ys : List Int) (hi : iLo ≤ 0 ∧ 0 ≤ iHi) (hy : yLo ≤ yHi)
    (h : pidExec (pidInit p0 k iLo iHi yLo yHi) ops = some (p, ys)) :
    (∀ y ∈ ys, yLo ≤ y ∧ y ≤ yHi) ∧ iLo ≤ p.integr ∧ p.integr ≤ iHi := by
  have gen : ∀ (ops : List PidOp) (q p : Pid) (ys : List Int),
      q.iNeg = iLo → q.iPos = iHi → q.yNeg = yLo → q.yPos = yHi →
      iLo ≤ q.integr → q.integr ≤ iHi → pidExec q ops = some (p, ys) →
      (∀ y ∈ ys, yLo ≤ y ∧ y ≤ yHi) ∧ iLo ≤ p.integr ∧ p.integr ≤ iHi := by
    intro ops
    induction ops with
    | nil =>
      intro q p ys h1 h2 h3 h4 h5 h6 h
      simp only [pidExec, Option.some.injEq, Prod.mk.injEq] at h
      obtain ⟨rfl, rfl⟩ := h
      exact ⟨by simp, h5, h6⟩
    | cons op ops ih =>
      intro q p ys h1 h2 h3 h4 h5 h6 h
      cases op with
      | setpoint w => exact ih _ p ys (by exact h1) (by exact h2) (by exact h3) (by exact h4) (by exact h5) (by exact h6) h
      | factors k =>
        exact ih _ p ys (by exact h1) (by exact h2) (by exact h3) (by exact h4)
          (by simp [pidSetFactors, pidReset]; omega) (by simp [pidSetFactors, pidReset]; omega) h
      | reset =>
        exact ih _ p ys (by exact h1) (by exact h2) (by exact h3) (by exact h4)
          (by simp [pidReset]; omega) (by simp [pidReset]; omega) h
      | run dt r =>
        simp only [pidExec, Option.bind_eq_bind, Option.bind_eq_some_iff, pure, Option.some.injEq,
          Prod.mk.injEq, Prod.exists] at h
        obtain ⟨q', y, hr, p'', ys', hx, rfl, rfl⟩ := h
        obtain ⟨l1, l2, l3, l4, l5, l6, l7, l8, _, _⟩ := pidRun_limits hr (by omega) (by omega)
        obtain ⟨g1, g2⟩ := ih q' p'' ys' (by omega) (by omega) (by omega) (by omega) (by omega) (by omega) hx
        refine ⟨?_, g2⟩
        intro z hz
        rcases List.mem_cons.1 hz with rfl | hz
        · omega
        · exact g1 z hz
  exact gen ops _ p ys rfl rfl rfl rfl (by simp [pidInit, pidSetFactors, pidReset]; omega)
    (by simp [pidInit, pidSetFactors, pidReset]; omega) h

/-- a long error: the integral stops at its limit of 80 °C (5120) and the output at 480 °C -/
example : (pidExec (pidInit ⟨⟨0, 0, 0, 0⟩, 0, 0, 0, 0, 0, 0, 0⟩ ⟨96, 19, 13, 128⟩ (-1920) 5120 0 30720)
    [.setpoint 20800, .run 64 1280, .run 64 1280, .run 64 1280]).map
      (fun r => (r.1.integr, r.2)) = some (5120, [30720, 30720, 30720]) := by decide

/-- Inside the range of the factors and signals of the firmware (factors up to 99, Ki up to 9,
    decay of at least 1, set point 0..480 °C, feedback -20..500 °C, time step up to 32.77 s) no
    operation of a run overflows. -/
theorem C22_defined (p : Pid) (dt r : Int)
    (hkp : 0 ≤ p.k.kp ∧ p.k.kp ≤ 99 * 64) (hki : 0 ≤ p.k.ki ∧ p.k.ki ≤ 9 * 64)
    (hkd : 0 ≤ p.k.kd ∧ p.k.kd ≤ 99 * 64) (hdec : 64 ≤ p.k.decay ∧ p.k.decay ≤ 2 ^ 23 - 1)
    (hsp : 0 ≤ p.setpoint ∧ p.setpoint ≤ 480 * 64)
    (hpe : -(500 * 64) ≤ p.prevE ∧ p.prevE ≤ 500 * 64)
    (hil : -(2 ^ 23) ≤ p.iNeg ∧ p.iPos ≤ 2 ^ 23 - 1)
    (hin : p.iNeg ≤ p.integr ∧ p.integr ≤ p.iPos) (hy : p.yNeg ≤ p.yPos)
    (hr : -(20 * 64) ≤ r ∧ r ≤ 500 * 64) (hdt : -2097 ≤ dt ∧ dt ≤ 2097) :
    ∃ p' y, pidRun p dt r = some (p', y) ∧ -(500 * 64) ≤ p'.prevE ∧ p'.prevE ≤ 500 * 64 := by
  obtain ⟨i, pe, y, e, h, _⟩ := pidRun_ok (p := p) (dt := dt) (r := r)
    ⟨by omega, by omega, by omega, by norm_num at hdec; omega, by omega, by omega,
      by norm_num at hil; unfold S24; omega, hin, hy⟩ (by omega) (by omega)
  refine ⟨_, y, e, ?_⟩
  have := h.prevE
  simp only [] at this ⊢
  omega

example : (pidRun ⟨⟨6336, 576, 6336, 64⟩, 30720, -1920, 5120, 0, 30720, 32000, 0⟩ 2097 (-1280)).isSome := by
  decide

/-- A defined run with a nonzero time step and decay computes exactly the documented law. -/
theorem C23_law (p p' : Pid) (dt r y : Int) (hdt : dt ≠ 0) (hdec : p.k.decay ≠ 0)
    (hi : p.iNeg ≤ p.iPos) (hy : p.yNeg ≤ p.yPos) (h : pidRun p dt r = some (p', y)) :
    PidLaw p.k.kp p.k.ki p.k.kd p.k.decay p.iNeg p.iPos p.yNeg p.yPos dt
      (sat (p.setpoint - r)) p.integr p.prevE p'.integr p'.prevE y ∧
    p'.k = p.k ∧ p'.setpoint = p.setpoint := by
  obtain ⟨e, pt, kie, inc, i0, res0, de, d, pe, res, h1, h2, h3, h4, h5, h6, h7, h8, h9, h10,
    rfl, rfl⟩ := pidRun_inv h
  obtain rfl := fixptSub_inv h1
  obtain rfl := fixptAdd_inv h5
  obtain rfl := fixptAdd_inv h6
  obtain rfl := fixptSub_inv h7
  obtain rfl := fixptAdd_inv h10
  exact ⟨⟨⟨pt, kie, inc, d, fixptMul_prod h2, fixptMul_prod h3, fixptMul_prod h4,
    cClamp_limited hi, fixptMulDiv_prodQuot hdt h8, cClamp_limited hy⟩, fixptDiv_quot hdec h9⟩,
    rfl, rfl⟩

/-- one second after a 10 °C error: P = 15, I = 2.97, D = 2.03 -/
example : pidRun ⟨⟨96, 19, 13, 128⟩, 20800, -1920, 5120, 0, 30720, 0, 0⟩ 64 20160 =
    some (⟨⟨96, 19, 13, 128⟩, 20800, -1920, 5120, 0, 30720, 320, 190⟩, 1280) := by decide

/-- A time step that rounds to zero makes the derivative term +1 or -1 step (1/64) instead of a
    quotient: the rest of the law is unchanged (see finding F1). -/
theorem C23_zero_dt (p p' : Pid) (r y : Int) (hi : p.iNeg ≤ p.iPos) (hy : p.yNeg ≤ p.yPos)
    (h : pidRun p 0 r = some (p', y)) :
    ∃ P I D, FxProd p.k.kp (sat (p.setpoint - r)) P ∧
      LimitedTo p.iNeg p.iPos (sat p.integr) I ∧ p'.integr = I ∧
      D = (if sat (sat (p.setpoint - r) - p.prevE) * p.k.kd < -32 then 1 else -1) ∧
      LimitedTo p.yNeg p.yPos (sat (sat (P + I) + D)) y ∧
      (p.k.decay ≠ 0 → FxQuot (sat (p.setpoint - r)) p.k.decay p'.prevE) ∧
      p'.k = p.k ∧ p'.setpoint = p.setpoint := by
  obtain ⟨e, pt, kie, inc, i0, res0, de, d, pe, res, h1, h2, h3, h4, h5, h6, h7, h8, h9, h10,
    rfl, rfl⟩ := pidRun_inv h
  obtain rfl := fixptSub_inv h1
  obtain rfl := fixptAdd_inv h5
  obtain rfl := fixptAdd_inv h6
  obtain rfl := fixptSub_inv h7
  obtain rfl := fixptAdd_inv h10
  have hinc : inc = 0 := by
    obtain ⟨_, _, rfl⟩ := fixptMul_inv h4
    simp [sat]
  subst hinc
  rw [Int.add_zero] at *
  refine ⟨pt, _, d, fixptMul_prod h2, cClamp_limited hi, rfl, ?_, cClamp_limited hy,
    fun hdec => fixptDiv_quot hdec h9, rfl, rfl⟩
  obtain ⟨z1, z2⟩ := fixptMulDiv_zero h8
  split
  · exact z1 (by assumption)
  · exact z2 (by omega)

example : ∃ p', pidRun ⟨⟨115, 128, 0, 128⟩, 0, -320, 320, 0, 3200, 0, 0⟩ 0 0 = some (p', 0) ∧
    p'.integr = 0 := ⟨_, rfl, rfl⟩

/-- A run changes nothing but the memory terms: the limits, the factors and the set point stay. -/
theorem C23_keeps (p p' : Pid) (dt r y : Int) (h : pidRun p dt r = some (p', y)) :
    p'.iNeg = p.iNeg ∧ p'.iPos = p.iPos ∧ p'.yNeg = p.yNeg ∧ p'.yPos = p.yPos ∧ p'.k = p.k ∧
    p'.setpoint = p.setpoint := by
  obtain ⟨e, pt, kie, inc, i0, res0, de, d, pe, res, -, -, -, -, -, -, -, -, -, -, rfl, rfl⟩ := pidRun_inv h
  exact ⟨rfl, rfl, rfl, rfl, rfl, rfl⟩

/-- Resetting clears both memory terms and nothing else. -/
theorem C23_reset (p : Pid) :
    (pidReset p).integr = 0 ∧ (pidReset p).prevE = 0 ∧ (pidReset p).k = p.k ∧
    (pidReset p).setpoint = p.setpoint ∧ (pidReset p).iNeg = p.iNeg ∧ (pidReset p).iPos = p.iPos ∧
    (pidReset p).yNeg = p.yNeg ∧ (pidReset p).yPos = p.yPos := by
  simp [pidReset]

/-- New factors take effect together with a reset. -/
theorem C23_factors (p : Pid) (k : PidK) :
    (pidSetFactors p k).k = k ∧ (pidSetFactors p k).integr = 0 ∧ (pidSetFactors p k).prevE = 0 ∧
    (pidSetFactors p k).setpoint = p.setpoint ∧
    (pidSetFactors p k).iNeg = p.iNeg ∧ (pidSetFactors p k).iPos = p.iPos ∧
    (pidSetFactors p k).yNeg = p.yNeg ∧ (pidSetFactors p k).yPos = p.yPos := by
  simp [pidSetFactors, pidReset]

example : pidReset ⟨⟨96, 19, 13, 128⟩, 20800, -1920, 5120, 0, 30720, 320, 190⟩ =
    ⟨⟨96, 19, 13, 128⟩, 20800, -1920, 5120, 0, 30720, 0, 0⟩ := by decide

end Verif.Props
