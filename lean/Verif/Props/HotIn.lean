import Verif.Spec.HotIn
import Verif.Props.ClockIn
import Verif.Props.LawIn
import Verif.Props.Hot
import Verif.Props.Cold
/-
C116: the current demand when the iron stays too hot or too cold, in the main loop with interrupts inside the work
functions.
-/
namespace Verif.Props
open Spec

variable {v : Speed} {c : Conf}

private theorem run_clockedI {x : LoopI} (h : LoopIRun v c x) : ∃ a b, LoopIClocked v c x a b := by
  induction h with
  | boot hv e => exact ⟨_, _, .boot hv e⟩
  | step _ hs ht ih =>
    obtain ⟨a, b, ih⟩ := ih
    exact ih.exists (P := NeverI) (StretchI.start.step hs ht id)

private theorem hot_timeless {w d : Int} {k : PidK} {s t : Sys} (h : Timeless s t) (hh : TooHot w d k s) :
    TooHot w d k t := by
  unfold Timeless at h
  rw [h]
  exact ⟨hh.on, hh.sensor, hh.wanted, hh.factors, hh.hot⟩

private theorem cold_timeless {w d : Int} {k : PidK} {s t : Sys} (h : Timeless s t) (hh : TooCold w d k s) :
    TooCold w d k t := by
  unfold Timeless at h
  rw [h]
  exact ⟨hh.on, hh.sensor, hh.wanted, hh.factors, hh.cold⟩

private theorem feedback_timeless {s t : Sys} (h : Timeless s t) : t.ct.feedback = s.ct.feedback :=
  (congrArg (·.ct.feedback) h :)

/-- a run in terms of one at one instant -/
private theorem run_once {x y : LoopI} (hv : v.SaneI) (h : LoopIRun v c x) (hs : LoopIStep c x (some .measureWork) y)
    (ht : InTimeI v y) (hr : RunsTemp x.s .measureWork y.s) : ∃ t t', Inv c t ∧ Inv c t' ∧
      step c t .measureWork = some t' ∧ RunsTemp t .measureWork t' ∧ Timeless x.s t ∧ Timeless y.s t' := by
  rcases hs.once hv (h.inv hv) ht with ⟨h, -⟩ | ⟨f, t, t', ef, it, it', r, et, r'⟩
  · cases h
  · cases ef
    obtain ⟨a1, a2, -, -, -, -, -, a8, -⟩ := r.same
    obtain ⟨-, -, -, -, -, -, b7, -⟩ := r'.same
    exact ⟨t, t', it, it', et, ⟨⟨rfl, a1 ▸ hr.1.2.1, a2 ▸ hr.1.2.2⟩, a8 ▸ hr.2.1, b7 ▸ hr.2.2⟩, r, r'⟩

/-- the next step of a stretch without evaluation of the temperature -/
private theorem clock_other {x y : LoopI} {e : Option Ev} {a b : During} (hc : LoopIClocked v c x a b)
    (hs : LoopIStep c x e y) (ht : InTimeI v y) (hn : ¬ EvaluatesI 1 x e y) (hen : y.s.ct.enabled = x.s.ct.enabled) :
    ∃ b', LoopIClocked v c y a b' :=
  hc.stretchT (StretchI.start.step hs ht fun h => h.elim hn fun h => h hen)

/-! ### too hot -/

private theorem hot_clock {w d : Int} {k : PidK} {t0 n : Nat} {a : During} {x : LoopI} (hv : v.SaneI)
    (h : StaysHotI v c w d k t0 x n a) :
    TooHot w d k x.s ∧ (∃ b, LoopIClocked v c x a b) ∧ SpacedI 1 a.stop x ∧ a.stop ≤ t0 + n * (v.period + v.W) := by
  induction h with
  | @first x y h hs ht hr ho hh =>
    obtain ⟨a', b, hc⟩ := run_clockedI h
    exact ⟨hh, ⟨b, hc.temp hs ht (Or.inl hr)⟩, SpacedI.eval hv (by decide) (h.inv hv) hs ht hr.1.2.1 hr.1.2.2,
      by simp only []; omega⟩
  | @runs x y n a _ hs ht hr hh hle ih =>
    obtain ⟨i1, ⟨b, hc⟩, i3, i4⟩ := ih
    have hrun := (ClockI.of hv hc).run
    have hp := (C113_temperature v c x y a b hv hc hs ht hr i1.sensor).1
    have hl := ((hrun.inv hv).len hs ht).2
    refine ⟨hh, ⟨b, hc.temp hs ht (Or.inl hr)⟩, SpacedI.eval hv (by decide) (hrun.inv hv) hs ht hr.1.2.1 hr.1.2.2, ?_⟩
    rw [Nat.add_mul]
    simp only []
    omega
  | @other x e y n a _ hs ht hn hh ih =>
    obtain ⟨i1, ⟨b, hc⟩, i3, i4⟩ := ih
    exact ⟨hh, clock_other hc hs ht hn (by rw [hh.on, i1.on]), i3.step hv (by decide) (ClockI.of hv hc).run hs ht, i4⟩

private theorem hot_inv {w d p q : Int} {k : PidK} {t0 n : Nat} {a : During} {x : LoopI} (hv : v.SaneI) (hd : 0 ≤ d)
    (hk : Pulls k d p q) (h : StaysHotI v c w d k t0 x n a) :
    w - x.s.ct.feedback ≤ x.s.ct.pid.prevE ∧ x.s.ct.pid.integr ≤ max 0 (80 * 64 - n * q) ∧
    (1 ≤ n → 80 * 64 ≤ p + n * q → x.s.cc.pid.setpoint = 0) := by
  induction h with
  | @first x y h hs ht hr ho hh =>
    have hi := ((h.step hs ht).inv hv).inv
    obtain ⟨-, q2, -⟩ := hi.ct.lim
    have := hi.ct.range.integr
    obtain ⟨t, t', it, it', et, hr', -, r'⟩ := run_once hv h hs ht hr
    have hfirst := hot_prev it it' et hr' hd (hot_timeless r' hh)
    obtain ⟨-, -, -, -, -, b6, -⟩ := r'.same
    rw [feedback_timeless r', b6] at hfirst
    refine ⟨hfirst, ?_, fun h => absurd h (by decide)⟩
    rw [Int.natCast_zero, Int.zero_mul]
    omega
  | @runs x y n a hx hs ht hr hh hle ih =>
    obtain ⟨i1, ⟨b, hc⟩, i3, i4⟩ := hot_clock hv hx
    obtain ⟨j1, j2, -⟩ := ih
    have hrun := (ClockI.of hv hc).run
    have hi := (hrun.inv hv).inv
    have hT := i3.late hv (by decide) hrun hr.1.2.1 hr.1.2.2
    obtain ⟨w', k', ms, dt, out, amps, hw, hk', hms, hdt, hl, hamps, hset⟩ :=
      C114_temperature v c x y a b hv hc hs ht hr i1.sensor (by omega)
    cases wanted_eq hw i1.wanted
    rw [i1.factors] at hk'
    cases hk'
    obtain ⟨f1, f2, f3, f4⟩ := factors_ok hi i1.factors
    obtain ⟨p0, q0⟩ := pulls_nonneg f1 f2 hd hk
    obtain ⟨k1, r, k2, k3⟩ := hk
    have hhot := hh.hot
    obtain ⟨g1, g2, g3⟩ :=
      law_hot f1 f2 f3 f4 (dt_ge (by have := hms.1; omega) hdt) hd (by omega) (by omega) k1 k2 k3 hl
    have e1 : ((n + 1 : Nat) : Int) * q = n * q + q := by push_cast; ring
    refine ⟨g1, ?_, fun _ hN => ?_⟩
    · rw [e1]
      omega
    · rw [hset]
      split
      · rfl
      · rw [g3 (by rw [e1] at hN; omega)] at hamps
        exact zero_amps hamps
  | @other x e y n a hx hs ht hn hh ih =>
    obtain ⟨i1, ⟨b, hc⟩, i3, i4⟩ := hot_clock hv hx
    obtain ⟨j1, j2, j3⟩ := ih
    rcases hs.once hv ((ClockI.of hv hc).run.inv hv) ht with ⟨-, es⟩ | ⟨f, t, t', ef, it, it', r, et, r'⟩
    · rw [es]
      exact ⟨j1, j2, j3⟩
    · obtain ⟨a1, a2, -, a4, -, a6, -⟩ := r.same
      obtain ⟨-, -, -, b4, -, b6, -⟩ := r'.same
      obtain ⟨k1, k2, k3⟩ := hot_other it et (fun h => hn ⟨by rw [ef, h.1], a1 ▸ h.2.1, a2 ▸ h.2.2⟩) hd
        (hot_timeless r' hh) (by rw [feedback_timeless r, a6]; exact j1) (by rw [a6]; exact j2)
      rw [feedback_timeless r', b6] at k1
      rw [b6] at k2
      rw [a4, b4] at k3
      exact ⟨k1, k2, fun h1 h2 => k3 (j3 h1 h2)⟩

/-- While the iron is at least `d` too hot and does not cool down, the integral falls; as soon as it has had time to
    fall to the proportional part, no current is demanded. -/
theorem C116_hot (v : Speed) (c : Conf) (w d p q : Int) (k : PidK) (t0 n : Nat) (a : During) (x : LoopI) (hv : v.SaneI)
    (hd : 0 ≤ d) (hk : Pulls k d p q) (h : StaysHotI v c w d k t0 x n a) (h1 : 1 ≤ n) (hn : 80 * 64 ≤ p + n * q) :
    x.s.cc.pid.setpoint = 0 :=
  (hot_inv hv hd hk h).2.2 h1 hn

/-- The same in time: after `N + 1` times an evaluation period and a watchdog period. -/
theorem C116_hot_time (v : Speed) (c : Conf) (w d p q : Int) (k : PidK) (t0 n N : Nat) (a : During) (x : LoopI)
    (hv : v.SaneI) (hd : 0 ≤ d) (hk : Pulls k d p q) (h : StaysHotI v c w d k t0 x n a) (h1 : 1 ≤ N)
    (hn : 80 * 64 ≤ p + N * q) (hT : t0 + (N + 1) * (v.period + v.W) ≤ x.T) : x.s.cc.pid.setpoint = 0 := by
  obtain ⟨i1, ⟨b, hc⟩, i3, i4⟩ := hot_clock hv h
  have hc := ClockI.of hv hc
  obtain ⟨f1, f2, -, -⟩ := factors_ok (hc.run.inv hv).inv i1.factors
  obtain ⟨p0, q0⟩ := pulls_nonneg f1 f2 hd hk
  have e1 := hc.next i1.on i1.sensor
  have e2 := (hc.run.inv hv).lt_evalBy 1
  have hN : N ≤ n := by
    by_contra hh
    have : (n + 1) * (v.period + v.W) ≤ (N + 1) * (v.period + v.W) := Nat.mul_le_mul_right _ (by omega)
    rw [Nat.add_mul] at this
    omega
  refine C116_hot v c w d p q k t0 n a x hv hd hk h (by omega) ?_
  have : (N : Int) * q ≤ n * q := by
    have : (N : Int) ≤ n := by exact_mod_cast hN
    nlinarith
  omega

/-! ### too cold -/

private theorem cold_clock {w d : Int} {k : PidK} {t0 n : Nat} {a : During} {x : LoopI} (hv : v.SaneI)
    (h : StaysColdI v c w d k t0 x n a) :
    TooCold w d k x.s ∧ (∃ b, LoopIClocked v c x a b) ∧ SpacedI 1 a.stop x ∧ a.stop ≤ t0 + n * (v.period + v.W) := by
  induction h with
  | @first x y h hs ht hr ho hh =>
    obtain ⟨a', b, hc⟩ := run_clockedI h
    exact ⟨hh, ⟨b, hc.temp hs ht (Or.inl hr)⟩, SpacedI.eval hv (by decide) (h.inv hv) hs ht hr.1.2.1 hr.1.2.2,
      by simp only []; omega⟩
  | @runs x y n a _ hs ht hr hh hle ih =>
    obtain ⟨i1, ⟨b, hc⟩, i3, i4⟩ := ih
    have hrun := (ClockI.of hv hc).run
    have hp := (C113_temperature v c x y a b hv hc hs ht hr i1.sensor).1
    have hl := ((hrun.inv hv).len hs ht).2
    refine ⟨hh, ⟨b, hc.temp hs ht (Or.inl hr)⟩, SpacedI.eval hv (by decide) (hrun.inv hv) hs ht hr.1.2.1 hr.1.2.2, ?_⟩
    rw [Nat.add_mul]
    simp only []
    omega
  | @other x e y n a _ hs ht hn hh _ _ ih =>
    obtain ⟨i1, ⟨b, hc⟩, i3, i4⟩ := ih
    exact ⟨hh, clock_other hc hs ht hn (by rw [hh.on, i1.on]), i3.step hv (by decide) (ClockI.of hv hc).run hs ht, i4⟩

/-- one more run -/
private theorem cold_run {w d p q : Int} {k : PidK} {t0 n : Nat} {a : During} {x y : LoopI} (hv : v.SaneI) (hd : 0 ≤ d)
    (hk : Pushes k d p q) (hx : StaysColdI v c w d k t0 x n a)
    (j1 : x.s.ct.pid.prevE ≤ w - x.s.ct.feedback) (j2 : min (80 * 64) (n * q - 30 * 64) ≤ x.s.ct.pid.integr)
    (hs : LoopIStep c x (some .measureWork) y) (ht : InTimeI v y) (hr : RunsTemp x.s .measureWork y.s)
    (hh : TooCold w d k y.s) (hle : y.s.ct.feedback ≤ x.s.ct.feedback) :
    y.s.ct.pid.prevE ≤ w - y.s.ct.feedback ∧
    min (80 * 64) ((n + 1 : Nat) * q - 30 * 64) ≤ y.s.ct.pid.integr ∧
    ∀ b, CurrentFor (p + min (80 * 64) ((n + 1 : Nat) * q - 30 * 64)) b → b ≤ y.s.cc.pid.setpoint := by
  obtain ⟨i1, ⟨b, hc⟩, i3, i4⟩ := cold_clock hv hx
  have hrun := (ClockI.of hv hc).run
  have hi := (hrun.inv hv).inv
  have hT := i3.late hv (by decide) hrun hr.1.2.1 hr.1.2.2
  obtain ⟨w', k', ms, dt, out, amps, hw, hk', hms, hdt, hl, hamps, hset⟩ :=
    C114_temperature v c x y a b hv hc hs ht hr i1.sensor (by omega)
  cases wanted_eq hw i1.wanted
  rw [i1.factors] at hk'
  cases hk'
  obtain ⟨f1, f2, f3, f4⟩ := factors_ok hi i1.factors
  obtain ⟨k1, r, k2, k3⟩ := hk
  have hcold := hh.cold
  obtain ⟨q1, q2, q3, q4⟩ := hi.ct.lim
  have hin := hi.ct.range.integr
  have hsp := hi.ct.range.sp
  have hw' : w = x.s.ct.pid.setpoint := wanted_eq hw hi.ct.sp
  obtain ⟨g1, g2, g3⟩ := law_cold f1 f2 f3 f4 (dt_ge (by have := hms.1; omega) hdt) hd (by omega) (by omega) (by omega)
    (by omega) k1 k2 k3 hl
  have e1 : ((n + 1 : Nat) : Int) * q = n * q + q := by push_cast; ring
  have hq : 0 ≤ q := prod_nonneg k3 (by have := prod_nonneg k2 (by nlinarith); omega)
  have g4 : min (80 * 64) ((n + 1 : Nat) * q - 30 * 64) ≤ y.s.ct.pid.integr := by
    rw [e1]; omega
  refine ⟨g1, g4, fun b hb => ?_⟩
  rw [hset, if_neg (by omega)]
  exact amps_mono hb hamps (by omega)

private theorem cold_inv {w d p q : Int} {k : PidK} {t0 n : Nat} {a : During} {x : LoopI} (hv : v.SaneI) (hd : 0 ≤ d)
    (hk : Pushes k d p q) (h : StaysColdI v c w d k t0 x n a) :
    x.s.ct.pid.prevE ≤ w - x.s.ct.feedback ∧ min (80 * 64) (n * q - 30 * 64) ≤ x.s.ct.pid.integr := by
  induction h with
  | @first x y h hs ht hr ho hh =>
    have hi := ((h.step hs ht).inv hv).inv
    obtain ⟨q1, -⟩ := hi.ct.lim
    have := hi.ct.range.integr
    obtain ⟨t, t', it, it', et, hr', -, r'⟩ := run_once hv h hs ht hr
    have hfirst := cold_prev it it' et hr' hd (cold_timeless r' hh)
    obtain ⟨-, -, -, -, -, b6, -⟩ := r'.same
    rw [feedback_timeless r', b6] at hfirst
    refine ⟨hfirst, ?_⟩
    rw [Int.natCast_zero, Int.zero_mul]
    omega
  | @runs x y n a hx hs ht hr hh hle ih =>
    obtain ⟨g1, g2, -⟩ := cold_run hv hd hk hx ih.1 ih.2 hs ht hr hh hle
    exact ⟨g1, g2⟩
  | @other x e y n a hx hs ht hn hh hm1 hm2 ih =>
    obtain ⟨i1, ⟨b, hc⟩, i3, i4⟩ := cold_clock hv hx
    obtain ⟨j1, j2⟩ := ih
    rw [hm1, hm2]
    refine ⟨?_, j2⟩
    suffices hfb : y.s.ct.feedback = x.s.ct.feedback by rw [hfb]; exact j1
    rcases hs.once hv ((ClockI.of hv hc).run.inv hv) ht with ⟨-, es⟩ | ⟨f, t, t', ef, it, it', r, et, r'⟩
    · rw [es]
    · obtain ⟨a1, a2, -⟩ := r.same
      rw [← feedback_timeless r', ← feedback_timeless r]
      exact other_feedback it et fun h => hn ⟨by rw [ef, h.1], a1 ▸ h.2.1, a2 ▸ h.2.2⟩

/-- While the iron is at least `d` too cold and does not warm up, the integral rises from run to run, and every run
    demands at least the current for the proportional part and the integral reached. -/
theorem C116_cold (v : Speed) (c : Conf) (w d p q : Int) (k : PidK) (t0 n : Nat) (a : During) (x y : LoopI) (hv : v.SaneI)
    (hd : 0 ≤ d) (hk : Pushes k d p q) (h : StaysColdI v c w d k t0 x n a)
    (hs : LoopIStep c x (some .measureWork) y) (ht : InTimeI v y) (hr : RunsTemp x.s .measureWork y.s)
    (hh : TooCold w d k y.s) (hle : y.s.ct.feedback ≤ x.s.ct.feedback) (b : Int)
    (hb : CurrentFor (p + min (80 * 64) ((n + 1 : Nat) * q - 30 * 64)) b) : b ≤ y.s.cc.pid.setpoint := by
  obtain ⟨j1, j2⟩ := cold_inv hv hd hk h
  exact (cold_run hv hd hk h j1 j2 hs ht hr hh hle).2.2 b hb

/-- The same in time: from `N` times an evaluation period and a watchdog period on, where `N` runs take the integral from
    its lower limit of -30 C to its upper limit of 80 C, every run demands at least the current for the proportional part
    and 80 C. -/
theorem C116_cold_time (v : Speed) (c : Conf) (w d p q : Int) (k : PidK) (t0 n N : Nat) (a : During) (x y : LoopI)
    (hv : v.SaneI) (hd : 0 ≤ d) (hk : Pushes k d p q) (h : StaysColdI v c w d k t0 x n a)
    (hs : LoopIStep c x (some .measureWork) y) (ht : InTimeI v y) (hr : RunsTemp x.s .measureWork y.s)
    (hh : TooCold w d k y.s) (hle : y.s.ct.feedback ≤ x.s.ct.feedback) (hN : 110 * 64 ≤ N * q)
    (hT : t0 + N * (v.period + v.W) ≤ x.T) (b : Int) (hb : CurrentFor (p + 80 * 64) b) : b ≤ y.s.cc.pid.setpoint := by
  obtain ⟨i1, ⟨b', hc⟩, i3, i4⟩ := cold_clock hv h
  have hc := ClockI.of hv hc
  have e1 := hc.next i1.on i1.sensor
  have e2 := (hc.run.inv hv).lt_evalBy 1
  have hn : N ≤ n + 1 := by
    by_contra hh
    have : (n + 1) * (v.period + v.W) ≤ N * (v.period + v.W) := Nat.mul_le_mul_right _ (by omega)
    rw [Nat.add_mul] at this
    omega
  have hq : 0 < q := by
    by_contra hq
    have : (N : Int) * q ≤ 0 := by nlinarith
    omega
  have h2 : (N : Int) * q ≤ (n + 1 : Nat) * q := by
    have : (N : Int) ≤ (n + 1 : Nat) := by exact_mod_cast hn
    nlinarith
  refine C116_cold v c w d p q k t0 n a x y hv hd hk h hs ht hr hh hle b ?_
  rw [show min (80 * 64) (((n + 1 : Nat) : Int) * q - 30 * 64) = 80 * 64 by omega]
  exact hb

/-! ### concrete runs -/

/-- the step evaluates the temperature, or leads to a state which is not too hot -/
private def Cools (w d : Int) (k : PidK) (x : LoopI) (e : Option Ev) (y : LoopI) : Prop :=
  EvaluatesI 1 x e y ∨ ¬ TooHot w d k y.s

private instance (w d : Int) (k : PidK) (x : LoopI) (e : Option Ev) (y : LoopI) : Decidable (Cools w d k x e y) := by
  unfold Cools; infer_instance

private def hotCmd (v : Speed) (c : Conf) (w d : Int) (k : PidK) (x : LoopI × Nat × During) (a : CmdI) :
    Option (LoopI × Nat × During) :=
  match a with
  | .call .measureWork g =>
    if x.1.s.meas.resultAvail = true ∧ x.1.s.meas.active = 1 then
      (loopCmdI v c NeverI x.1 (.call .measureWork g)).bind fun y =>
        if TooHot w d k x.1.s ∧ TooHot w d k y.s ∧ x.1.s.ct.feedback ≤ y.s.ct.feedback then
          some (y, x.2.1 + 1, ⟨x.1.T, y.T⟩)
        else none
    else (loopCmdI v c (Cools w d k) x.1 (.call .measureWork g)).map fun y => (y, x.2)
  | a => (loopCmdI v c (Cools w d k) x.1 a).map fun y => (y, x.2)

private theorem hotCmd_hot {w d : Int} {k : PidK} {t0 : Nat} {x y : LoopI × Nat × During} {a : CmdI}
    (hx : StaysHotI v c w d k t0 x.1 x.2.1 x.2.2) (h : hotCmd v c w d k x a = some y) :
    StaysHotI v c w d k t0 y.1 y.2.1 y.2.2 := by
  have other : ∀ a, (loopCmdI v c (Cools w d k) x.1 a).map (fun z => (z, x.2)) = some y →
      StaysHotI v c w d k t0 y.1 y.2.1 y.2.2 := by
    intro a h
    obtain ⟨z, h1, h2⟩ := Option.map_eq_some_iff.mp h
    cases h2
    obtain ⟨e, k1, k2, k3⟩ := loopCmdI_stretch h1
    unfold Cools at k3
    rw [not_or, not_not] at k3
    exact hx.other k1 k2 k3.1 k3.2
  unfold hotCmd at h
  split at h
  · split at h
    · rename_i hh
      obtain ⟨z, h1, h2⟩ := Option.bind_eq_some_iff.mp h
      split at h2
      · rename_i hc
        cases h2
        obtain ⟨h3, h4, -⟩ := loopCmdI_call h1
        exact hx.runs h3 h4 ⟨⟨rfl, hh.1, hh.2⟩, hc.1.on, hc.2.1.sensor⟩ hc.2.1 hc.2.2
      · cases h2
    · exact other _ h
  · exact other _ h

private def hotDemo : Option (LoopI × LoopI × LoopI × Nat × During) :=
  (loopBootI .m88p 0xFF).bind fun x => (loopCmdsI .shipped .m88p NeverI x (samplesI 50 370 ++ [.reset])).bind fun y =>
      (loopCmdI .shipped .m88p NeverI y (.call .measureWork [100, 140])).bind fun z =>
      (((roundI [] 0xFF).drop 2 ++ samplesI 5 0 ++ roundI [195] 0xFF ++ cyclesI 6 370 0).foldlM
        (hotCmd .shipped .m88p (350 * 64) 3520 ⟨96, 19, 13, 128⟩) (z, 0, ⟨50, 290⟩)).map fun r => (y, z, r)

set_option maxRecDepth 100000 in
/-- `C116_hot`, `C116_hot_time`: from 290 ms on the temperature is at least 405 C, 55 C more than wanted; when more than
    2614 ms have passed, there have been six more runs of the controller. -/
example : ∃ x a, StaysHotI .shipped .m88p (350 * 64) 3520 ⟨96, 19, 13, 128⟩ 290 x 6 a ∧
    Pulls ⟨96, 19, 13, 128⟩ 3520 5280 65 ∧ (80 * 64 : Int) ≤ 5280 + (1 : Nat) * 65 ∧
    290 + (1 + 1) * (Speed.shipped.period + Speed.shipped.W) ≤ x.T := by
  have h : hotDemo.any (fun q => q.1.T == 50 && q.2.1.T == 290 && q.1.s.meas.resultAvail &&
      q.1.s.meas.active == 1 && q.1.s.ct.enabled && decide (TooHot (350 * 64) 3520 ⟨96, 19, 13, 128⟩ q.2.1.s) &&
      q.2.2.2.1 == 6 && decide (290 + 2614 ≤ q.2.2.1.T)) = true := by decide +kernel
  match e : hotDemo with
  | none => rw [e] at h; cases h
  | some q =>
    rw [e] at h
    obtain ⟨x0, hb, e⟩ := Option.bind_eq_some_iff.mp e
    obtain ⟨y, hy, e⟩ := Option.bind_eq_some_iff.mp e
    obtain ⟨z, hz, e⟩ := Option.bind_eq_some_iff.mp e
    obtain ⟨r, hr, rfl⟩ := Option.map_eq_some_iff.mp e
    simp only [Option.any_some, Bool.and_eq_true, beq_iff_eq, decide_eq_true_eq] at h
    obtain ⟨⟨⟨⟨⟨⟨⟨p0, p1⟩, p2⟩, p3⟩, p4⟩, p5⟩, p6⟩, p7⟩ := h
    obtain ⟨hs, ht, -⟩ := loopCmdI_call hz
    have hrun := (loopCmdsI_stretch hy).run (loopBootI_run (v := .shipped) hb validEeprom_m88p)
    have h0 := StaysHotI.first hrun hs ht ⟨⟨rfl, p2, p3⟩, p4, p5.sensor⟩ p1 p5
    rw [p0, p1] at h0
    have h1 := foldlM_inv (P := fun x => StaysHotI .shipped .m88p (350 * 64) 3520 ⟨96, 19, 13, 128⟩ 290 x.1 x.2.1 x.2.2)
      (fun x a y hx h => hotCmd_hot hx h) _ (x := (z, 0, ⟨50, 290⟩)) h0 hr
    rw [p6] at h1
    exact ⟨r.1, r.2.2, h1, ⟨⟨-5280, by unfold NearestUp; decide, by decide⟩, -1045,
      ⟨-1045, by unfold NearestUp; decide, by decide⟩, ⟨-65, by unfold NearestUp; decide, by decide⟩⟩, by decide, p7⟩

/-- the step evaluates the temperature, or leads to a state which is not too cold, or clears the memory -/
private def Warms (w d : Int) (k : PidK) (x : LoopI) (e : Option Ev) (y : LoopI) : Prop :=
  EvaluatesI 1 x e y ∨ ¬ (TooCold w d k y.s ∧ y.s.ct.pid.integr = x.s.ct.pid.integr ∧
    y.s.ct.pid.prevE = x.s.ct.pid.prevE)

private instance (w d : Int) (k : PidK) (x : LoopI) (e : Option Ev) (y : LoopI) : Decidable (Warms w d k x e y) := by
  unfold Warms; infer_instance

private def coldCmd (v : Speed) (c : Conf) (w d : Int) (k : PidK) (x : LoopI × Nat × During) (a : CmdI) :
    Option (LoopI × Nat × During) :=
  match a with
  | .call .measureWork g =>
    if x.1.s.meas.resultAvail = true ∧ x.1.s.meas.active = 1 then
      (loopCmdI v c NeverI x.1 (.call .measureWork g)).bind fun y =>
        if TooCold w d k x.1.s ∧ TooCold w d k y.s ∧ y.s.ct.feedback ≤ x.1.s.ct.feedback then
          some (y, x.2.1 + 1, ⟨x.1.T, y.T⟩)
        else none
    else (loopCmdI v c (Warms w d k) x.1 (.call .measureWork g)).map fun y => (y, x.2)
  | a => (loopCmdI v c (Warms w d k) x.1 a).map fun y => (y, x.2)

private theorem coldCmd_cold {w d : Int} {k : PidK} {t0 : Nat} {x y : LoopI × Nat × During} {a : CmdI}
    (hx : StaysColdI v c w d k t0 x.1 x.2.1 x.2.2) (h : coldCmd v c w d k x a = some y) :
    StaysColdI v c w d k t0 y.1 y.2.1 y.2.2 := by
  have other : ∀ a, (loopCmdI v c (Warms w d k) x.1 a).map (fun z => (z, x.2)) = some y →
      StaysColdI v c w d k t0 y.1 y.2.1 y.2.2 := by
    intro a h
    obtain ⟨z, h1, h2⟩ := Option.map_eq_some_iff.mp h
    cases h2
    obtain ⟨e, k1, k2, k3⟩ := loopCmdI_stretch h1
    unfold Warms at k3
    rw [not_or, not_not] at k3
    exact hx.other k1 k2 k3.1 k3.2.1 k3.2.2.1 k3.2.2.2
  unfold coldCmd at h
  split at h
  · split at h
    · rename_i hh
      obtain ⟨z, h1, h2⟩ := Option.bind_eq_some_iff.mp h
      split at h2
      · rename_i hc
        cases h2
        obtain ⟨h3, h4, -⟩ := loopCmdI_call h1
        exact hx.runs h3 h4 ⟨⟨rfl, hh.1, hh.2⟩, hc.1.on, hc.2.1.sensor⟩ hc.2.1 hc.2.2
      · cases h2
    · exact other _ h
  · exact other _ h

private def coldDemo : Option (LoopI × LoopI × (LoopI × Nat × During) × LoopI) :=
  (loopBootI .m88p 0xFF).bind fun x => (loopCmdsI .shipped .m88p NeverI x (samplesI 50 120 ++ [.reset])).bind fun y =>
      (loopCmdI .shipped .m88p NeverI y (.call .measureWork [100, 140])).bind fun z =>
      (((roundI [] 0xFF).drop 2 ++ samplesI 5 0 ++ roundI [195] 0xFF ++ cyclesI 53 120 0 ++ samplesI 50 120 ++
        [CmdI.reset]).foldlM (coldCmd .shipped .m88p (350 * 64) 19200 ⟨96, 19, 13, 128⟩) (z, 0, ⟨50, 290⟩)).bind fun r =>
      (loopCmdI .shipped .m88p NeverI r.1 (.call .measureWork [100, 140])).map fun u => (y, z, r, u)

set_option maxRecDepth 100000 in
private theorem coldDemo_ok : coldDemo.any (fun q => q.1.T == 50 && q.2.1.T == 290 && q.1.s.meas.resultAvail &&
      q.1.s.meas.active == 1 && q.1.s.ct.enabled && decide (TooCold (350 * 64) 19200 ⟨96, 19, 13, 128⟩ q.2.1.s) &&
      q.2.2.1.2.1 == 53 && decide (290 + 26140 ≤ q.2.2.1.1.T) && q.2.2.1.1.s.meas.resultAvail &&
      q.2.2.1.1.s.meas.active == 1 && q.2.2.1.1.s.ct.enabled &&
      decide (TooCold (350 * 64) 19200 ⟨96, 19, 13, 128⟩ q.2.2.2.s) &&
      decide (q.2.2.2.s.ct.feedback ≤ q.2.2.1.1.s.ct.feedback) && q.2.2.2.s.cc.pid.setpoint == 5 * 640) = true := by
  decide +kernel

/-- `C116_cold`, `C116_cold_time`: from 290 ms on the temperature is 2 C, 348 C less than wanted; when more than
    20 * 1307 ms have passed, there have been 53 more runs of the controller, and the next run demands 5 A. -/
example : ∃ x y a, StaysColdI .shipped .m88p (350 * 64) 19200 ⟨96, 19, 13, 128⟩ 290 x 53 a ∧
    Pushes ⟨96, 19, 13, 128⟩ 19200 28800 356 ∧ LoopIStep .m88p x (some .measureWork) y ∧ InTimeI .shipped y ∧
    RunsTemp x.s .measureWork y.s ∧ TooCold (350 * 64) 19200 ⟨96, 19, 13, 128⟩ y.s ∧
    y.s.ct.feedback ≤ x.s.ct.feedback ∧ (110 * 64 : Int) ≤ (20 : Nat) * 356 ∧
    290 + 20 * (Speed.shipped.period + Speed.shipped.W) ≤ x.T ∧ CurrentFor (28800 + 80 * 64) (5 * 640) ∧
    y.s.cc.pid.setpoint = 5 * 640 := by
  have h := coldDemo_ok
  match e : coldDemo with
  | none => rw [e] at h; cases h
  | some q =>
    rw [e] at h
    obtain ⟨x0, hb, e⟩ := Option.bind_eq_some_iff.mp e
    obtain ⟨y, hy, e⟩ := Option.bind_eq_some_iff.mp e
    obtain ⟨z, hz, e⟩ := Option.bind_eq_some_iff.mp e
    obtain ⟨r, hr, e⟩ := Option.bind_eq_some_iff.mp e
    obtain ⟨u, hu, rfl⟩ := Option.map_eq_some_iff.mp e
    simp only [Option.any_some, Bool.and_eq_true, beq_iff_eq, decide_eq_true_eq] at h
    obtain ⟨⟨⟨⟨⟨⟨⟨⟨⟨⟨⟨⟨⟨p0, p1⟩, p2⟩, p3⟩, p4⟩, p5⟩, p6⟩, p7⟩, p8⟩, p9⟩, p10⟩, p11⟩, p12⟩, p13⟩ := h
    obtain ⟨hs, ht, -⟩ := loopCmdI_call hz
    have hrun := (loopCmdsI_stretch hy).run (loopBootI_run (v := .shipped) hb validEeprom_m88p)
    have h0 := StaysColdI.first hrun hs ht ⟨⟨rfl, p2, p3⟩, p4, p5.sensor⟩ p1 p5
    rw [p0, p1] at h0
    have h1 := foldlM_inv (P := fun x => StaysColdI .shipped .m88p (350 * 64) 19200 ⟨96, 19, 13, 128⟩ 290 x.1 x.2.1 x.2.2)
      (fun x a y hx h => coldCmd_cold hx h) _ (x := (z, 0, ⟨50, 290⟩)) h0 hr
    rw [p6] at h1
    obtain ⟨hs', ht', -⟩ := loopCmdI_call hu
    exact ⟨r.1, u, r.2.2, h1, ⟨⟨28800, by unfold NearestUp; decide, by decide⟩, 5700,
      ⟨5700, by unfold NearestUp; decide, by decide⟩, ⟨356, by unfold NearestUp; decide, by decide⟩⟩, hs', ht',
      ⟨⟨rfl, p8, p9⟩, p10, p11.sensor⟩, p11, p12, by decide, Nat.le_trans (by decide) p7,
      ⟨fun h => absurd h (by decide), fun _ => rfl⟩, p13⟩

end Verif.Props
