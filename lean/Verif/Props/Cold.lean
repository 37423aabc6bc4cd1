import Verif.Spec.Cold
import Verif.Props.Hot
/-
C104: the current demand when the iron stays too cold.
-/
namespace Verif.Props
open Spec

variable {v : Speed} {c : Conf}

/-! ### arithmetic -/

private theorem sat_nonneg {a : Int} (h : 0 ≤ a) : 0 ≤ sat a := by unfold sat; omega

theorem prod_nonneg {a x y : Int} (h : FxProd a x y) (h0 : 0 ≤ a * x) : 0 ≤ y := by
  obtain ⟨m, h1, rfl⟩ := h
  refine sat_nonneg ?_
  unfold NearestUp at h1; omega

private theorem away_nonneg {a b n : Int} (hb : 0 < b) (ha : 0 ≤ a) (h : NearestAway a b n) : 0 ≤ n := by
  by_contra hn
  have : n * b ≤ -b := by nlinarith
  unfold NearestAway at h
  omega

private theorem quot_le {e dec q : Int} (he : 0 ≤ e) (hd : 64 ≤ dec) (h : FxQuot e dec q) : q ≤ e := by
  obtain ⟨-, n, h1, rfl⟩ := h
  have hn : n ≤ e := by
    by_contra hn
    have h2 : (e + 1) * dec ≤ n * dec := by nlinarith
    have h3 : e * 64 ≤ e * dec := by nlinarith
    have h4 : e * 64 + dec ≤ n * dec := by nlinarith
    unfold NearestAway at h1
    omega
  have h0 := away_nonneg (by omega) (by omega) h1
  unfold sat
  omega

/-- more output is more current -/
theorem amps_mono {y z a b : Int} (hz : CurrentFor z b) (hy : CurrentFor y a) (h : z ≤ y ∨ 250 * 64 ≤ y) :
    b ≤ a := by
  obtain ⟨h1, h2⟩ := hz
  obtain ⟨h3, h4⟩ := hy
  by_cases hz : z ≤ 250 * 64 <;> by_cases hy : y ≤ 250 * 64
  · have := h1 hz
    have := h3 hy
    unfold NearestAway at *
    omega
  · have := h1 hz
    have := h4 (by omega)
    unfold NearestAway at *
    omega
  · have := h2 (by omega)
    have h4 := h4 (by omega)
    omega
  · have := h2 (by omega)
    have := h4 (by omega)
    omega

/-- one run of the controller that is too cold, and was not colder before -/
theorem law_cold {kp ki kd decay dt e I0 e0 I e' y d p q r : Int} (hkp : 0 ≤ kp) (hki : 0 ≤ ki) (hkd : 0 ≤ kd)
    (hdec : 64 ≤ decay) (hdt : 4 ≤ dt) (hd : 0 ≤ d) (he : d ≤ e) (h0 : e0 ≤ e) (hI0 : -30 * 64 ≤ I0)
    (hI1 : I0 ≤ 80 * 64)
    (hP : FxProd kp d p) (hr : FxProd ki d r) (hq : FxProd r 4 q)
    (h : PidLaw kp ki kd decay (-30 * 64) (80 * 64) 0 (480 * 64) dt e I0 e0 I e' y) :
    e' ≤ e ∧ (I0 + q ≤ I ∨ I = 80 * 64) ∧ (p + I ≤ y ∨ 250 * 64 ≤ y) := by
  obtain ⟨⟨P, kie, inc, D, l1, l2, l3, l4, l5, l6⟩, l7⟩ := h
  have g1 : p ≤ P := prod_mono hP l1 (by nlinarith)
  have g2 : r ≤ kie := prod_mono hr l2 (by nlinarith)
  have g3 : 0 ≤ r := prod_nonneg hr (by nlinarith)
  have g4 : q ≤ inc := prod_mono hq l3 (by nlinarith)
  have g5 : 0 ≤ q := prod_nonneg hq (by nlinarith)
  have g6 : 0 ≤ p := prod_nonneg hP (by nlinarith)
  have g7 : p ≤ 8388607 := by obtain ⟨m, -, rfl⟩ := hP; unfold sat; omega
  have g8 : P ≤ 8388607 := by obtain ⟨m, -, rfl⟩ := l1; unfold sat; omega
  refine ⟨quot_le (by omega) hdec l7, ?_, ?_⟩
  · obtain ⟨b1, b2, b3, b4, b5⟩ := l4
    by_cases hh : sat (I0 + inc) < -30 * 64
    · exfalso; unfold sat at hh; omega
    · by_cases hh' : 80 * 64 < sat (I0 + inc)
      · exact Or.inr (b4 hh')
      · have := b5 (by omega) (by omega)
        left; rw [this]; unfold sat at *; omega
  · have hD : 0 ≤ D := by
      obtain ⟨-, m, n, m1, m2, rfl⟩ := l5
      refine sat_nonneg (away_nonneg (by omega) ?_ m2)
      have s0 : 0 ≤ sat (e - e0) := sat_nonneg (by omega)
      have s1 : 0 ≤ sat (e - e0) * kd := by nlinarith
      unfold NearestUp at m1; omega
    obtain ⟨a1, a2, -, -, -⟩ := l4
    obtain ⟨b1, b2, b3, b4, b5⟩ := l6
    by_cases hh : 480 * 64 < sat (sat (P + I) + D)
    · right; rw [b4 hh]; decide
    · by_cases hl : sat (sat (P + I) + D) < 0
      · left; rw [b3 hl]; unfold sat at hl; omega
      · left
        rw [b5 (by omega) (by omega)]
        unfold sat at *; omega

/-! ### C104 -/

private theorem cold_clock {w d : Int} {k : PidK} {t0 n a : Nat} {x : Loop} (hv : v.Sane)
    (h : StaysCold v c w d k t0 x n a) :
    TooCold w d k x.s ∧ (∃ b, LoopClocked v c x a b) ∧ Spaced 1 a x ∧ a ≤ t0 + n * v.period := by
  induction h with
  | @first x y h hs ht hr ho hh =>
    subst ho
    obtain ⟨a', b, hc⟩ : ∃ a' b, LoopClocked v c x a' b := run_clocked h
    exact ⟨hh, ⟨b, hc.temp hs ht (Or.inl hr)⟩, Spaced.first (by decide) h hs hr.1.2.1 hr.1.2.2, by omega⟩
  | @runs x y n a _ hs ht hr hh hle ih =>
    obtain ⟨i1, ⟨b, hc⟩, i3, i4⟩ := ih
    have hp := (C78_temperature v c x y a b hv hc hs hr i1.sensor).1
    refine ⟨hh, ⟨b, hc.temp hs ht (Or.inl hr)⟩, Spaced.first (by decide) (clk_sys hc).1 hs hr.1.2.1 hr.1.2.2, ?_⟩
    rw [Nat.add_mul]
    omega
  | @other x e y n a _ hs ht hn hh _ _ ih =>
    obtain ⟨i1, ⟨b, hc⟩, i3, i4⟩ := ih
    refine ⟨hh, ?_, Spaced.step hv (by decide) (clk_sys hc).1 i3 hs hn, i4⟩
    by_cases hc' : ∃ f, e = some f ∧ RunsCurr x.s f y.s
    · obtain ⟨f, rfl, hr⟩ := hc'
      exact ⟨_, hc.curr hs ht hr⟩
    · refine ⟨b, hc.other hs ht fun f hf => ⟨by rw [hh.on, i1.on], fun hr => hn ?_, fun hr => hc' ⟨f, hf, hr⟩⟩⟩
      obtain ⟨⟨rfl, h1, h2⟩, -⟩ := hr
      exact ⟨hf, h1, h2⟩

/-- what a run leaves as the previous error -/
theorem cold_prev {s s' : Sys} {w d : Int} {k : PidK} (hi : Inv c s) (hi' : Inv c s') (hf : step c s .measureWork = some s')
    (hr : RunsTemp s .measureWork s') (hd : 0 ≤ d) (hh : TooCold w d k s') : s'.ct.pid.prevE ≤ w - s'.ct.feedback := by
  obtain ⟨⟨-, hav, hac⟩, hen, hem⟩ := hr
  rcases measureWork_eff hi hf with ⟨h, -⟩ | ⟨-, p, pl, hm⟩
  · rw [hav] at h; cases h
  have ht := hm.temp hac
  have hpl : pl ≠ .timeout := by
    rintro rfl
    have := ht.emergency
    rw [hem] at this
    cases this
  obtain ⟨-, dt, out, amps, h1, h2, -, -⟩ := ht.run hpl hen hem
  have hw : w = s.ct.pid.setpoint := by
    have h1 := hh.wanted
    rw [hm.set, ht.idle] at h1
    exact wanted_eq h1 hi.ct.sp
  have hcold := hh.cold
  have hdec := hi.ct.range.decay
  have hsp := hi.ct.range.sp
  have hfb := hi'.ct.fb
  obtain ⟨q1, q2, q3, q4⟩ := hi.ct.lim
  have hq : FxQuot (w - s'.ct.feedback) s.ct.pid.k.decay s'.ct.pid.prevE := by
    rw [hw, ← sat_eq (x := s.ct.pid.setpoint - s'.ct.feedback) (by omega) (by omega)]
    by_cases hdt : dt = 0
    · subst hdt
      obtain ⟨_, _, _, -, -, -, -, -, hq, -⟩ := C23_zero_dt _ _ _ _ (by rw [q1, q2]; decide) (by rw [q3, q4]; decide) h2
      exact hq (by omega)
    · exact (C23_law _ _ _ _ _ hdt (by omega) (by rw [q1, q2]; decide) (by rw [q3, q4]; decide) h2).1.mem
  exact quot_le (by omega) (by omega) hq

/-- a step which is not an evaluation of the temperature -/
theorem other_feedback {s s' : Sys} {e : Ev} (hi : Inv c s) (hf : step c s e = some s') (hn : ¬ Evaluates s e 1) :
    s'.ct.feedback = s.ct.feedback := by
  rcases step_eff hi hf with ⟨-, hca⟩ | ⟨rfl, hav, p', pl, hm⟩
  · exact hca.feedback
  · have ha : s.meas.active = 0 := by
      have := hi.meas.act
      have : s.meas.active ≠ 1 := fun hh => hn ⟨rfl, hav, hh⟩
      omega
    obtain ⟨-, f, hcf⟩ := hm.curr ha
    rw [hcf.ct]

/-- one more run -/
private theorem cold_run {w d p q : Int} {k : PidK} {t0 n a : Nat} {x y : Loop} (hv : v.Sane) (hd : 0 ≤ d)
    (hk : Pushes k d p q) (hx : StaysCold v c w d k t0 x n a)
    (j1 : x.s.ct.pid.prevE ≤ w - x.s.ct.feedback) (j2 : min (80 * 64) (n * q - 30 * 64) ≤ x.s.ct.pid.integr)
    (hs : LoopStep c x (some .measureWork) y) (hr : RunsTemp x.s .measureWork y.s) (hh : TooCold w d k y.s)
    (hle : y.s.ct.feedback ≤ x.s.ct.feedback) :
    y.s.ct.pid.prevE ≤ w - y.s.ct.feedback ∧
    min (80 * 64) ((n + 1 : Nat) * q - 30 * 64) ≤ y.s.ct.pid.integr ∧
    ∀ b, CurrentFor (p + min (80 * 64) ((n + 1 : Nat) * q - 30 * 64)) b → b ≤ y.s.cc.pid.setpoint := by
  obtain ⟨i1, ⟨b, hc⟩, i3, i4⟩ := cold_clock hv hx
  have hrun := (clk_sys hc).1
  have hi := Running.inv hrun.running
  have hT := i3.late hv (by decide) hrun hr.1.2.1 hr.1.2.2
  have hT' := (C78_temperature v c x y a b hv hc hs hr i1.sensor).1
  have hp := hv.1
  rcases hs.sys with ⟨h, -⟩ | ⟨g, hg, hpo, hf, -⟩
  · cases h
  cases hg
  obtain ⟨w', k', dt, out, amps, hw, hk', hdt, hl, hamps, hset⟩ :=
    C64_law c x.s y.s x.T a b (clk_sys hc).2 hf hr (by omega) (by omega)
  cases wanted_eq hw i1.wanted
  rw [i1.factors] at hk'
  cases hk'
  obtain ⟨f1, f2, f3, f4⟩ := factors_ok hi i1.factors
  obtain ⟨k1, r, k2, k3⟩ := hk
  have hcold := hh.cold
  obtain ⟨q1, q2, q3, q4⟩ := hi.ct.lim
  have hin := hi.ct.range.integr
  have hsp := hi.ct.range.sp
  have hw' : w = x.s.ct.pid.setpoint := wanted_eq hw hi.ct.sp
  obtain ⟨g1, g2, g3⟩ := law_cold f1 f2 f3 f4 (dt_ge (by omega) hdt) hd (by omega) (by omega) (by omega) (by omega) k1 k2 k3 hl
  have e1 : ((n + 1 : Nat) : Int) * q = n * q + q := by push_cast; ring
  have hq : 0 ≤ q := prod_nonneg k3 (by have := prod_nonneg k2 (by nlinarith); omega)
  have g4 : min (80 * 64) ((n + 1 : Nat) * q - 30 * 64) ≤ y.s.ct.pid.integr := by
    rw [e1]; omega
  refine ⟨g1, g4, fun b hb => ?_⟩
  rw [hset, if_neg (by omega)]
  exact amps_mono hb hamps (by omega)

private theorem cold_inv {w d p q : Int} {k : PidK} {t0 n a : Nat} {x : Loop} (hv : v.Sane) (hd : 0 ≤ d)
    (hk : Pushes k d p q) (h : StaysCold v c w d k t0 x n a) :
    x.s.ct.pid.prevE ≤ w - x.s.ct.feedback ∧ min (80 * 64) (n * q - 30 * 64) ≤ x.s.ct.pid.integr := by
  induction h with
  | @first x y h hs ht hr ho hh =>
    have hi := Running.inv (h.step hs ht).running
    obtain ⟨q1, -⟩ := hi.ct.lim
    have := hi.ct.range.integr
    have hfirst : y.s.ct.pid.prevE ≤ w - y.s.ct.feedback := by
      rcases hs.sys with ⟨h, -⟩ | ⟨g, hg, hpo, hf, -⟩
      · cases h
      cases hg
      exact cold_prev (Running.inv h.running) hi hf hr hd hh
    refine ⟨hfirst, ?_⟩
    rw [Int.natCast_zero, Int.zero_mul]
    omega
  | @runs x y n a hx hs ht hr hh hle ih =>
    obtain ⟨g1, g2, -⟩ := cold_run hv hd hk hx ih.1 ih.2 hs hr hh hle
    exact ⟨g1, g2⟩
  | @other x e y n a hx hs ht hn hh hm1 hm2 ih =>
    obtain ⟨i1, ⟨b, hc⟩, i3, i4⟩ := cold_clock hv hx
    obtain ⟨j1, j2⟩ := ih
    have hi := Running.inv (clk_sys hc).1.running
    rw [hm1, hm2]
    refine ⟨?_, j2⟩
    suffices hfb : y.s.ct.feedback = x.s.ct.feedback by rw [hfb]; exact j1
    rcases hs.sys with ⟨-, es, -⟩ | ⟨f, rfl, hpo, hf, -⟩
    · rw [es]
    · exact other_feedback hi hf fun h => hn ⟨by rw [h.1], h.2.1, h.2.2⟩

/-- While the iron is at least `d` too cold and does not warm up, the integral rises from run to run, and every run
    demands at least the current for the proportional part and the integral reached. -/
theorem C104_runs (v : Speed) (c : Conf) (w d p q : Int) (k : PidK) (t0 n a : Nat) (x y : Loop) (hv : v.Sane)
    (hd : 0 ≤ d) (hk : Pushes k d p q) (h : StaysCold v c w d k t0 x n a)
    (hs : LoopStep c x (some .measureWork) y) (hr : RunsTemp x.s .measureWork y.s) (hh : TooCold w d k y.s)
    (hle : y.s.ct.feedback ≤ x.s.ct.feedback) (b : Int)
    (hb : CurrentFor (p + min (80 * 64) ((n + 1 : Nat) * q - 30 * 64)) b) : b ≤ y.s.cc.pid.setpoint := by
  obtain ⟨j1, j2⟩ := cold_inv hv hd hk h
  exact (cold_run hv hd hk h j1 j2 hs hr hh hle).2.2 b hb

/-- The same in time: from `N` evaluation periods on, where `N` runs take the integral from its lower limit of
    -30 C to its upper limit of 80 C, every run demands at least the current for the proportional part and 80 C. -/
theorem C104_time (v : Speed) (c : Conf) (w d p q : Int) (k : PidK) (t0 n a N : Nat) (x y : Loop) (hv : v.Sane)
    (hd : 0 ≤ d) (hk : Pushes k d p q) (h : StaysCold v c w d k t0 x n a)
    (hs : LoopStep c x (some .measureWork) y) (hr : RunsTemp x.s .measureWork y.s) (hh : TooCold w d k y.s)
    (hle : y.s.ct.feedback ≤ x.s.ct.feedback) (hN : 110 * 64 ≤ N * q) (hT : t0 + N * v.period ≤ x.T) (b : Int)
    (hb : CurrentFor (p + 80 * 64) b) : b ≤ y.s.cc.pid.setpoint := by
  obtain ⟨i1, ⟨b', hc⟩, i3, i4⟩ := cold_clock hv h
  have e1 := clk_temp hv hc i1.on i1.sensor
  have e2 := ((clk_sys hc).1.inv hv).lt_evalBy 1
  have hn : N ≤ n + 1 := by
    by_contra hh
    have : (n + 1) * v.period ≤ N * v.period := Nat.mul_le_mul_right _ (by omega)
    rw [Nat.add_mul] at this
    omega
  have hq : 0 < q := by
    by_contra hq
    have : (N : Int) * q ≤ 0 := by nlinarith
    omega
  have h2 : (N : Int) * q ≤ (n + 1 : Nat) * q := by
    have : (N : Int) ≤ (n + 1 : Nat) := by exact_mod_cast hn
    nlinarith
  refine C104_runs v c w d p q k t0 n a x y hv hd hk h hs hr hh hle b ?_
  rw [show min (80 * 64) (((n + 1 : Nat) : Int) * q - 30 * 64) = 80 * 64 by omega]
  exact hb

/-! ### concrete runs -/

/-- With the shipped factors (1.5, 0.3) an iron that is 120 C too cold gets an output of 180 C from the proportional
    part and raises the integral by 143/64 C in 1/16 s: after 50 runs the full 5 A are demanded. -/
example : Pushes ⟨96, 19, 13, 128⟩ 7680 11520 143 ∧ (110 * 64 : Int) ≤ (50 : Nat) * 143 ∧
    CurrentFor (11520 + 80 * 64) (5 * 640) := by
  refine ⟨⟨⟨11520, by unfold NearestUp; decide, by decide⟩, 2280,
    ⟨2280, by unfold NearestUp; decide, by decide⟩, ⟨143, by unfold NearestUp; decide, by decide⟩⟩, by decide, ?_⟩
  exact ⟨fun h => absurd h (by decide), fun _ => rfl⟩

/-- 300 C too cold: after 20 runs. -/
private theorem pushes_300 : Pushes ⟨96, 19, 13, 128⟩ 19200 28800 356 := by
  refine ⟨⟨28800, by unfold NearestUp; decide, by decide⟩, 5700,
    ⟨5700, by unfold NearestUp; decide, by decide⟩, ⟨356, by unfold NearestUp; decide, by decide⟩⟩

instance (w d : Int) (k : PidK) (s : Sys) : Decidable (TooCold w d k s) :=
  decidable_of_iff (s.ct.enabled = true ∧ s.ct.emergency = false ∧
    (s.set.cache.sp[s.set.cache.active]?.map fun p => if s.ct.idle then min s.set.cache.idleSp p else p) = some w ∧
    s.set.cache.k[s.ct.boost]? = some k ∧ s.ct.feedback + d ≤ w)
    ⟨fun ⟨a, b, h, d, e⟩ => ⟨a, b, by
        obtain ⟨p, h1, h2⟩ := Option.map_eq_some_iff.mp h
        exact ⟨p, h1, h2.symm⟩, d, e⟩,
      fun ⟨a, b, h, d, e⟩ => ⟨a, b, by
        obtain ⟨p, h1, h2⟩ := h
        exact Option.map_eq_some_iff.mpr ⟨p, h1, h2.symm⟩, d, e⟩⟩

/-- the step evaluates the temperature, or leads to a state which is not too cold, or clears the memory -/
private def Warms (w d : Int) (k : PidK) (x : Loop) (e : Option Ev) (y : Loop) : Prop :=
  EvaluatesCh 1 x e y ∨ ¬ (TooCold w d k y.s ∧ y.s.ct.pid.integr = x.s.ct.pid.integr ∧
    y.s.ct.pid.prevE = x.s.ct.pid.prevE)

private instance (w d : Int) (k : PidK) (x : Loop) (e : Option Ev) (y : Loop) : Decidable (Warms w d k x e y) := by
  unfold Warms; infer_instance

private theorem warms_tick {w d : Int} {k : PidK} : TickCheck c (Warms w d k) := by
  rintro x n y t hs (⟨h, -⟩ | h)
  · cases h
  · right
    rcases hs.sys with ⟨h, -⟩ | ⟨f, hf, -, hst, -⟩
    · cases h
    · cases hf
      have hst : some _ = some y.s := hst
      rw [← Option.some.inj hst] at h
      exact fun hh => h ⟨⟨hh.1.on, hh.1.sensor, hh.1.wanted, hh.1.factors, hh.1.cold⟩, rfl, rfl⟩

private theorem cold_stretch {w d : Int} {k : PidK} {t0 n a : Nat} {x y : Loop} (h : StaysCold v c w d k t0 x n a)
    (hs : Stretch v c (Warms w d k) x y) : StaysCold v c w d k t0 y n a := by
  induction hs with
  | start => exact h
  | step _ hs ht hn ih =>
    unfold Warms at hn
    rw [not_or, not_not] at hn
    exact ih.other hs ht hn.1 hn.2.1 hn.2.2.1 hn.2.2.2

private def coldCmd (v : Speed) (c : Conf) (w d : Int) (k : PidK) (x : Loop × Nat × Nat) (a : Cmd) :
    Option (Loop × Nat × Nat) :=
  match a with
  | .ev .measureWork =>
    if x.1.s.meas.resultAvail = true ∧ x.1.s.meas.active = 1 then
      (loopCmd v c Never x.1 (.ev .measureWork)).bind fun y =>
        if TooCold w d k x.1.s ∧ TooCold w d k y.s ∧ y.s.ct.feedback ≤ x.1.s.ct.feedback then some (y, x.2.1 + 1, x.1.T)
        else none
    else (loopCmd v c (Warms w d k) x.1 (.ev .measureWork)).map fun y => (y, x.2)
  | a => (loopCmd v c (Warms w d k) x.1 a).map fun y => (y, x.2)

private theorem coldCmd_cold {w d : Int} {k : PidK} {t0 : Nat} {x y : Loop × Nat × Nat} {a : Cmd}
    (hx : StaysCold v c w d k t0 x.1 x.2.1 x.2.2) (h : coldCmd v c w d k x a = some y) :
    StaysCold v c w d k t0 y.1 y.2.1 y.2.2 := by
  have other : ∀ a, (loopCmd v c (Warms w d k) x.1 a).map (fun z => (z, x.2)) = some y →
      StaysCold v c w d k t0 y.1 y.2.1 y.2.2 := by
    intro a h
    obtain ⟨z, h1, h2⟩ := Option.map_eq_some_iff.mp h
    cases h2
    exact cold_stretch hx (loopCmd_stretch warms_tick h1)
  unfold coldCmd at h
  split at h
  · split at h
    · rename_i hh
      obtain ⟨z, h1, h2⟩ := Option.bind_eq_some_iff.mp h
      split at h2
      · rename_i hc
        cases h2
        obtain ⟨h3, h4⟩ := loopCmd_step h1
        exact hx.runs h3 h4 ⟨⟨rfl, hh.1, hh.2⟩, hc.1.on, hc.2.1.sensor⟩ hc.2.1 hc.2.2
      · cases h2
    · exact other _ h
  · exact other _ h

private def coldDemo : Option (Loop × Loop × (Loop × Nat × Nat) × Loop) :=
  (loopBoot .m88p 0xFF).bind fun x => (loopCmds .shipped .m88p Never x
      (samples 50 120 ++ [.pause 200, .reset])).bind fun y =>
      (loopCmd .shipped .m88p Never y (.ev .measureWork)).bind fun z =>
      (([Cmd.ev .menuWork, .ev .displayWork, .ev (.buttonsWork 0xFF), .ev .settingsWork] ++ samples 5 0 ++ [Cmd.pause 245] ++
        round 0xFF ++ cycles 43 120 0 ++ samples 50 120 ++ [Cmd.pause 200, .reset]).foldlM
        (coldCmd .shipped .m88p (350 * 64) 19200 ⟨96, 19, 13, 128⟩) (z, 0, 250)).bind fun r =>
      (loopCmd .shipped .m88p Never r.1 (.ev .measureWork)).map fun u => (y, z, r, u)

set_option maxRecDepth 100000 in
/-- From 250 ms on the temperature is 2 C, 348 C less than wanted; at 22250 ms, when more than 20 evaluation periods have
    passed, there have been 43 more runs of the controller, and the next run demands 5 A. -/
example : ∃ x y a, StaysCold .shipped .m88p (350 * 64) 19200 ⟨96, 19, 13, 128⟩ 250 x 43 a ∧
    Pushes ⟨96, 19, 13, 128⟩ 19200 28800 356 ∧ LoopStep .m88p x (some .measureWork) y ∧
    RunsTemp x.s .measureWork y.s ∧ TooCold (350 * 64) 19200 ⟨96, 19, 13, 128⟩ y.s ∧
    y.s.ct.feedback ≤ x.s.ct.feedback ∧ (110 * 64 : Int) ≤ (20 : Nat) * 356 ∧
    250 + 20 * Speed.shipped.period ≤ x.T ∧ CurrentFor (28800 + 80 * 64) (5 * 640) ∧ y.s.cc.pid.setpoint = 5 * 640 := by
  have h : coldDemo.any (fun q => q.1.T == 250 && q.1.s.meas.resultAvail &&
      q.1.s.meas.active == 1 && q.1.s.ct.enabled && decide (TooCold (350 * 64) 19200 ⟨96, 19, 13, 128⟩ q.2.1.s) &&
      q.2.2.1.2.1 == 43 && decide (21390 ≤ q.2.2.1.1.T) && q.2.2.1.1.s.meas.resultAvail &&
      q.2.2.1.1.s.meas.active == 1 && q.2.2.1.1.s.ct.enabled &&
      decide (TooCold (350 * 64) 19200 ⟨96, 19, 13, 128⟩ q.2.2.2.s) &&
      decide (q.2.2.2.s.ct.feedback ≤ q.2.2.1.1.s.ct.feedback) && q.2.2.2.s.cc.pid.setpoint == 5 * 640) = true := by
    decide +kernel
  match e : coldDemo with
  | none => rw [e] at h; cases h
  | some q =>
    rw [e] at h
    obtain ⟨x0, hb, e⟩ := Option.bind_eq_some_iff.mp e
    obtain ⟨y, hy, e⟩ := Option.bind_eq_some_iff.mp e
    obtain ⟨z, hz, e⟩ := Option.bind_eq_some_iff.mp e
    obtain ⟨r, hr, e⟩ := Option.bind_eq_some_iff.mp e
    obtain ⟨u, hu, rfl⟩ := Option.map_eq_some_iff.mp e
    simp only [Option.any_some, Bool.and_eq_true, beq_iff_eq, decide_eq_true_eq] at h
    obtain ⟨⟨⟨⟨⟨⟨⟨⟨⟨⟨⟨⟨p1, p2⟩, p3⟩, p4⟩, p5⟩, p6⟩, p7⟩, p8⟩, p9⟩, p10⟩, p11⟩, p12⟩, p13⟩ := h
    obtain ⟨hs, ht⟩ := loopCmd_step hz
    have hrun := (loopCmds_stretch never_tick hy).run (loopBoot_run (v := .shipped) hb validEeprom_m88p)
    have h0 := StaysCold.first hrun hs ht ⟨⟨rfl, p2, p3⟩, p4, p5.sensor⟩ p1 p5
    have h1 := foldlM_inv (P := fun x => StaysCold .shipped .m88p (350 * 64) 19200 ⟨96, 19, 13, 128⟩ 250 x.1 x.2.1 x.2.2)
      (fun x a y hx h => coldCmd_cold hx h) _ (x := (z, 0, 250)) h0 hr
    rw [p6] at h1
    exact ⟨r.1, u, r.2.2, h1, pushes_300, (loopCmd_step hu).1, ⟨⟨rfl, p8, p9⟩, p10, p11.sensor⟩, p11, p12, by decide, p7,
      ⟨fun h => absurd h (by decide), fun _ => rfl⟩, p13⟩

end Verif.Props
