import Verif.Props.Timer
import Verif.Props.Filter
import Verif.Proofs.Plaus
import Verif.Proofs.Demo
/-
Property theorems C31-C34 and C60: the measurement.
-/
namespace Verif.Props
open Verif Verif.Spec

/-! ### C31 -/

theorem sampled_running {c : Conf} {s : Sys} {xs : List Nat} (h : Sampled c s xs) :
    Running c s := by
  induction h with
  | boot hv e => exact Running.boot hv e
  | sample _ hp hs ih => exact ih.step hp hs
  | evaluated _ _ hs ih => exact ih.step rfl hs
  | other _ hp hs _ _ ih => exact ih.step hp hs

/-- The accumulator and the counter are the sum and the number of the samples taken since the
    channel was selected; nothing wraps. -/
theorem C31_sum (c : Conf) (s : Sys) (xs : List Nat) (h : Sampled c s xs) :
    s.meas.avgSum = (xs.sum : Nat) ∧ s.meas.avgCount = (xs.length : Nat) ∧ ∀ x ∈ xs, x < 1024 := by
  induction h with
  | boot hv e =>
    obtain ⟨-, st, -, b, t, hb, -, rfl⟩ := (boot_ok hv).elim e
    exact ⟨rfl, rfl, by simp⟩
  | @sample s s' xs x h hp hs ih =>
    obtain ⟨h1, h2, h3⟩ := ih
    have hi := Running.inv (sampled_running h)
    cases hs
    simp only [possible, Bool.and_eq_true, decide_eq_true_eq] at hp
    have hb := hi.meas.sum
    have hc := hi.meas.cnt
    have e1 : toU32 (s.meas.avgSum + x) = s.meas.avgSum + x := by unfold toU32; omega
    have e2 : toU16 (s.meas.avgCount + 1) = s.meas.avgCount + 1 := by unfold toU16; omega
    have e3 : (adcIsr s.now s.meas x).avgSum = s.meas.avgSum + x ∧
        (adcIsr s.now s.meas x).avgCount = s.meas.avgCount + 1 := by
      unfold adcIsr
      simp only [e1, e2]
      split <;> exact ⟨rfl, rfl⟩
    refine ⟨?_, ?_, ?_⟩
    · show (adcIsr s.now s.meas x).avgSum = _
      rw [e3.1, List.sum_cons]; omega
    · show (adcIsr s.now s.meas x).avgCount = _
      rw [e3.2, List.length_cons]; omega
    · intro y hy
      rcases List.mem_cons.mp hy with rfl | hy
      · exact hp.1.2
      · exact h3 y hy
  | @evaluated s s' xs h hr hs ih =>
    have hi := Running.inv (sampled_running h)
    rcases step_eff hi hs with ⟨h1, -⟩ | ⟨-, -, p, pl, hm⟩
    · exact absurd ⟨rfl, hr⟩ h1
    · obtain ⟨ch, f, t, -, e⟩ := hm.meas
      rw [e]
      exact ⟨rfl, rfl, by simp⟩
  | @other s e s' xs h hp hs h1 h2 ih =>
    have key : s'.meas.avgSum = s.meas.avgSum ∧ s'.meas.avgCount = s.meas.avgCount := by
      have hq : Quiet s s' → s'.meas.avgSum = s.meas.avgSum ∧ s'.meas.avgCount = s.meas.avgCount :=
        fun h => ⟨(congrArg Meas.avgSum h.meas :), (congrArg Meas.avgCount h.meas :)⟩
      cases e with
      | tick => cases hs; exact ⟨rfl, rfl⟩
      | adc x => exact absurd rfl (h1 x)
      | eeIsr => obtain ⟨_, -, hs⟩ := Option.bind_eq_some_iff.mp hs; cases hs; exact ⟨rfl, rfl⟩
      | eeDone => cases hs; exact ⟨rfl, rfl⟩
      | measureWork =>
        rcases measureWork_eff (Running.inv (sampled_running h)) hs with ⟨-, rfl⟩ | ⟨k, -⟩
        · exact ⟨rfl, rfl⟩
        · exact absurd ⟨rfl, k⟩ h2
      | menuWork => exact hq (Quiet.menuWork c s _ hs)
      | displayWork => obtain ⟨_, -, hs⟩ := Option.bind_eq_some_iff.mp hs; cases hs; exact ⟨rfl, rfl⟩
      | buttonsWork pinb => exact hq (Quiet.buttonsWork c s pinb _ hs)
      | settingsWork => cases hs; exact ⟨rfl, rfl⟩
    rw [key.1, key.2]
    exact ih

/-- A result is the truncated mean of the samples taken since the channel was selected; there is at
    least one, so nothing is divided by zero, and the mean is between the smallest and the largest. -/
theorem C31_mean (c : Conf) (s : Sys) (xs : List Nat) (h : Sampled c s xs)
    (hr : s.meas.resultAvail = true) :
    xs ≠ [] ∧ measRaw s.meas = some ((xs.sum / xs.length : Nat) : Int) ∧
    ∀ lo hi, (∀ x ∈ xs, lo ≤ x ∧ x ≤ hi) → lo ≤ xs.sum / xs.length ∧ xs.sum / xs.length ≤ hi := by
  obtain ⟨h1, h2, h3⟩ := C31_sum c s xs h
  have hpos := (Running.inv (sampled_running h)).meas.avail hr
  have hl : 0 < xs.length := by omega
  have bounds : ∀ lo hi, (∀ x ∈ xs, lo ≤ x ∧ x ≤ hi) →
      lo ≤ xs.sum / xs.length ∧ xs.sum / xs.length ≤ hi := by
    intro lo hi hb
    have : xs.length * lo ≤ xs.sum ∧ xs.sum ≤ xs.length * hi := by
      clear h h1 h2 h3 hl
      induction xs with
      | nil => simp
      | cons x xs ih =>
        have := ih (fun y hy => hb y (List.mem_cons_of_mem _ hy))
        have hx := hb x (List.mem_cons_self ..)
        simp only [List.length_cons, List.sum_cons, Nat.succ_mul]
        omega
    exact ⟨(Nat.le_div_iff_mul_le hl).mpr (by rw [Nat.mul_comm]; exact this.1),
      Nat.div_le_of_le_mul this.2⟩
  refine ⟨fun hn => (by rw [hn] at hl; cases hl), ?_, bounds⟩
  have hm : xs.sum / xs.length ≤ 1023 :=
    (bounds 0 1023 (fun x hx => ⟨Nat.zero_le _, Nat.le_of_lt_succ (h3 x hx)⟩)).2
  unfold measRaw
  rw [if_neg (by omega), h1, h2]
  show some (toU16 ((xs.sum : Int) / (xs.length : Int))) = _
  rw [← Int.natCast_ediv]
  generalize xs.sum / xs.length = q at hm
  congr 1
  unfold toU16
  omega

set_option maxRecDepth 100000 in
/-- three samples of the temperature channel -/
example : ∃ s, Sampled .m88p s [303, 302, 300] ∧ s.meas.resultAvail = true := by
  obtain ⟨s0, e0⟩ : ∃ s, boot .m88p (shippedEeprom .m88p) 0xFF = some s := by
    obtain ⟨s, e, -⟩ := boot_ok (pinb := 0xFF) validEeprom_m88p
    exact ⟨s, e⟩
  have hx : ((boot .m88p (shippedEeprom .m88p) 0xFF).map fun s =>
      (s.now, s.meas.adcOn, s.meas.resultAvail, s.meas.avgCount, s.meas.avgSum, s.meas.avgTimer)) =
      some (0, true, false, 0, 0, 50) := by decide
  rw [e0] at hx
  simp only [Option.map_some, Option.some.injEq, Prod.mk.injEq] at hx
  obtain ⟨x1, x2, x3, x4, x5, x6⟩ := hx
  have hticks : ∀ n (s : Sys) xs, Sampled .m88p s xs →
      Sampled .m88p { s with now := Nat.iterate timerTick n s.now } xs := by
    intro n
    induction n with
    | zero => intro s xs h; exact h
    | succ n ih =>
      intro s xs h
      exact ih { s with now := timerTick s.now } xs
        (h.other (e := .tick) rfl rfl (by simp) (by simp))
  have a0 := Sampled.boot validEeprom_m88p e0
  have a1 := a0.sample (x := 300) (by simp [possible, x2, x4]) rfl
  have hm1 : adcIsr s0.now s0.meas 300 = { s0.meas with avgSum := 300, avgCount := 1 } := by
    unfold adcIsr
    rw [x1, x4, x5]
    simp only [x6]
    rfl
  have a1' : Sampled .m88p { s0 with meas := { s0.meas with avgSum := 300, avgCount := 1 } } [300] := by
    rw [← hm1]; exact a1
  have a2 := a1'.sample (x := 302) (by simp [possible, x2]) rfl
  have hm2 : adcIsr s0.now { s0.meas with avgSum := 300, avgCount := 1 } 302 =
      { s0.meas with avgSum := 602, avgCount := 2 } := by
    unfold adcIsr
    rw [x1]
    simp only [x6]
    rfl
  have a2' : Sampled .m88p { s0 with meas := { s0.meas with avgSum := 602, avgCount := 2 } } [302, 300] := by
    rw [← hm2]; exact a2
  have a3 := hticks 50 _ _ a2'
  have a4 := a3.sample (x := 303) (by simp [possible, x2]) rfl
  refine ⟨_, a4, ?_⟩
  show (adcIsr (Nat.iterate timerTick 50 s0.now) { s0.meas with avgSum := 602, avgCount := 2 } 303).resultAvail = true
  unfold adcIsr
  rw [x1]
  simp only [x6]
  rfl

/-! ### C32 -/

/-- The evaluation of a temperature: the value is the calibration line of the mean, adjusted; it is
    plausible exactly from -20 C to 500 C and handed on limited to that range. -/
theorem C32_temp (c : Conf) (s : Sys) (m : Meas) (mc : MeasCurr) (p : Int) (pl : Plaus)
    (h : Running c s) (ha : s.meas.active = 1)
    (e : measHandle c s.now s.meas s.mcurr = some (m, mc, p, pl)) :
    ∃ v, TempValue c (s.meas.avgSum / s.meas.avgCount) (adjInForce c s.set.cache) v ∧
      (pl = .plausible ↔ PlausibleTemp v) ∧ (PlausibleTemp v → p = v) ∧
      (v < -20 * 64 → p = -20 * 64) ∧ (500 * 64 < v → p = 500 * 64) := by
  have hi := Running.inv h
  have hadj := hi.set.lim.adj
  have a1 := hi.meas.adj1
  obtain ⟨v, hv, ⟨h1, h2⟩, -⟩ := measHandle_temp e ha hi.meas.sum hi.meas.cnt.1 (by
    rw [a1]; split <;> omega)
  have hx : (if c.adj then s.meas.chan[1].adj else 0) = adjInForce c s.set.cache := by
    rw [a1]; unfold adjInForce; split <;> rfl
  rw [hx] at hv
  unfold LimitedTo at h2
  unfold PlausibleTemp at h1 ⊢
  exact ⟨v, hv, h1, fun hh => by omega, fun hh => by omega, fun hh => by omega⟩

/-- The feedback the controllers work with is always within the plausible range. -/
theorem C32_feedback (c : Conf) (s : Sys) (h : Running c s) :
    PlausibleTemp s.ct.feedback ∧ PlausibleCurr s.cc.feedback := by
  refine ⟨(Running.inv h).ct.fb, ?_⟩
  induction h with
  | boot hv e =>
    obtain ⟨-, st, -, b, t, hb, -, rfl⟩ := (boot_ok hv).elim e
    show PlausibleCurr b.cc.feedback
    rw [hb.cc]
    exact ⟨by decide, by decide⟩
  | @step s e s' hr _ hs ih =>
    have hi := Running.inv hr
    rcases step_eff hi hs with ⟨-, hc⟩ | ⟨-, -, p, pl, hm⟩
    · rw [show s'.cc.feedback = s.cc.feedback from (congrArg ContrCurr.feedback hc.cc :)]
      exact ih
    · have hact : s.meas.active = 0 ∨ s.meas.active = 1 := by have := hi.meas.act; omega
      rcases hact with ha | ha
      · obtain ⟨hp, f, hc⟩ := hm.curr ha
        rw [hc.feedback]
        cases pl
        · exact hp
        · exact hi.mcurr
        · exact ih
      · obtain ⟨w, hw⟩ := (hm.temp ha).cc
        rw [hw]
        exact ih

set_option maxRecDepth 100000 in
/-- a plausible reading and an implausible one -/
example : (∃ s, Running .m88p s ∧ s.meas.active = 1 ∧
      (measHandle .m88p s.now s.meas s.mcurr).any (fun r => r.2.2.1 == 19057 && r.2.2.2 == .plausible)) ∧
    (∃ s, Running .m88p s ∧ s.meas.active = 1 ∧
      (measHandle .m88p s.now s.meas s.mcurr).any (fun r => r.2.2.1 == 32000 && r.2.2.2 == .notPlausible)) := by
  constructor
  · obtain ⟨s, h, hp⟩ := demo_any (c := .m88p) (pinb := 0xFF) validEeprom_m88p (es := ticks 50 ++ [.adc 300])
      (P := fun s => s.meas.active == 1 && (measHandle .m88p s.now s.meas s.mcurr).any
        (fun r => r.2.2.1 == 19057 && r.2.2.2 == .plausible)) (by decide)
    simp only [Bool.and_eq_true, beq_iff_eq] at hp
    exact ⟨s, h, hp.1, by simpa using hp.2⟩
  · obtain ⟨s, h, hp⟩ := demo_any (c := .m88p) (pinb := 0xFF) validEeprom_m88p (es := ticks 50 ++ [.adc 1023])
      (P := fun s => s.meas.active == 1 && (measHandle .m88p s.now s.meas s.mcurr).any
        (fun r => r.2.2.1 == 32000 && r.2.2.2 == .notPlausible)) (by decide)
    simp only [Bool.and_eq_true, beq_iff_eq] at hp
    exact ⟨s, h, hp.1, by simpa using hp.2⟩

/-! ### C33 -/

/-- The channel after a history of readings (time, value before adjustment), latest first. -/
def chanAfter (c : Conf) (cfg : MeasConfig) (ch : MeasChan) : List (Nat × Int) → Option MeasChan
  | [] => some ch
  | (T, x) :: h => do
    let ch ← chanAfter c cfg ch h
    let r ← measPlaus c cfg (nowAt T) ch x
    return r.1

/-- whether each reading is plausible -/
def flags (c : Conf) (cfg : MeasConfig) (adj : Int) (h : List (Nat × Int)) : List (Nat × Bool) :=
  h.map fun r => (r.1, decide (cfg.negLim ≤ r.2 - (if c.adj then adj else 0) ∧
    r.2 - (if c.adj then adj else 0) ≤ cfg.posLim))

private theorem flags_times (c : Conf) (cfg : MeasConfig) (adj : Int) (h : List (Nat × Int)) :
    (flags c cfg adj h).map (·.1) = h.map (·.1) := by
  unfold flags
  rw [List.map_map]
  rfl

theorem gaps_tail {a : Nat} {l : List Nat} (h : GapsOk (a :: l)) : GapsOk l := by
  cases l with
  | nil => trivial
  | cons b l => exact h.2.2

private theorem plaus_reading {c : Conf} {cfg : MeasConfig} (ht : cfg.timeoutMs = 3000) {ch : MeasChan}
    {h : List (Nat × Int)} {T : Nat} {x : Int} (hadj : ch.adj.natAbs ≤ 99 * 64) (hx : x.natAbs ≤ 2 ^ 20)
    (hg : GapsOk (T :: h.map (·.1))) (hr : Remembers ch (flags c cfg ch.adj h)) :
    ∃ ch' p, measPlaus c cfg (nowAt T) ch x = some (ch', p, verdict (flags c cfg ch.adj ((T, x) :: h)) T) ∧
      ch'.adj = ch.adj ∧ Remembers ch' (flags c cfg ch.adj ((T, x) :: h)) := by
  rw [measPlaus_eq]
  have e : (if c.adj then fixptSub x ch.adj else some x) = some (x - if c.adj then ch.adj else 0) := by
    split
    · rw [fixptSub_eq (by unfold S24; omega) (by unfold S24; omega), sat_eq (by omega) (by omega)]
    · rw [Int.sub_zero]
  rw [e, Option.bind_some]
  exact plaus_step ht (by rw [flags_times]; exact hg) hr (by rw [decide_eq_true_iff])

/-- A channel reports for its latest reading: "plausible" if it is, "timeout" if there have been only
    implausible readings since at least 3000 ms, and "not plausible" otherwise; for every history of
    readings from the initial state of the channel. -/
theorem C33_channel (c : Conf) (cfg : MeasConfig) (ch : MeasChan) (h : List (Nat × Int)) (T : Nat)
    (x : Int) (hcfg : cfg = meascurrConfig ∨ cfg = meastempConfig c)
    (h0 : ch.timerRunning = false ∧ ch.plausTimeout = false) (hadj : ch.adj.natAbs ≤ 99 * 64)
    (hx : ∀ r ∈ (T, x) :: h, r.2.natAbs ≤ 2 ^ 20) (hg : GapsOk (((T, x) :: h).map (·.1))) :
    ∃ ch' r, chanAfter c cfg ch h = some ch' ∧ measPlaus c cfg (nowAt T) ch' x = some r ∧
      r.2.2 = verdict (flags c cfg ch.adj ((T, x) :: h)) T := by
  have ht : cfg.timeoutMs = 3000 := by rcases hcfg with rfl | rfl <;> rfl
  have key : ∀ h : List (Nat × Int), (∀ r ∈ h, r.2.natAbs ≤ 2 ^ 20) → GapsOk (h.map (·.1)) →
      ∃ ch', chanAfter c cfg ch h = some ch' ∧ ch'.adj = ch.adj ∧ Remembers ch' (flags c cfg ch.adj h) := by
    intro h
    induction h with
    | nil => intro _ _; exact ⟨ch, rfl, rfl, ⟨fun _ => h0, fun t hh => by cases hh⟩⟩
    | cons r h ih =>
      intro hx hg
      obtain ⟨ch1, e1, a1, r1⟩ := ih (fun r hr => hx r (List.mem_cons_of_mem _ hr)) (gaps_tail hg)
      obtain ⟨ch2, p, e2, a2, r2⟩ := plaus_reading (c := c) (h := h) ht (by rw [a1]; exact hadj)
        (hx r (List.mem_cons_self ..)) hg (by rw [a1]; exact r1)
      refine ⟨ch2, ?_, a2.trans a1, by rw [a1] at r2; exact r2⟩
      show ((chanAfter c cfg ch h).bind fun ch => (measPlaus c cfg (nowAt r.1) ch r.2).bind fun r => some r.1) = _
      rw [e1, Option.bind_some, e2]
      rfl
  obtain ⟨ch1, e1, a1, r1⟩ := key h (fun r hr => hx r (List.mem_cons_of_mem _ hr)) (gaps_tail hg)
  obtain ⟨ch2, p, e2, a2, r2⟩ := plaus_reading (c := c) (h := h) (T := T) (x := x) ht (by rw [a1]; exact hadj)
    (hx (T, x) (List.mem_cons_self ..)) hg (by rw [a1]; exact r1)
  exact ⟨ch1, _, e1, e2, by rw [a1]⟩

/-- a disturbance of 2999 ms and one of 3000 ms, across the wrap of the timer -/
example : verdict (flags .m88p (meastempConfig .m88p) 0
      [(67999, 40000), (66000, 40000), (65000, 40000), (64950, 20000)]) 67999 = .notPlausible ∧
    verdict (flags .m88p (meastempConfig .m88p) 0
      [(68000, 40000), (66000, 40000), (65000, 40000), (64950, 20000)]) 68000 = .timeout ∧
    GapsOk [68000, 66000, 65000, 64950] := by
  refine ⟨by decide, by decide, ?_⟩
  unfold GapsOk GapsOk GapsOk GapsOk
  decide

private theorem timed_inv {c : Conf} {s : Sys} {T : Nat} {h : List (Nat × Bool)} (ht : Timed c s T h) :
    Running c s ∧ s.now = nowAt T := by
  induction ht with
  | boot hv e =>
    obtain ⟨-, st, -, b, t, hb, -, rfl⟩ := (boot_ok hv).elim e
    exact ⟨Running.boot hv e, hb.now⟩
  | @tick s s' T h _ hs ih =>
    refine ⟨ih.1.step (e := .tick) rfl hs, ?_⟩
    cases hs
    show timerTick s.now = _
    rw [ih.2]
    unfold timerTick nowAt toU16
    omega
  | @reads s s' T h v b _ hr hb hs ih =>
    refine ⟨ih.1.step rfl hs, ?_⟩
    rcases measureWork_eff (Running.inv ih.1) hs with ⟨-, rfl⟩ | ⟨-, p, pl, hm⟩
    · exact ih.2
    · exact hm.now.trans ih.2
  | @other s e s' T h _ hp hs hn _ ih =>
    refine ⟨ih.1.step hp hs, ?_⟩
    rw [← ih.2]
    cases e with
    | tick => exact absurd rfl hn
    | adc x => cases hs; rfl
    | eeIsr => obtain ⟨_, -, hs⟩ := Option.bind_eq_some_iff.mp hs; cases hs; rfl
    | eeDone => cases hs; rfl
    | measureWork =>
      rcases measureWork_eff (Running.inv ih.1) hs with ⟨-, rfl⟩ | ⟨-, p, pl, hm⟩
      · rfl
      · exact hm.now
    | menuWork => exact (Quiet.menuWork c s _ hs).now
    | displayWork => obtain ⟨_, -, hs⟩ := Option.bind_eq_some_iff.mp hs; cases hs; rfl
    | buttonsWork pinb => exact (Quiet.buttonsWork c s pinb _ hs).now
    | settingsWork => cases hs; rfl

/-- In the running firmware: after every event, the temperature emergency is active exactly if the
    latest evaluated temperature was implausible and all temperatures of the 3000 ms before it were. -/
theorem C33_sensor_lost (c : Conf) (s : Sys) (T : Nat) (h : List (Nat × Bool)) (ht : Timed c s T h)
    (hg : GapsOk (h.map (·.1))) :
    s.ct.emergency = true ↔ ∃ t, disturbedSince h = some t ∧ 3000 ≤ (h.map (·.1)).headD 0 - t := by
  suffices hh : Remembers s.meas.chan[1] h ∧
      (s.ct.emergency = true ↔ ∃ t, disturbedSince h = some t ∧ 3000 ≤ lastTime h - t) from hh.2
  induction ht with
  | boot hv e =>
    obtain ⟨-, st, -, b, t, hb, -, rfl⟩ := (boot_ok hv).elim e
    refine ⟨⟨fun _ => hb.fresh, fun t hh => by cases hh⟩, ?_⟩
    show b.ct.emergency = true ↔ _
    rw [hb.emerg]
    exact ⟨fun hh => (by cases hh), fun ⟨t, hh, _⟩ => (by cases hh)⟩
  | tick _ hs ih => cases hs; exact ih hg
  | @reads s s' T h v b htd hr hb hs ih =>
    obtain ⟨hrun, hnow⟩ := timed_inv htd
    have hi := Running.inv hrun
    obtain ⟨hav, ha, hval⟩ := hr
    obtain ⟨i1, i2⟩ := ih (gaps_tail hg)
    rcases step_eff hi hs with ⟨h1, -⟩ | ⟨-, -, p, pl, hm⟩
    · exact absurd ⟨rfl, hav⟩ h1
    obtain ⟨w, ⟨-, -, hw⟩, -, ch, hst, hch⟩ := hm.tempValue hi hav ha
    obtain rfl := TempValue.unique hval hw
    obtain ⟨ch', p', k1, -, k3⟩ := plaus_step (cfg := meastempConfig c) rfl (T := T) (v := v) hg i1 hb
    rw [hnow, k1] at hst
    simp only [Option.some.injEq, Prod.mk.injEq] at hst
    obtain ⟨rfl, -, hver⟩ := hst
    have hc1 : s'.meas.chan[1] = ch' := by rw [hch]; exact Vector.getElem_set_self ..
    rw [hc1]
    refine ⟨k3, ?_⟩
    rw [(hm.temp ha).emergency, ← hver]
    have hl : lastTime ((T, b) :: h) = T := rfl
    rw [hl]
    unfold verdict
    cases hd : disturbedSince ((T, b) :: h) with
    | none => exact ⟨fun hh => (by cases hh), fun ⟨t, hh, _⟩ => (by cases hh)⟩
    | some t =>
      by_cases h3 : 3000 ≤ T - t
      · simp only [if_pos h3]
        exact ⟨fun _ => ⟨t, rfl, h3⟩, fun _ => rfl⟩
      · simp only [if_neg h3]
        show s.ct.emergency = true ↔ _
        rw [i2]
        refine ⟨fun ⟨t', j1, j2⟩ => ?_, fun ⟨t', j1, j2⟩ => (by cases j1; omega)⟩
        exfalso
        cases b with
        | true => cases hd
        | false =>
          have : disturbedSince ((T, false) :: h) = some ((disturbedSince h).getD T) := rfl
          rw [this, j1, Option.getD_some, Option.some.injEq] at hd
          have hle : lastTime h ≤ T := by
            cases h with
            | nil => cases j1
            | cons r h => exact hg.1
          omega
  | @other s e s' T h htd hp hs hn hne ih =>
    obtain ⟨i1, i2⟩ := ih hg
    have hi := Running.inv (timed_inv htd).1
    have key : (s'.meas.chan[1].timerRunning = s.meas.chan[1].timerRunning ∧
        s'.meas.chan[1].timer = s.meas.chan[1].timer ∧
        s'.meas.chan[1].plausTimeout = s.meas.chan[1].plausTimeout) ∧
        s'.ct.emergency = s.ct.emergency := by
      rcases step_eff hi hs with ⟨-, hc⟩ | ⟨h1, h2, p, pl, hm⟩
      · exact ⟨hc.chan1, hc.emerg⟩
      · have ha : s.meas.active = 0 := by
          have := hi.meas.act
          by_contra hh
          exact hne ⟨h1, h2, by omega⟩
        obtain ⟨ch, f, t, k1, k2⟩ := hm.meas
        obtain ⟨ch', hlt, k3⟩ := measHandle_chan k1
        obtain ⟨-, f', hc⟩ := hm.curr ha
        refine ⟨?_, (congrArg ContrTemp.emergency hc.ct :)⟩
        have hx : s'.meas.chan[1] = s.meas.chan[1] := by
          rw [k2]
          show ch[1] = _
          have k3 : ch = s.meas.chan.set s.meas.active ch' hlt := k3
          rw [k3]
          exact Vector.getElem_set_ne (by omega) (by omega) (by omega)
        rw [hx]
        exact ⟨rfl, rfl, rfl⟩
    obtain ⟨⟨x1, x2, x3⟩, x4⟩ := key
    rw [x4]
    exact ⟨⟨fun hh => by rw [x1, x3]; exact i1.calm hh,
      fun t hh => by rw [x1, x2, x3]; exact i1.busy t hh⟩, i2⟩

/-- every run has a history, with times that do not decrease -/
private theorem timed_run {c : Conf} {es : List Ev} {s s' : Sys} {T : Nat} {h : List (Nat × Bool)}
    (ht : Timed c s T h) (hd : (T :: h.map (·.1)).Pairwise (· ≥ ·)) (e : runOk c s es = some s') :
    ∃ h', Timed c s' (T + es.count .tick) h' ∧
      ((T + es.count .tick) :: h'.map (·.1)).Pairwise (· ≥ ·) := by
  induction es generalizing s T h with
  | nil => cases e; exact ⟨h, ht, hd⟩
  | cons x xs ih =>
    unfold runOk at e
    split at e
    · rename_i hp
      obtain ⟨t, e1, e2⟩ := Option.bind_eq_some_iff.mp e
      by_cases hx : x = .tick
      · subst hx
        obtain ⟨h', j1, j2⟩ := ih (ht.tick e1) (by
          rw [List.pairwise_cons] at hd ⊢
          exact ⟨fun a ha => by have := hd.1 a ha; omega, hd.2⟩) e2
        rw [List.count_cons_self]
        rw [show T + (xs.count .tick + 1) = T + 1 + xs.count .tick by omega]
        exact ⟨h', j1, j2⟩
      · rw [List.count_cons_of_ne (by exact hx)]
        by_cases hy : x = .measureWork ∧ s.meas.resultAvail = true ∧ s.meas.active = 1
        · obtain ⟨rfl, y1, y2⟩ := hy
          have hi := Running.inv (timed_inv ht).1
          rcases step_eff hi e1 with ⟨h1, -⟩ | ⟨-, -, p, pl, hm⟩
          · exact absurd ⟨rfl, y1⟩ h1
          obtain ⟨w, hw, -⟩ := hm.tempValue hi y1 y2
          have hd' : (T :: T :: h.map (·.1)).Pairwise (· ≥ ·) := by
            rw [List.pairwise_cons]
            refine ⟨fun a ha => ?_, hd⟩
            rcases List.mem_cons.mp ha with rfl | ha
            · exact le_refl _
            · exact (List.pairwise_cons.mp hd).1 a ha
          by_cases hpl : PlausibleTemp w
          · exact ih (ht.reads (b := true) hw ⟨fun _ => hpl, fun _ => rfl⟩ e1) hd' e2
          · exact ih (ht.reads (b := false) hw ⟨fun hh => (by cases hh), fun hh => absurd hh hpl⟩ e1) hd' e2
        · exact ih (ht.other hp e1 hx hy) hd e2
    · cases e

theorem gaps_of_short {l : List Nat} (h : l.Pairwise (· ≥ ·)) (hb : ∀ a ∈ l, a ≤ 32767) : GapsOk l := by
  induction l with
  | nil => trivial
  | cons a l ih =>
    cases l with
    | nil => trivial
    | cons b l =>
      rw [List.pairwise_cons] at h
      exact ⟨h.1 b (List.mem_cons_self ..), by have := hb a (List.mem_cons_self ..); omega,
        ih h.2 fun x hx => hb x (List.mem_cons_of_mem _ hx)⟩

set_option maxRecDepth 100000 in
private theorem lost_run : ((demo .m88p 0xFF (reading 50 1023)).bind fun s =>
    runOk .m88p { s with now := (s.now + 2995) % 65536 } (reading 5 0 ++ reading 50 1023)).any
      (fun s => s.ct.emergency) = true := by decide

/-- a sensor lost from the beginning: the emergency is reached with a history of readings -/
example : ∃ s T h, Timed .m88p s T h ∧ GapsOk (h.map (·.1)) ∧ s.ct.emergency = true := by
  have hr := demo_pause validEeprom_m88p lost_run
  generalize hes : reading 50 1023 ++ ticks 2995 ++ (reading 5 0 ++ reading 50 1023) = es at hr
  have hc : es.count .tick = 3100 := by
    rw [← hes]
    simp only [reading, ticks, List.count_append, List.count_replicate_self]
    rfl
  match e : demo .m88p 0xFF es with
  | none => rw [e] at hr; cases hr
  | some s =>
    rw [e] at hr
    obtain ⟨b, e1, e2⟩ := Option.bind_eq_some_iff.mp e
    obtain ⟨h, j1, j2⟩ := timed_run (Timed.boot validEeprom_m88p e1) (by simp) e2
    refine ⟨s, _, h, j1, ?_, hr⟩
    rw [List.pairwise_cons, hc] at j2
    exact gaps_of_short j2.2 fun a ha => by have := j2.1 a ha; omega

/-! ### C34 -/

/-- The measured channel changes exactly when a result is evaluated, and then to the other one. -/
theorem C34_switch (c : Conf) (s s' : Sys) (e : Ev) (h : Running c s) (hs : step c s e = some s') :
    s'.meas.active = (if e = .measureWork ∧ s.meas.resultAvail = true then 1 - s.meas.active
      else s.meas.active) ∧ s.meas.active < 2 := by
  have hi := Running.inv h
  refine ⟨?_, hi.meas.act⟩
  rcases step_eff hi hs with ⟨h1, hc⟩ | ⟨h1, h2, p, pl, hm⟩
  · rw [if_neg h1, hc.active]
  · rw [if_pos ⟨h1, h2⟩]
    obtain ⟨ch, f, t, -, k2⟩ := hm.meas
    rw [k2]

/-- Results alternate temperature, current, temperature, ... from boot on. -/
theorem C34_alternate (c : Conf) (s : Sys) (l : List Nat) (h : Results c s l) (i : Nat) (ch : Nat)
    (hi : l.reverse[i]? = some ch) : ch = if i % 2 = 0 then 1 else 0 := by
  have key : Running c s ∧ s.meas.active = (if l.length % 2 = 0 then 1 else 0) ∧
      ∀ i ch, l.reverse[i]? = some ch → ch = if i % 2 = 0 then 1 else 0 := by
    clear hi
    induction h with
    | boot hv e =>
      obtain ⟨-, st, -, b, t, hb, -, rfl⟩ := (boot_ok hv).elim e
      exact ⟨Running.boot hv e, rfl, fun i ch h => by simp at h⟩
    | @evaluated s s' l _ hr hs ih =>
      obtain ⟨h1, h2, h3⟩ := ih
      refine ⟨h1.step rfl hs, ?_, fun i ch hi => ?_⟩
      · have := (C34_switch c s s' _ h1 hs).1
        rw [if_pos ⟨rfl, hr⟩, h2] at this
        rw [this, List.length_cons]
        split <;> split <;> omega
      · rw [List.reverse_cons, List.getElem?_append] at hi
        split at hi
        · exact h3 i ch hi
        · rename_i hlen
          rw [List.length_reverse] at hlen hi
          have hi0 : i = l.length := by
            by_contra hne
            rw [List.getElem?_eq_none (by simp; omega)] at hi
            cases hi
          subst hi0
          simp only [Nat.sub_self, List.getElem?_cons_zero, Option.some.injEq] at hi
          rw [← hi, h2]
    | @other s e s' l _ hp hs hn ih =>
      obtain ⟨h1, h2, h3⟩ := ih
      refine ⟨h1.step hp hs, ?_, h3⟩
      have := (C34_switch c s s' _ h1 hs).1
      rw [if_neg hn] at this
      rw [this, h2]
  exact key.2.2 i ch hi

/-- A temperature result does not touch the current measurement, a current result does not touch the
    temperature controller. -/
theorem C34_separate (c : Conf) (s s' : Sys) (h : Running c s) (hr : s.meas.resultAvail = true)
    (hs : step c s .measureWork = some s') :
    (s.meas.active = 1 → s'.mcurr = s.mcurr ∧ s'.cc.feedback = s.cc.feedback ∧
      s'.meas.chan[0] = s.meas.chan[0]) ∧
    (s.meas.active = 0 → s'.ct = s.ct ∧ s'.mtPrev = s.mtPrev ∧ s'.meas.chan[1] = s.meas.chan[1]) := by
  rcases step_eff (Running.inv h) hs with ⟨h1, hc⟩ | ⟨-, -, p, pl, hm⟩
  · exact absurd ⟨rfl, hr⟩ h1
  obtain ⟨ch, f, t, k1, k2⟩ := hm.meas
  obtain ⟨ch', hlt, k3⟩ := measHandle_chan k1
  have k3 : ch = s.meas.chan.set s.meas.active ch' hlt := k3
  have hch : ∀ i (hi : i < 2), s.meas.active ≠ i → s'.meas.chan[i] = s.meas.chan[i] := by
    intro i hi hne
    rw [k2]
    show ch[i] = _
    rw [k3]
    exact Vector.getElem_set_ne (by omega) (by omega) hne
  refine ⟨fun ha => ?_, fun ha => ?_⟩
  · obtain ⟨w, hw⟩ := (hm.temp ha).cc
    exact ⟨(hm.temp ha).mcurr, (congrArg ContrCurr.feedback hw :), hch 0 (by decide) (by omega)⟩
  · obtain ⟨-, f', hc⟩ := hm.curr ha
    exact ⟨hc.ct, hc.mtPrev, hch 1 (by decide) (by omega)⟩

set_option maxRecDepth 100000 in
private theorem two_run : ((((((boot .m88p (shippedEeprom .m88p) 0xFF).bind fun s =>
    runOk .m88p s (ticks 50 ++ [.adc 300])).filter fun s => s.meas.resultAvail && s.meas.active == 1).bind
    fun s => step .m88p s .measureWork).bind fun s => runOk .m88p s (ticks 5 ++ [.adc 20])).filter
    fun s => s.meas.resultAvail && s.meas.active == 0).isSome = true := by decide

/-- no result is evaluated while there are only ticks and samples -/
private theorem results_wait {c : Conf} {es : List Ev} {s s' : Sys} {l : List Nat}
    (hn : ∀ e ∈ es, e ≠ .measureWork) (h : Results c s l) (e : runOk c s es = some s') :
    Results c s' l := by
  induction es generalizing s with
  | nil => cases e; exact h
  | cons x xs ih =>
    unfold runOk at e
    split at e
    · rename_i hp
      obtain ⟨t, e1, e2⟩ := Option.bind_eq_some_iff.mp e
      exact ih (fun y hy => hn y (List.mem_cons_of_mem _ hy))
        (h.other hp e1 fun hx => hn x (List.mem_cons_self ..) hx.1) e2
    · cases e

/-- one result has been evaluated and the next one is ready -/
example : ∃ s, Results .m88p s [1] ∧ s.meas.resultAvail = true ∧ s.meas.active = 0 := by
  obtain ⟨s5, h5⟩ := Option.isSome_iff_exists.mp two_run
  obtain ⟨h5, k5⟩ := Option.filter_eq_some_iff.mp h5
  obtain ⟨s3, h3, h4⟩ := Option.bind_eq_some_iff.mp h5
  obtain ⟨s2, h2, h3⟩ := Option.bind_eq_some_iff.mp h3
  obtain ⟨h2, k2⟩ := Option.filter_eq_some_iff.mp h2
  obtain ⟨s0, h0, h1⟩ := Option.bind_eq_some_iff.mp h2
  simp only [Bool.and_eq_true, beq_iff_eq] at k2 k5
  have r2 := results_wait (by decide) (Results.boot validEeprom_m88p h0) h1
  have r3 := r2.evaluated k2.1 h3
  rw [k2.2] at r3
  exact ⟨s5, results_wait (by decide) r3 h4, k5⟩

/-! ### C60 -/

/-- What the current measurement hands on for a series of (mean) readings after boot. -/
def currValues (m : MeasCurr) : List Int → List Int
  | [] => []
  | x :: xs => (meascurrFilter m x).2 :: currValues { (meascurrFilter m x).1 with initialized := true } xs

/-- The claim: constant readings are handed on unchanged. -/
def C60_Full : Prop := ∀ (m : MeasCurr) (x : Int) (n : Nat), m.initialized = false →
  0 ≤ x → x ≤ 1023 → ∀ y ∈ currValues m (List.replicate n x), y = x

/-- It is false: constant readings of 65 (1.1 A) are handed on as 65, 7, 11, 14, ... because the
    accumulator, which holds 16 times the value, is initialised with the plain value. -/
theorem C60_false : ¬ C60_Full := by
  intro h
  exact absurd (h ⟨false, 0, 0⟩ 65 2 rfl (by decide) (by decide) 7 (by decide)) (by decide)

example : currValues ⟨false, 0, 0⟩ (List.replicate 5 65) = [65, 7, 11, 14, 18] := by decide

private theorem currValues_init (m : MeasCurr) (xs : List Int) (h : m.initialized = true) :
    currValues m xs = (lpU16Outs 4 m.filter xs).map fun y => cMin y 1023 := by
  induction xs generalizing m with
  | nil => rfl
  | cons x xs ih =>
    simp only [currValues, lpU16Outs, List.map_cons]
    rw [ih _ rfl]
    simp [meascurrFilter, h]

private theorem lpU16Outs_const (s : Nat) (x : Int) (n i : Nat) (b : Int) (h : i < n) :
    (lpU16Outs s b (List.replicate n x))[i]? =
      some (lpU16Run (lpU16Runs s b (List.replicate i x)) x s).2 := by
  induction n generalizing i b with
  | zero => omega
  | succ n ih =>
    rw [List.replicate_succ, lpU16Outs]
    cases i with
    | zero => rfl
    | succ i =>
      rw [List.getElem?_cons_succ, ih i _ (by omega), List.replicate_succ]
      rfl

/-- What holds: the first reading is handed on unchanged, constant readings are never exceeded, and
    after finitely many of them the value is exact and stays so. -/
theorem C60_partial (m : MeasCurr) (x : Int) (hm : m.initialized = false) (h0 : 0 ≤ x)
    (h1 : x ≤ 1023) :
    (∀ n, (currValues m (List.replicate (n + 1) x)).head? = some x) ∧
    (∀ n, ∀ y ∈ currValues m (List.replicate n x), 0 ≤ y ∧ y ≤ x) ∧
    ∃ N, ∀ n i, N ≤ i → i < n → (currValues m (List.replicate n x))[i]? = some x := by
  have hx : cMin x 1023 = x := by unfold cMin; split <;> omega
  have e : ∀ n, currValues m (List.replicate (n + 1) x) =
      x :: (lpU16Outs 4 (lpU16Set x) (List.replicate n x)).map fun y => cMin y 1023 := by
    intro n
    rw [List.replicate_succ, currValues, currValues_init _ _ rfl]
    simp [meascurrFilter, hm, hx]
  refine ⟨fun n => by rw [e]; rfl, fun n => ?_, ?_⟩
  · cases n with
    | zero => intro y hy; simp [currValues] at hy
    | succ n =>
      intro y hy
      rw [e] at hy
      rcases List.mem_cons.mp hy with rfl | hy
      · omega
      · obtain ⟨z, hz, rfl⟩ := List.mem_map.mp hy
        have := (C16_bounded 4 x x (List.replicate n x) (by decide) (by omega) ⟨h0, le_refl _⟩
          (fun w hw => by rw [List.eq_of_mem_replicate hw]; omega)).1 z hz
        unfold cMin
        split <;> omega
  · obtain ⟨N, hN⟩ := C16_settles 4 x x (by decide) ⟨h0, by omega⟩ ⟨h0, by omega⟩
    refine ⟨N + 1, fun n i hi hn => ?_⟩
    obtain ⟨n, rfl⟩ : ∃ k, n = k + 1 := ⟨n - 1, by omega⟩
    obtain ⟨i, rfl⟩ : ∃ k, i = k + 1 := ⟨i - 1, by omega⟩
    rw [e, List.getElem?_cons_succ, List.getElem?_map, lpU16Outs_const _ _ _ _ _ (by omega),
      hN i (by omega)]
    simp [hx]

end Verif.Props
