import Verif.Proofs.Loop
import Verif.Props.Safety
import Verif.Props.Measure
import Verif.Props.System
import Verif.Proofs.LoopDemo
/-
C70-C74: the main loop in real time.
-/
namespace Verif.Props
open Spec

/-! ### C70 -/

/-- Everything the main loop does is something the firmware as a whole may do: what is proved about the latter holds
    in every state of the loop. -/
theorem C70_running (v : Speed) (c : Conf) (x : Loop) (h : LoopRun v c x) : Running c x.s := h.running

/-- Every work function is called again within two watchdog periods. -/
theorem C70_calls (v : Speed) (c : Conf) (p : Pc) (x y : Loop) (hp : p ≠ .reset) (h : LoopRun v c x)
    (hs : Stretch v c (Calls p) x y) : y.T ≤ x.T + 2 * v.W := by
  have hx : x.reset ≤ x.T ∧ x.T ≤ x.reset + v.W := by
    clear hs
    induction h with
    | boot _ _ => exact ⟨Nat.le_refl _, Nat.zero_le _⟩
    | step _ hs ht ih =>
      refine ⟨?_, ht.1⟩
      have := hs.time
      cases hs with
      | reset _ => exact Nat.le_refl _
      | isr _ _ _ => exact Nat.le_trans ih.1 this.1
      | call _ _ => exact Nat.le_trans ih.1 this.1
  have key : callBy v p y ≤ callBy v p x ∧ y.T ≤ y.reset + v.W := by
    induction hs with
    | start => exact ⟨Nat.le_refl _, hx.2⟩
    | step _ hs ht hn ih => exact ⟨Nat.le_trans (callBy_step hp ih.2 hs hn) ih.1, ht.1⟩
  have h1 := le_callBy (v := v) p y
  have h2 := callBy_le (v := v) p x
  omega

/-! ### C71 -/

/-- The temperature is evaluated again, and so is the current, within an evaluation period. -/
theorem C71_period (v : Speed) (c : Conf) (ch : Nat) (x y : Loop) (hv : v.Sane) (hch : ch < 2) (h : LoopRun v c x)
    (hs : Stretch v c (EvaluatesCh ch) x y) : y.T < x.T + v.period := by
  have hx := h.inv hv
  have key : evalBy v ch y ≤ evalBy v ch x := by
    induction hs with
    | start => exact Nat.le_refl _
    | step hst hs _ hn ih => exact Nat.le_trans (evalBy_step hch (hst.inv hv hx) hs hn) ih
  have h1 := (hs.inv hv hx).lt_evalBy ch
  have h2 : evalBy v ch x ≤ x.T + v.period := by
    have hact := (Running.inv h.running).meas.act
    have := hx.conv
    have e1 : avgTime 1 = 50 := rfl
    have e0 : avgTime 0 = 5 := rfl
    unfold evalBy Speed.period
    have ha : x.s.meas.active = 0 ∨ x.s.meas.active = 1 := by omega
    have hc : ch = 0 ∨ ch = 1 := by omega
    rcases ha with ha | ha <;> rcases hc with rfl | rfl <;> rw [ha] <;> split <;> omega
  omega

/-! ### C72 -/

/-- In the main loop a store has always finished before the next one starts: every state of the loop over the life of
    the device is one of those C66 is about. -/
theorem C72_life (v : Speed) (c : Conf) (x : Loop) (hv : v.Sane) (h : LoopLife v c x) : Lasting c x.s := by
  obtain ⟨r, S, h⟩ := h.inv hv
  exact h.last

/-- When nothing has been changed or requested for 1000 ms, two watchdog periods, and the time for 128 steps of the
    EEPROM writer, everything is stored: nothing is pending or in progress, and switching off and on gives the settings
    back exactly as they are. -/
theorem C72_stored (v : Speed) (c : Conf) (x y : Loop) (pinb : BitVec 8) (hv : v.Sane) (h : LoopLife v c x)
    (hs : Stretch v c Requests x y) (hT : x.T + 1000 + 2 * v.W + 128 * v.B < y.T) :
    y.s.set.storeRequest = false ∧ storing y.s.set = false ∧
    ∃ s', boot c y.s.set.eeprom pinb = some s' ∧ s'.set.cache = y.s.set.cache := by
  obtain ⟨r, S, hp, h1, h2⟩ := hs.pend hv h
  have hreq : y.s.set.storeRequest = false := by
    cases hq : y.s.set.storeRequest with
    | false => rfl
    | true =>
      obtain ⟨R, hR⟩ := Option.isSome_iff_exists.mp ((C66_pending c y.s y.T r hp.un).mp hq)
      have := hp.late hR
      have := h1 R hR
      omega
  have hsto : storing y.s.set = false := by
    cases hq : storing y.s.set with
    | false => rfl
    | true =>
      have := hp.ends hq
      omega
  exact ⟨hreq, hsto, C66_kept c y.s pinb hp.last hreq hsto⟩

/-! ### C73 -/

/-- When all temperatures evaluated for 3000 ms and two evaluation periods have been implausible, the temperature
    emergency is active and no current is requested. -/
theorem C73_sensor_lost (v : Speed) (c : Conf) (x : Loop) (h : List (Nat × Bool)) (t0 : Nat) (hv : v.Sane)
    (hx : LoopTemps v c x h) (hb : ∀ r ∈ h, t0 ≤ r.1 → r.2 = false) (hT : t0 + 3000 + 2 * v.period ≤ x.T) :
    x.s.ct.emergency = true ∧ x.s.cc.pid.setpoint = 0 := by
  obtain ⟨hr, ht⟩ := hx.inv hv
  have hg := hr.gaps.ok (by have := hv.1; omega)
  have he := (C33_sensor_lost c x.s x.T h ht hg).mpr (hr.lost hb hT)
  exact ⟨he, C39_demand c x.s (window_inv hr.inv.win).1 he⟩

/-- When a temperature evaluated in the last 3000 ms was plausible, the temperature emergency is not active. -/
theorem C73_sensor_ok (v : Speed) (c : Conf) (x : Loop) (h : List (Nat × Bool)) (t0 : Nat) (hv : v.Sane)
    (hx : LoopTemps v c x h) (hb : (t0, true) ∈ h) (hT : x.T < t0 + 3000) : x.s.ct.emergency = false := by
  obtain ⟨hr, ht⟩ := hx.inv hv
  have hg := hr.gaps.ok (by have := hv.1; omega)
  cases he : x.s.ct.emergency with
  | false => rfl
  | true =>
    obtain ⟨t, h1, h2⟩ := (C33_sensor_lost c x.s x.T h ht hg).mp he
    have := hr.past
    have h3 := disturbed_false hr.gaps h1 _ hb (show t < t0 by omega)
    cases h3

/-- When all currents evaluated for 3000 ms and two evaluation periods have been implausible, the heater is off. -/
theorem C73_current_lost (v : Speed) (c : Conf) (x : Loop) (xs : List Int) (h : List (Nat × Bool)) (t0 : Nat)
    (hv : v.Sane) (hx : LoopCurrs v c x xs h) (hb : ∀ r ∈ h, t0 ≤ r.1 → r.2 = false)
    (hT : t0 + 3000 + 2 * v.period ≤ x.T) : HeaterOff x.s.ocr := by
  obtain ⟨hr, ht⟩ := hx.inv hv
  have hg := hr.gaps.ok (by have := hv.1; omega)
  have he := (C33_current_lost c x.s x.T xs h ht hg).mpr (hr.lost hb hT)
  refine C36_off c x.s (window_inv hr.inv.win).1 fun hh => ?_
  rw [hh] at he
  simp at he

/-- When a current evaluated in the last 3000 ms was plausible, the flag for it is not set. -/
theorem C73_current_ok (v : Speed) (c : Conf) (x : Loop) (xs : List Int) (h : List (Nat × Bool)) (t0 : Nat)
    (hv : v.Sane) (hx : LoopCurrs v c x xs h) (hb : (t0, true) ∈ h) (hT : x.T < t0 + 3000) :
    x.s.cc.emerg.getLsbD 0 = false := by
  obtain ⟨hr, ht⟩ := hx.inv hv
  have hg := hr.gaps.ok (by have := hv.1; omega)
  cases he : x.s.cc.emerg.getLsbD 0 with
  | false => rfl
  | true =>
    obtain ⟨t, h1, h2⟩ := (C33_current_lost c x.s x.T xs h ht hg).mp he
    have := hr.past
    have h3 := disturbed_false hr.gaps h1 _ hb (show t < t0 by omega)
    cases h3

/-! ### C74 -/

/-- When all temperatures evaluated for an evaluation period have been above 480 C (and at most 500 C), outside the
    calibration and tuning screens, the heater is off. -/
theorem C74_overheat (v : Speed) (c : Conf) (x y : Loop) (hv : v.Sane) (h : LoopRun v c x)
    (hs : Stretch v c (NotHot c) x y) (hT : x.T + v.period ≤ y.T) : HeaterOff y.s.ocr := by
  have key : Stretch v c (EvaluatesCh 1) x y ∨ y.s.cc.emerg.getLsbD 1 = true := by
    clear hT
    induction hs with
    | start => exact Or.inl Stretch.start
    | @step y e z hst hs ht hn ih =>
      have hrun := (hst.run h).running
      have hnt : ¬ Tuning y.s.menu.state = true := fun hh => hn (Or.inr hh)
      by_cases hev : EvaluatesCh 1 y e z
      · right
        have hhot : ∃ t, TempReady c y.s t ∧ 480 * 64 < t ∧ t ≤ 500 * 64 := by
          by_contra hh
          exact hn (Or.inl ⟨hev, hh⟩)
        obtain ⟨t, h1, h2, h3⟩ := hhot
        obtain ⟨rfl, -, -⟩ := hev
        rcases hs.sys with ⟨h, -⟩ | ⟨f, hf, -, hf', -⟩
        · cases h
        cases hf
        refine (C37_reading c y.s z.s t hrun hf' h1 h2 ⟨by omega, h3⟩ ?_).1
        rw [C43_enabled c y.s hrun]
        simpa using hnt
      · rcases ih with ih | ih
        · exact Or.inl (ih.step hs ht hev)
        · right
          rcases hs.sys with ⟨-, es, -⟩ | ⟨f, rfl, hp, hf, -⟩
          · rw [es]; exact ih
          · by_contra hb
            obtain ⟨h1, h2, h3, -⟩ := C37_holds c y.s z.s f hrun hf ih (by simpa using hb)
            exact hev ⟨congrArg _ h1, h2, h3⟩
  rcases key with key | key
  · have := C71_period v c 1 x y hv (by decide) h key
    omega
  · refine C36_off c y.s (hs.run h).running fun hh => ?_
    rw [hh] at key
    cases key

/-! ### concrete runs -/

example : Speed.shipped.Sane := by unfold Speed.Sane; decide

private theorem bind_any {x : Option Loop} {f : Loop → Option Loop} {P : Loop → Loop → Bool}
    (h : x.any (fun x => (f x).any (P x)) = true) : ∃ a b, x = some a ∧ f a = some b ∧ P a b = true := by
  match x, h with
  | some a, h =>
    simp only [Option.any_some] at h
    match e : f a, h with
    | some b, h => exact ⟨a, b, rfl, e, h⟩

private def noMeasure (_ : Loop) (e : Option Ev) (_ : Loop) : Prop := e = some .measureWork
private instance (x : Loop) (e : Option Ev) (y : Loop) : Decidable (noMeasure x e y) := by unfold noMeasure; infer_instance

set_option maxRecDepth 100000 in
/-- The bound of `C70_calls` is attained: 500 ms without a call of `measure_work`. -/
example : ∃ x y, LoopRun .shipped .m88p x ∧ Stretch .shipped .m88p (Calls .measure) x y ∧
    y.T = x.T + 2 * Speed.shipped.W := by
  obtain ⟨x, y, h1, h2, h3⟩ := bind_any (x := loopBoot .m88p 0xFF)
    (f := fun x => loopCmds .shipped .m88p noMeasure x (samples 50 280 ++ [.pause 200, .reset, .pause 250]))
    (P := fun x y => y.T == x.T + 2 * Speed.shipped.W) (by decide)
  refine ⟨x, y, loopBoot_run h1 validEeprom_m88p, ?_, by simpa using h3⟩
  refine (loopCmds_stretch (fun _ _ _ _ _ h => by cases h) h2).mono ?_
  rintro x e y ⟨f, pinb, rfl, hf⟩
  cases hf
  rfl

set_option maxRecDepth 100000 in
/-- `C71_period`: 1000 ms without an evaluation of the current, of at most 1057 ms. -/
example : ∃ x y, LoopRun .shipped .m88p x ∧ Stretch .shipped .m88p (EvaluatesCh 0) x y ∧ y.T = x.T + 1000 ∧
    Speed.shipped.period = 1057 := by
  obtain ⟨x, y, h1, h2, h3⟩ := bind_any (x := loopBoot .m88p 0xFF)
    (f := fun x => loopCmds .shipped .m88p (EvaluatesCh 0) x (samples 50 280 ++ [.pause 200, .reset, .pause 250] ++
      (round 0xFF).tail ++ [.reset] ++ samples 4 0 ++ (round 0xFF).tail ++ samples 1 0 ++ [.pause 245, .reset, .pause 250]))
    (P := fun x y => y.T == x.T + 1000 && Speed.shipped.period == 1057) (by decide)
  simp only [Bool.and_eq_true, beq_iff_eq] at h3
  exact ⟨x, y, loopBoot_run h1 validEeprom_m88p, loopCmds_stretch (evaluates_tick 0) h2, h3⟩

set_option maxRecDepth 100000 in
/-- A sensor that is not connected: `C73_sensor_lost` applies after 5500 ms. -/
example : ∃ x h, LoopTemps .shipped .m88p x h ∧ (∀ r ∈ h, 0 ≤ r.1 → r.2 = false) ∧
    0 + 3000 + 2 * Speed.shipped.period ≤ x.T := by
  have h : (tempCmds .shipped .m88p 0xFF (cycles 11 1023 0)).any (fun x => x.2.all (fun r => !r.2) &&
      decide (0 + 3000 + 2 * Speed.shipped.period ≤ x.1.T)) = true := by decide
  match e : tempCmds .shipped .m88p 0xFF (cycles 11 1023 0) with
  | none => rw [e] at h; cases h
  | some x =>
    rw [e] at h
    simp only [Option.any_some, Bool.and_eq_true, decide_eq_true_eq, List.all_eq_true, Bool.not_eq_true'] at h
    exact ⟨x.1, x.2, tempCmds_temps validEeprom_m88p e, fun r hr _ => h.1 r hr, h.2⟩

set_option maxRecDepth 100000 in
/-- An interruption of the sensor: `C73_sensor_ok` applies 2500 ms later. -/
example : ∃ x h t0, LoopTemps .shipped .m88p x h ∧ (t0, true) ∈ h ∧ x.T = t0 + 2750 ∧ h.length = 6 := by
  have h : (tempCmds .shipped .m88p 0xFF (cycle 280 0 ++ cycles 5 1023 0)).any (fun x => x.2.contains (250, true) &&
      x.1.T == 250 + 2750 && x.2.length == 6) = true := by decide
  match e : tempCmds .shipped .m88p 0xFF (cycle 280 0 ++ cycles 5 1023 0) with
  | none => rw [e] at h; cases h
  | some x =>
    rw [e] at h
    simp only [Option.any_some, Bool.and_eq_true, beq_iff_eq, List.contains_iff_mem] at h
    exact ⟨x.1, x.2, 250, tempCmds_temps validEeprom_m88p e, h.1.1, h.1.2, h.2⟩

set_option maxRecDepth 200000 in
/-- A current sense input stuck at the top: after the smoothing has caught up, at 3000 ms, all values are implausible;
    `C73_current_lost` applies at 8500 ms. -/
example : ∃ x xs h, LoopCurrs .shipped .m88p x xs h ∧ (∀ r ∈ h, 3000 ≤ r.1 → r.2 = false) ∧
    3000 + 3000 + 2 * Speed.shipped.period ≤ x.T ∧ (2500, true) ∈ h := by
  have h : (currCmds .shipped .m88p 0xFF (cycles 17 280 1023)).any (fun x =>
      x.2.2.all (fun r => decide (3000 ≤ r.1 → r.2 = false)) &&
      decide (3000 + 3000 + 2 * Speed.shipped.period ≤ x.1.T) && x.2.2.contains (2500, true)) = true := by decide
  match e : currCmds .shipped .m88p 0xFF (cycles 17 280 1023) with
  | none => rw [e] at h; cases h
  | some x =>
    rw [e] at h
    simp only [Option.any_some, Bool.and_eq_true, decide_eq_true_eq, List.all_eq_true, List.contains_iff_mem] at h
    exact ⟨x.1, x.2.1, x.2.2, currCmds_currs validEeprom_m88p e, h.1.1, h.1.2, h.2⟩

set_option maxRecDepth 100000 in
/-- A plausible current 1500 ms ago: `C73_current_ok` applies. -/
example : ∃ x xs h, LoopCurrs .shipped .m88p x xs h ∧ (500, true) ∈ h ∧ x.T = 2000 ∧ h.length = 4 := by
  have h : (currCmds .shipped .m88p 0xFF (cycle 280 40 ++ cycles 3 280 1023)).any (fun x =>
      x.2.2.contains (500, true) && x.1.T == 2000 && x.2.2.length == 4) = true := by decide
  match e : currCmds .shipped .m88p 0xFF (cycle 280 40 ++ cycles 3 280 1023) with
  | none => rw [e] at h; cases h
  | some x =>
    rw [e] at h
    simp only [Option.any_some, Bool.and_eq_true, beq_iff_eq, List.contains_iff_mem] at h
    exact ⟨x.1, x.2.1, x.2.2, currCmds_currs validEeprom_m88p e, h.1.1, h.1.2, h.2⟩

private def notHot (x : Loop) (e : Option Ev) (y : Loop) : Prop :=
  (EvaluatesCh 1 x e y ∧ ¬ (x.s.meas.avgSum / x.s.meas.avgCount = 416 ∧ adjInForce .m88p x.s.set.cache = 0)) ∨
    Tuning x.s.menu.state = true
private instance (x : Loop) (e : Option Ev) (y : Loop) : Decidable (notHot x e y) := by unfold notHot; infer_instance

set_option maxRecDepth 100000 in
/-- Readings of 488 C while the heater is on: `C74_overheat` applies 1250 ms later. -/
example : ∃ x y, LoopRun .shipped .m88p x ∧ ¬ HeaterOff x.s.ocr ∧ Stretch .shipped .m88p (NotHot .m88p) x y ∧
    x.T + Speed.shipped.period ≤ y.T := by
  obtain ⟨x, y, h1, h2, h3⟩ := bind_any
    (x := (loopBoot .m88p 0xFF).bind fun x => loopCmds .shipped .m88p Never x (cycles 2 250 0))
    (f := fun x => loopCmds .shipped .m88p notHot x (cycles 3 416 0))
    (P := fun x y => !decide (HeaterOff x.s.ocr) && decide (x.T + Speed.shipped.period ≤ y.T)) (by decide)
  obtain ⟨b, hb, h1⟩ := Option.bind_eq_some_iff.mp h1
  simp only [Bool.and_eq_true, Bool.not_eq_true', decide_eq_false_iff_not, decide_eq_true_eq] at h3
  refine ⟨x, y, (loopCmds_stretch never_tick h1).run (loopBoot_run hb validEeprom_m88p), h3.1, ?_, h3.2⟩
  refine (loopCmds_stretch ?_ h2).mono ?_
  · rintro x n y t - (⟨⟨h, -⟩, -⟩ | h)
    · cases h
    · exact Or.inr h
  · rintro x e y (⟨h1, h2⟩ | h)
    · refine Or.inl ⟨h1, fun hh => h2 ?_⟩
      refine ⟨31245, ⟨h1.2.1, h1.2.2, 21645, ?_, ?_⟩, by decide, by decide⟩
      · rw [hh.1]; decide
      · rw [hh.2]; decide
    · exact Or.inr h

private instance (x : Loop) (e : Option Ev) (y : Loop) : Decidable (Requests x e y) := by unfold Requests; infer_instance

private theorem requests_tick : TickCheck Conf.m88p Requests := by
  intro x n y t h hh
  exfalso
  revert hh h
  generalize ({ x with s := { x.s with now := t }, T := n } : Loop) = x
  intro h
  have hset : y.s.set = x.s.set := by
    rcases h.sys with ⟨h, -⟩ | ⟨f, hf, -, hs, -⟩
    · cases h
    · cases hf
      rw [← Option.some.inj hs]
  unfold Requests
  rw [hset]
  rintro (h | ⟨h1, h2 | h2⟩)
  · exact h rfl
  · rw [h1] at h2; cases h2
  · exact h2 rfl

set_option maxRecDepth 100000 in
/-- Another preset is selected at 80 ms, and then nothing happens for 2270 ms: `C72_stored` applies.  (The store takes
    place at 1080 ms.) -/
example : ∃ x y, LoopLife .shipped .m88p x ∧ x.s.set.storeRequest = true ∧ Stretch .shipped .m88p Requests x y ∧
    x.T + 1000 + 2 * Speed.shipped.W + 128 * Speed.shipped.B < y.T ∧ y.s.set.cache.serial = 1 ∧ y.s.set.cache.active = 4 := by
  obtain ⟨x, y, h1, h2, h3⟩ := bind_any
    (x := (loopBoot .m88p 0xFF).bind fun x => loopCmds .shipped .m88p Never x
      (samples 20 280 ++ round 0xEF ++ samples 20 280 ++ round 0xFF ++ samples 10 280 ++ [.pause 10] ++ round 0xEF ++
        samples 5 0 ++ [.pause 15] ++ round 0xFF))
    (f := fun x => (loopCmds .shipped .m88p Requests x (cycles 2 280 0)).bind fun y =>
      (loopDrive .shipped .m88p Requests 130 y).bind fun z => loopCmds .shipped .m88p Requests z (cycles 3 280 0))
    (P := fun x y => x.s.set.storeRequest &&
      decide (x.T + 1000 + 2 * Speed.shipped.W + 128 * Speed.shipped.B < y.T) && y.s.set.cache.serial == 1 &&
      y.s.set.cache.active == 4) (by decide)
  obtain ⟨b, hb, h1⟩ := Option.bind_eq_some_iff.mp h1
  obtain ⟨y1, k1, h2⟩ := Option.bind_eq_some_iff.mp h2
  obtain ⟨y2, k2, h2⟩ := Option.bind_eq_some_iff.mp h2
  simp only [Bool.and_eq_true, beq_iff_eq, decide_eq_true_eq] at h3
  exact ⟨x, y, (loopCmds_stretch never_tick h1).life (loopBoot_life hb), h3.1.1.1,
    ((loopCmds_stretch requests_tick k1).trans (loopDrive_stretch requests_tick 130 k2)).trans
      (loopCmds_stretch requests_tick h2), h3.1.1.2, h3.1.2, h3.2⟩

end Verif.Props
