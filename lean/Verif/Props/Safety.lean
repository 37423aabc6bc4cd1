import Verif.Proofs.Measure
import Verif.Proofs.Demo
/-
Property theorems C35-C39: what the running firmware can do with the heater.
-/
namespace Verif.Props
open Verif Verif.Spec

theorem heaterAt_duty {y ocr : Int} (h : 0 ≤ y ∧ y ≤ 3200) (e : pwmDuty y = some ocr) :
    HeaterAt ocr y := by
  obtain ⟨d, hd, h1, h2, h3⟩ := C13_defined y h
  rw [hd] at e
  cases e
  exact ⟨h1, h2, h3⟩

/-! ### C35 -/

/-- In every state of the running firmware the compare register is the value for a current
    between 0 and 5 A. -/
theorem C35_heater_range (c : Conf) (s : Sys) (h : Running c s) :
    ∃ amps, 0 ≤ amps ∧ amps ≤ 5 * 640 ∧ HeaterAt s.ocr amps := by
  obtain ⟨y, hy, hd⟩ := (Running.inv h).cc.duty
  exact ⟨y, hy.1, hy.2, heaterAt_duty hy hd⟩

set_option maxRecDepth 100000 in
/-- heating with more than 2 A happens -/
example : ∃ s, Running .m88p s ∧ s.ocr < 0x1000 := by
  obtain ⟨s, h, hp⟩ := demo_any (c := .m88p) (pinb := 0xFF) validEeprom_m88p
    (es := reading 50 250 ++ reading 5 0 ++ reading 50 250 ++ reading 5 0)
    (P := fun s => s.ocr < 0x1000) (by decide)
  exact ⟨s, h, by simpa using hp⟩

/-! ### C36 -/

/-- While any emergency flag of the current controller is set, the heater is off. -/
theorem C36_off (c : Conf) (s : Sys) (h : Running c s) (he : s.cc.emerg ≠ 0) : HeaterOff s.ocr :=
  (Running.inv h).cc.off he

/-- Once off, the heater comes back on only by a run of the current controller (a current
    measurement is evaluated) that leaves no flag set. -/
theorem C36_resume (c : Conf) (s s' : Sys) (e : Ev) (h : Running c s) (hp : possible s e = true)
    (hs : step c s e = some s') (hoff : HeaterOff s.ocr) (hon : ¬ HeaterOff s'.ocr) :
    s'.cc.emerg = 0 ∧ e = .measureWork ∧ s.meas.resultAvail = true ∧ s.meas.active = 0 := by
  have hi := Running.inv h
  have h0 : s'.cc.emerg = 0 := by
    by_contra hne
    exact hon ((Running.inv (h.step hp hs)).cc.off hne)
  refine ⟨h0, ?_⟩
  rcases step_eff hi hs with ⟨-, hc⟩ | ⟨h1, h2, p, pl, hm⟩
  · exact absurd (hc.ocr.trans hoff) hon
  · refine ⟨h1, h2, ?_⟩
    by_contra ha
    have ha1 : s.meas.active = 1 := by have := hi.meas.act; omega
    rcases (hm.temp ha1).ocr with ho | ho
    · exact hon (ho.trans hoff)
    · exact hon ho

set_option maxRecDepth 100000 in
/-- an emergency while heating: 490 C after 250 C -/
example : ∃ s, Running .m88p s ∧ s.cc.emerg ≠ 0 := by
  obtain ⟨s, h, hp⟩ := demo_any (c := .m88p) (pinb := 0xFF) validEeprom_m88p
    (es := reading 50 250 ++ reading 5 0 ++ reading 50 416)
    (P := fun s => decide (s.cc.emerg ≠ 0)) (by decide)
  exact ⟨s, h, by simpa using hp⟩

set_option maxRecDepth 100000 in
/-- and the heater resumes when the temperature is back in range -/
example : ∃ s s', Running .m88p s ∧ s.cc.emerg = 0 ∧ s.ocr = 0x1FFF ∧
    step .m88p s .measureWork = some s' ∧ ¬ HeaterOff s'.ocr := by
  obtain ⟨s, h, hp⟩ := demo_any (c := .m88p) (pinb := 0xFF) validEeprom_m88p
    (es := reading 50 250 ++ reading 5 0 ++ reading 50 416 ++ reading 5 0 ++ reading 50 250 ++
      ticks 5 ++ [.adc 0])
    (P := fun s => s.cc.emerg = 0 && s.ocr = 0x1FFF &&
      (step .m88p s .measureWork).any (fun s' => !decide (HeaterOff s'.ocr))) (by decide)
  simp only [Bool.and_eq_true, decide_eq_true_eq] at hp
  obtain ⟨⟨h1, h2⟩, h3⟩ := hp
  match e : step .m88p s .measureWork with
  | none => rw [e] at h3; cases h3
  | some s' => rw [e] at h3; exact ⟨s, s', h, h1, h2, e, by simpa using h3⟩

/-! ### C37 -/

/-- When the enabled temperature controller processes a feedback above 480 C (the value it
    remembers as its feedback), the high-temperature flag is set and the heater is off. -/
theorem C37_trips (c : Conf) (s s' : Sys) (h : Running c s) (hs : step c s .measureWork = some s')
    (hr : s.meas.resultAvail = true) (ha : s.meas.active = 1) (hen : s.ct.enabled = true)
    (hem : s'.ct.emergency = false) (hot : 480 * 64 < s'.ct.feedback) :
    s'.cc.emerg.getLsbD 1 = true ∧ HeaterOff s'.ocr := by
  have hi := Running.inv h
  rcases step_eff hi hs with ⟨h1, -⟩ | ⟨-, -, p, pl, hm⟩
  · exact absurd ⟨rfl, hr⟩ h1
  have ht := hm.temp ha
  have hpl : pl ≠ .timeout := by
    rintro rfl
    have := ht.emergency
    rw [hem] at this
    cases this
  have hf := ht.flags
  rw [if_pos ⟨hpl, hen, hem⟩, if_pos (by omega)] at hf
  have hb : s'.cc.emerg.getLsbD 1 = true := by
    rw [hf]; generalize s.cc.emerg = x; revert x; decide
  refine ⟨hb, (Running.inv (h.step (e := .measureWork) rfl hs)).cc.off ?_⟩
  intro h0
  rw [h0] at hb
  cases hb

/-- In particular a reading above 480 C and up to 500 C. -/
theorem C37_reading (c : Conf) (s s' : Sys) (v : Int) (h : Running c s)
    (hs : step c s .measureWork = some s') (hv : TempReady c s v) (hot : 480 * 64 < v)
    (hlim : PlausibleTemp v) (hen : s.ct.enabled = true) :
    s'.cc.emerg.getLsbD 1 = true ∧ HeaterOff s'.ocr := by
  have hi := Running.inv h
  obtain ⟨hr, ha, hval⟩ := hv
  rcases step_eff hi hs with ⟨h1, -⟩ | ⟨-, -, p, pl, hm⟩
  · exact absurd ⟨rfl, hr⟩ h1
  obtain ⟨w, ⟨-, -, hw⟩, ⟨h1, h2⟩, -⟩ := hm.tempValue hi hr ha
  obtain rfl := TempValue.unique hval hw
  have hpl := h1.mpr hlim
  subst hpl
  have hp : p = v := h2.2.2.2.2 hlim.1 hlim.2
  have ht := hm.temp ha
  refine C37_trips c s s' h hs hr ha hen ht.emergency ?_
  rw [ht.feedback]
  show _ < p
  omega

/-- The flag, and with it (C36) the switched-off heater, stays until the enabled temperature
    controller processes a feedback of at most 480 C. -/
theorem C37_holds (c : Conf) (s s' : Sys) (e : Ev) (h : Running c s)
    (hs : step c s e = some s') (hb : s.cc.emerg.getLsbD 1 = true)
    (hb' : s'.cc.emerg.getLsbD 1 = false) :
    e = .measureWork ∧ s.meas.resultAvail = true ∧ s.meas.active = 1 ∧ s.ct.enabled = true ∧
      s'.ct.emergency = false ∧ s'.ct.feedback ≤ 480 * 64 := by
  have hi := Running.inv h
  rcases step_eff hi hs with ⟨-, hc⟩ | ⟨h1, h2, p, pl, hm⟩
  · rw [hc.cc_emerg, hb] at hb'; cases hb'
  refine ⟨h1, h2, ?_⟩
  have hact : s.meas.active = 0 ∨ s.meas.active = 1 := by have := hi.meas.act; omega
  rcases hact with ha | ha
  · obtain ⟨-, f, hc⟩ := hm.curr ha
    have hf := hc.flags
    exfalso
    have key : ∀ x : BitVec 8, x.getLsbD 1 = true → ∀ pl : Plaus,
        (pl.pick (x &&& ~~~1#8) x (x ||| 1#8)).getLsbD 1 = true := by
      intro x hx pl
      cases pl
      · show (x &&& ~~~1#8).getLsbD 1 = true
        revert x; decide
      · exact hx
      · show (x ||| 1#8).getLsbD 1 = true
        revert x; decide
    rw [hf, key _ hb pl] at hb'
    cases hb'
  · have ht := hm.temp ha
    have hf := ht.flags
    refine ⟨ha, ?_⟩
    by_cases hcond : pl ≠ .timeout ∧ s.ct.enabled = true ∧ s'.ct.emergency = false
    · refine ⟨hcond.2.1, hcond.2.2, ?_⟩
      by_contra hgt
      rw [if_pos hcond, if_pos (by omega)] at hf
      rw [hf] at hb'
      have : ∀ x : BitVec 8, (x ||| 2#8).getLsbD 1 = true := by decide
      rw [this] at hb'
      cases hb'
    · rw [if_neg hcond] at hf
      rw [hf, hb] at hb'
      cases hb'

/-- A feedback of at most 480 C processed by the enabled temperature controller clears the flag. -/
theorem C37_clears (c : Conf) (s s' : Sys) (h : Running c s) (hs : step c s .measureWork = some s')
    (hr : s.meas.resultAvail = true) (ha : s.meas.active = 1) (hen : s.ct.enabled = true)
    (hem : s'.ct.emergency = false) (hok : s'.ct.feedback ≤ 480 * 64) :
    s'.cc.emerg.getLsbD 1 = false := by
  have hi := Running.inv h
  rcases step_eff hi hs with ⟨h1, -⟩ | ⟨-, -, p, pl, hm⟩
  · exact absurd ⟨rfl, hr⟩ h1
  have ht := hm.temp ha
  have hpl : pl ≠ .timeout := by
    rintro rfl
    have := ht.emergency
    rw [hem] at this
    cases this
  have hf := ht.flags
  rw [if_pos ⟨hpl, hen, hem⟩, if_neg (by omega)] at hf
  rw [hf]; generalize s.cc.emerg = x; revert x; decide

set_option maxRecDepth 100000 in
/-- a state in which a reading of 488 C waits, while heating -/
example : ∃ s, Running .m88p s ∧ s.meas.resultAvail = true ∧ s.meas.active = 1 ∧
    s.ct.enabled = true ∧ ¬ HeaterOff s.ocr ∧ s.meas.avgSum / s.meas.avgCount = 416 ∧
    adjInForce .m88p s.set.cache = 0 := by
  obtain ⟨s, h, hp⟩ := demo_any (c := .m88p) (pinb := 0xFF) validEeprom_m88p
    (es := reading 50 250 ++ reading 5 0 ++ ticks 50 ++ [.adc 416])
    (P := fun s => s.meas.resultAvail && s.meas.active == 1 && s.ct.enabled &&
      !decide (HeaterOff s.ocr) && s.meas.avgSum / s.meas.avgCount == 416 &&
      adjInForce .m88p s.set.cache == 0) (by decide)
  simp only [Bool.and_eq_true, beq_iff_eq, Bool.not_eq_true', decide_eq_false_iff_not] at hp
  obtain ⟨⟨⟨⟨⟨h1, h2⟩, h3⟩, h4⟩, h5⟩, h6⟩ := hp
  exact ⟨s, h, h1, h2, h3, h4, h5, h6⟩

example : TempValue .m88p 416 0 31245 ∧ 480 * 64 < 31245 ∧ PlausibleTemp 31245 :=
  ⟨⟨21645, by unfold NearestAway; decide, by decide⟩, by decide, by unfold PlausibleTemp; decide⟩

/-! ### C38 -/

private theorem observed_inv {c : Conf} {s : Sys} {vs : List Int} (h : Observed c s vs) :
    Running c s ∧ s.mtPrev = vs.headD 0 := by
  induction h with
  | boot hv e =>
    obtain ⟨-, st, -, b, t, hb, -, rfl⟩ := (boot_ok hv).elim e
    exact ⟨Running.boot hv e, hb.mt⟩
  | @reads s s' vs v _ hr hp hs ih =>
    refine ⟨ih.1.step rfl hs, ?_⟩
    have hi := Running.inv ih.1
    obtain ⟨hav, ha, hval⟩ := hr
    rcases step_eff hi hs with ⟨h1, -⟩ | ⟨-, -, p, pl, hm⟩
    · exact absurd ⟨rfl, hav⟩ h1
    obtain ⟨w, ⟨-, -, hw⟩, ⟨h1, h2⟩, -⟩ := hm.tempValue hi hav ha
    obtain rfl := TempValue.unique hval hw
    have hpl := h1.mpr hp
    rw [(hm.temp ha).mtPrev, if_pos hpl]
    exact h2.2.2.2.2 hp.1 hp.2
  | @other s e s' vs _ hpo hs hn ih =>
    refine ⟨ih.1.step hpo hs, ?_⟩
    have hi := Running.inv ih.1
    rcases step_eff hi hs with ⟨-, hc⟩ | ⟨h1, h2, p, pl, hm⟩
    · rw [hc.mtPrev]; exact ih.2
    · have hact : s.meas.active = 0 ∨ s.meas.active = 1 := by have := hi.meas.act; omega
      rcases hact with ha | ha
      · obtain ⟨-, f, hc⟩ := hm.curr ha
        exact hc.mtPrev.trans ih.2
      · obtain ⟨w, hw, ⟨k1, k2⟩, -⟩ := hm.tempValue hi h2 ha
        have := hn w h1 hw
        rw [(hm.temp ha).mtPrev, if_neg (fun hh => this (k1.mp hh))]
        exact ih.2

/-- While no plausible temperature has been evaluated since boot, and whenever the latest one was
    below 100 C, a step leaves the heater command as it is or programs at most 2 A. -/
theorem C38_cold (c : Conf) (s s' : Sys) (vs : List Int) (e : Ev) (h : Observed c s vs)
    (hcold : ∀ v, vs.head? = some v → v < 100 * 64) (hs : step c s e = some s') :
    s'.ocr = s.ocr ∨ ∃ amps, 0 ≤ amps ∧ amps ≤ 2 * 640 ∧ HeaterAt s'.ocr amps := by
  obtain ⟨hr, hmt⟩ := observed_inv h
  have hi := Running.inv hr
  have hlt : s.mtPrev < 6400 := by
    rw [hmt]
    cases vs with
    | nil => decide
    | cons v vs => have := hcold v rfl; show v < 6400; omega
  have hres : s.cc.restricted = true := by rw [hi.restr]; simpa using hlt
  have hoff : HeaterAt 0x1FFF 0 := by decide
  rcases step_eff hi hs with ⟨-, hc⟩ | ⟨h1, h2, p, pl, hm⟩
  · exact Or.inl hc.ocr
  have hact : s.meas.active = 0 ∨ s.meas.active = 1 := by have := hi.meas.act; omega
  rcases hact with ha | ha
  · obtain ⟨-, f, hc⟩ := hm.curr ha
    rcases hc.ocr with ⟨y, hy, y0, y1, y2, -⟩ | ho
    · exact Or.inr ⟨y, y0, y2 hres, heaterAt_duty ⟨y0, y1⟩ hy⟩
    · exact Or.inr ⟨0, by decide, by decide, by rw [ho]; exact hoff⟩
  · rcases (hm.temp ha).ocr with ho | ho
    · exact Or.inl ho
    · exact Or.inr ⟨0, by decide, by decide, by rw [ho]; exact hoff⟩

/-- As long as every plausible temperature since boot was below 100 C, the heater command is at
    most 2 A. -/
theorem C38_always_cold (c : Conf) (s : Sys) (vs : List Int) (h : Observed c s vs)
    (hcold : ∀ v ∈ vs, v < 100 * 64) : ∃ amps, 0 ≤ amps ∧ amps ≤ 2 * 640 ∧ HeaterAt s.ocr amps := by
  induction h with
  | boot hv e =>
    obtain ⟨-, st, -, b, t, hb, -, rfl⟩ := (boot_ok hv).elim e
    exact ⟨0, by decide, by decide, by show HeaterAt b.ocr 0; rw [hb.ocr]; decide⟩
  | @reads s s' vs v ho _ _ hs ih =>
    have hc : ∀ v ∈ vs, v < 100 * 64 := fun v hv => hcold v (List.mem_cons_of_mem _ hv)
    rcases C38_cold c s s' vs _ ho (fun w hw => hc w (List.mem_of_mem_head? hw)) hs with he | he
    · rw [he]; exact ih hc
    · exact he
  | @other s e s' vs ho _ hs _ ih =>
    rcases C38_cold c s s' vs _ ho (fun w hw => hcold w (List.mem_of_mem_head? hw)) hs with he | he
    · rw [he]; exact ih hcold
    · exact he

/-- The restriction to 2 A is in force exactly while no plausible temperature has been evaluated since
    boot or the latest one was below 100 C: above that the full current is available again. -/
theorem C38_exact (c : Conf) (s : Sys) (vs : List Int) (h : Observed c s vs) :
    s.cc.restricted = true ↔ ∀ v, vs.head? = some v → v < 100 * 64 := by
  obtain ⟨hr, hmt⟩ := observed_inv h
  rw [(Running.inv hr).restr, hmt, decide_eq_true_iff]
  cases vs with
  | nil => exact ⟨fun _ v hv => (by cases hv), fun _ => (by decide)⟩
  | cons v vs =>
    refine ⟨fun hh w hw => ?_, fun hh => ?_⟩
    · cases hw
      exact hh
    · exact hh v rfl

set_option maxRecDepth 100000 in
/-- a cold iron that would like 5 A is heated with exactly 2 A (compare value 4915) -/
example : ∃ s, Running .m88p s ∧ s.cc.pid.setpoint = 3200 ∧ s.ocr = 4915 ∧ HeaterAt 4915 (2 * 640) := by
  obtain ⟨s, h, hp⟩ := demo_any (c := .m88p) (pinb := 0xFF) validEeprom_m88p
    (es := reading 50 130 ++ reading 5 0) (P := fun s => s.cc.pid.setpoint == 3200 && s.ocr == 4915) (by decide)
  simp only [Bool.and_eq_true, beq_iff_eq] at hp
  exact ⟨s, h, hp.1, hp.2, by decide⟩

/-! ### C39 -/

/-- While the temperature emergency is active no current is requested. -/
theorem C39_demand (c : Conf) (s : Sys) (h : Running c s) (he : s.ct.emergency = true) :
    s.cc.pid.setpoint = 0 := (Running.inv h).emerg he

/-- The temperature emergency is left only when a plausible temperature is evaluated. -/
theorem C39_recovery (c : Conf) (s s' : Sys) (e : Ev) (h : Running c s)
    (hs : step c s e = some s') (he : s.ct.emergency = true) (he' : s'.ct.emergency = false) :
    e = .measureWork ∧ ∃ v, TempReady c s v ∧ PlausibleTemp v := by
  have hi := Running.inv h
  rcases step_eff hi hs with ⟨-, hc⟩ | ⟨h1, h2, p, pl, hm⟩
  · rw [hc.emerg, he] at he'; cases he'
  refine ⟨h1, ?_⟩
  have hact : s.meas.active = 0 ∨ s.meas.active = 1 := by have := hi.meas.act; omega
  rcases hact with ha | ha
  · obtain ⟨-, f, hc⟩ := hm.curr ha
    rw [hc.ct] at he'
    exact absurd (he.symm.trans he') (by decide)
  · obtain ⟨w, hw, ⟨k1, k2⟩, -⟩ := hm.tempValue hi h2 ha
    refine ⟨w, hw, k1.mp ?_⟩
    have := (hm.temp ha).emergency
    rw [he'] at this
    cases pl
    · rfl
    · rw [he] at this; cases this
    · cases this

/-- What is programmed during the temperature emergency is at most 0.5 A (the limit of the
    controller's integrator).  The full claim, that nothing is programmed (`C39_Full`), is false:
    `C39_false`. -/
theorem C39_current_partial (c : Conf) (s s' : Sys) (e : Ev) (h : Running c s)
    (hs : step c s e = some s') (he : s.ct.emergency = true) :
    s'.ocr = s.ocr ∨ ∃ amps, 0 ≤ amps ∧ 2 * amps ≤ 640 ∧ HeaterAt s'.ocr amps := by
  have hi := Running.inv h
  have hsp := hi.emerg he
  have hoff : HeaterAt 0x1FFF 0 := by decide
  rcases step_eff hi hs with ⟨-, hc⟩ | ⟨h1, h2, p, pl, hm⟩
  · exact Or.inl hc.ocr
  have hact : s.meas.active = 0 ∨ s.meas.active = 1 := by have := hi.meas.act; omega
  rcases hact with ha | ha
  · obtain ⟨-, f, hc⟩ := hm.curr ha
    rcases hc.ocr with ⟨y, hy, y0, y1, -, y2⟩ | ho
    · have := y2 hsp
      exact Or.inr ⟨y, y0, by omega, heaterAt_duty ⟨y0, y1⟩ hy⟩
    · exact Or.inr ⟨0, by decide, by decide, by rw [ho]; exact hoff⟩
  · rcases (hm.temp ha).ocr with ho | ho
    · exact Or.inl ho
    · exact Or.inr ⟨0, by decide, by decide, by rw [ho]; exact hoff⟩

/-- The full claim: during the temperature emergency the heater is only ever switched off. -/
def C39_Full (c : Conf) : Prop :=
  ∀ s s' e, Running c s → possible s e = true → step c s e = some s' → s.ct.emergency = true →
    s'.ocr = s.ocr ∨ HeaterOff s'.ocr

/-- the events of the counterexample up to the emergency: heating with a few current readings,
    then the sensor is lost for 3 s -/
private def lostSensor : List Ev :=
  reading 50 250 ++ reading 5 0 ++ reading 50 250 ++ reading 5 0 ++ reading 50 1023

set_option maxRecDepth 100000 in
private theorem lostSensor_run :
    ((demo .m88p 0xFF lostSensor).bind fun s => runOk .m88p { s with now := (s.now + 3000) % 65536 }
      (reading 5 0 ++ reading 50 1023 ++ ticks 5 ++ [.adc 0])).any (fun s => s.ct.emergency &&
        (step .m88p s .measureWork).any fun s' =>
          s'.ocr != s.ocr && !decide (HeaterOff s'.ocr)) = true := by decide

theorem C39_false : ¬ C39_Full .m88p := by
  intro hf
  obtain ⟨s, h, hp⟩ := demo_any validEeprom_m88p (demo_pause validEeprom_m88p lostSensor_run)
  simp only [Bool.and_eq_true] at hp
  obtain ⟨h1, h2⟩ := hp
  match e : step .m88p s .measureWork with
  | none => rw [e] at h2; cases h2
  | some s' =>
    rw [e] at h2
    simp only [Option.any_some, Bool.and_eq_true, bne_iff_ne, ne_eq, Bool.not_eq_true',
      decide_eq_false_iff_not] at h2
    rcases hf s s' _ h rfl e h1 with h3 | h3
    · exact h2.1 h3
    · exact h2.2 h3

end Verif.Props
