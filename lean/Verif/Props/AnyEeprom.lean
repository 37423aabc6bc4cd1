import Verif.Proofs.AnyEeprom
import Verif.Props.Safety
/-
Property theorems C95: the firmware with an EEPROM that may contain anything.
-/
namespace Verif.Props
open Verif Verif.Spec

/-! ### when the firmware boots -/

/-- For any content of the EEPROM the firmware finds a slot, and booting is free of undefined behaviour exactly if the
    slot selects one of the six presets. -/
theorem C95_boot (c : Conf) (ee : Nat → Nat) (pinb : BitVec 8) : ∃ st, settingsInit c ee = some st ∧
    ((∃ s, boot c ee pinb = some s) ↔ st.cache.active < 6) := by
  obtain ⟨st, e, h1, h2⟩ := boot_any c ee pinb
  refine ⟨st, e, fun ⟨s, es⟩ => ?_, fun ha => ?_⟩
  · by_contra ha
    rw [h2 ha] at es
    cases es
  · obtain ⟨s, es, -⟩ := h1 ha
    exact ⟨s, es⟩

/-- An erased EEPROM selects preset 255: booting is undefined. -/
theorem C95_erased (c : Conf) (pinb : BitVec 8) : boot c erased pinb = none := by
  obtain ⟨st, e, -, h2⟩ := boot_any c erased pinb
  refine h2 ?_
  unfold settingsInit at e
  obtain ⟨f, -, e⟩ := Option.bind_eq_some_iff.mp e
  cases e
  show ¬ (255 < 6)
  decide

/-- The running firmware of the other properties is a case of this one. -/
theorem C95_covers (c : Conf) (s : Sys) (h : Running c s) : RunningAny c s := by
  induction h with
  | @boot ee _ _ _ e => exact ⟨ee, .boot e⟩
  | step _ hp hs ih =>
    obtain ⟨ee, ih⟩ := ih
    exact ⟨ee, ih.step hp hs⟩

/-! ### what holds whatever the EEPROM contains -/

/-- The heater command is a current between 0 and 5 A. -/
theorem C95_range (c : Conf) (s : Sys) (h : RunningAny c s) :
    ∃ amps, 0 ≤ amps ∧ amps ≤ 5 * 640 ∧ HeaterAt s.ocr amps := by
  obtain ⟨y, hy, hd⟩ := h.inv.cc.duty
  exact ⟨y, hy.1, hy.2, heaterAt_duty hy hd⟩

/-- While an emergency flag of the current controller is set, the heater is off. -/
theorem C95_off (c : Conf) (s : Sys) (h : RunningAny c s) (he : s.cc.emerg ≠ 0) : HeaterOff s.ocr :=
  h.inv.cc.off he

/-- The temperature the controller works with is plausible. -/
theorem C95_feedback (c : Conf) (s : Sys) (h : RunningAny c s) : PlausibleTemp s.ct.feedback := by
  have := h.inv
  unfold PlausibleTemp
  rw [this.fb]
  exact ⟨this.mt.1, this.mt.2⟩

/-- A processed temperature above 480 C sets the high-temperature flag and switches the heater off. -/
theorem C95_trips (c : Conf) (s s' : Sys) (h : RunningAny c s) (hs : step c s .measureWork = some s')
    (hr : s.meas.resultAvail = true) (ha : s.meas.active = 1) (hen : s.ct.enabled = true)
    (hem : s'.ct.emergency = false) (hot : 480 * 64 < s'.ct.feedback) :
    s'.cc.emerg.getLsbD 1 = true ∧ HeaterOff s'.ocr := by
  obtain ⟨hi, ⟨h0, -⟩ | ⟨-, p, pl, ht⟩⟩ := h.inv.measure hr hs
  · omega
  have hpl : pl ≠ .timeout := by
    rintro rfl
    have := ht.emergency
    rw [hem] at this
    cases this
  have hf := ht.flags
  rw [if_pos ⟨hpl, hen, hem⟩, if_pos (by omega)] at hf
  have hb : s'.cc.emerg.getLsbD 1 = true := by
    rw [hf]; generalize s.cc.emerg = x; revert x; decide
  refine ⟨hb, hi.cc.off ?_⟩
  intro h0
  rw [h0] at hb
  cases hb

/-- The high-temperature flag, and with it the switched-off heater, stays until the enabled temperature controller
    processes a temperature of at most 480 C. -/
theorem C95_holds (c : Conf) (s s' : Sys) (e : Ev) (h : RunningAny c s)
    (hs : step c s e = some s') (hb : s.cc.emerg.getLsbD 1 = true)
    (hb' : s'.cc.emerg.getLsbD 1 = false) :
    e = .measureWork ∧ s.meas.resultAvail = true ∧ s.meas.active = 1 ∧ s.ct.enabled = true ∧
      s'.ct.emergency = false ∧ s'.ct.feedback ≤ 480 * 64 := by
  rcases (h.inv.step hs).2 with hq | ⟨h1, h2, ⟨-, -, ⟨pl, hf⟩, -⟩ | ⟨ha, p, pl, ht⟩⟩
  · rw [hq.emerg', hb] at hb'; cases hb'
  · exfalso
    have key : ∀ x : BitVec 8, x.getLsbD 1 = true → ∀ pl : Plaus,
        (pl.pick (x &&& ~~~1#8) x (x ||| 1#8)).getLsbD 1 = true := by
      intro x hx pl
      cases pl
      · revert x; decide
      · exact hx
      · revert x; decide
    rw [hf, key _ hb pl] at hb'
    cases hb'
  · refine ⟨h1, h2, ha, ?_⟩
    have hf := ht.flags
    by_cases hcond : pl ≠ .timeout ∧ s.ct.enabled = true ∧ s'.ct.emergency = false
    · refine ⟨hcond.2.1, hcond.2.2, ?_⟩
      by_contra hgt
      rw [if_pos hcond, if_pos (by omega)] at hf
      rw [hf] at hb'
      have : ∀ x : BitVec 8, (x ||| 2#8).getLsbD 1 = true := by decide
      rw [this] at hb'
      cases hb'
    · rw [if_neg hcond] at hf
      rw [hf, hb] at hb'
      cases hb'

private theorem heaterAt_off : HeaterAt 0x1FFF 0 := by decide

/-- While the processed temperature is below 100 C, a step leaves the heater command as it is or programs at most 2 A. -/
theorem C95_cold (c : Conf) (s s' : Sys) (e : Ev) (h : RunningAny c s) (hcold : s.ct.feedback < 100 * 64)
    (hs : step c s e = some s') :
    s'.ocr = s.ocr ∨ ∃ amps, 0 ≤ amps ∧ amps ≤ 2 * 640 ∧ HeaterAt s'.ocr amps := by
  have hi := h.inv
  have hres : s.cc.restricted = true := by
    rw [hi.restr, ← hi.fb, decide_eq_true_iff]
    omega
  rcases (hi.step hs).2 with hq | ⟨-, -, ⟨-, -, -, ho⟩ | ⟨-, p, pl, ht⟩⟩
  · exact Or.inl hq.ocr
  · rcases ho with ⟨y, hy, y0, y1, y2, -⟩ | ho
    · exact Or.inr ⟨y, y0, y2 hres, heaterAt_duty ⟨y0, y1⟩ hy⟩
    · exact Or.inr ⟨0, by decide, by decide, by rw [ho]; exact heaterAt_off⟩
  · rcases ht.ocr with ho | ho
    · exact Or.inl ho
    · exact Or.inr ⟨0, by decide, by decide, by rw [ho]; exact heaterAt_off⟩

/-- While the temperature emergency (no plausible temperature) is active, no current is demanded, and a step leaves the
    heater command as it is or programs at most 0.5 A. -/
theorem C95_lost (c : Conf) (s s' : Sys) (e : Ev) (h : RunningAny c s) (he : s.ct.emergency = true)
    (hs : step c s e = some s') : s.cc.pid.setpoint = 0 ∧
    (s'.ocr = s.ocr ∨ ∃ amps, 0 ≤ amps ∧ 2 * amps ≤ 640 ∧ HeaterAt s'.ocr amps) := by
  have hi := h.inv
  have hsp := hi.emerg he
  refine ⟨hsp, ?_⟩
  rcases (hi.step hs).2 with hq | ⟨-, -, ⟨-, -, -, ho⟩ | ⟨-, p, pl, ht⟩⟩
  · exact Or.inl hq.ocr
  · rcases ho with ⟨y, hy, y0, y1, -, y2⟩ | ho
    · have := y2 hsp
      exact Or.inr ⟨y, y0, by omega, heaterAt_duty ⟨y0, y1⟩ hy⟩
    · exact Or.inr ⟨0, by decide, by decide, by rw [ho]; exact heaterAt_off⟩
  · rcases ht.ocr with ho | ho
    · exact Or.inl ho
    · exact Or.inr ⟨0, by decide, by decide, by rw [ho]; exact heaterAt_off⟩

/-! ### examples -/

/-- a run from the EEPROM content `ee` -/
private def from_ (ee : Nat → Nat) (es : List Ev) : Option Sys :=
  (boot .m88p ee 0xFF).bind fun s => runOk .m88p s es

private theorem runOk_any {c : Conf} {ee : Nat → Nat} {s s' : Sys} (h : RunningFrom c ee s) {es : List Ev}
    (e : runOk c s es = some s') : RunningFrom c ee s' := by
  induction es generalizing s with
  | nil => cases e; exact h
  | cons x xs ih =>
    unfold runOk at e
    split at e
    · rename_i hp
      obtain ⟨t, et, e⟩ := Option.bind_eq_some_iff.mp e
      exact ih (h.step hp et) e
    · cases e

private theorem from_any {ee : Nat → Nat} {es : List Ev} {P : Sys → Bool} (h : (from_ ee es).any P = true) :
    ∃ s, RunningFrom .m88p ee s ∧ P s = true := by
  match e : from_ ee es with
  | none => rw [e] at h; cases h
  | some s =>
    rw [e] at h
    obtain ⟨s0, e0, e⟩ := Option.bind_eq_some_iff.mp e
    exact ⟨s, runOk_any (.boot e0) e, h⟩

set_option maxRecDepth 100000 in
/-- A set point of 131072 C in the EEPROM: the iron is heated with 5 A, and switched off above 480 C. -/
example : ∃ s s', RunningAny .m88p s ∧ s.ct.pid.setpoint = 131072 * 64 - 1 ∧ HeaterAt s.ocr (5 * 640) ∧
    s.meas.resultAvail = true ∧ s.meas.active = 1 ∧ s.ct.enabled = true ∧ step .m88p s .measureWork = some s' ∧
    s'.ct.emergency = false ∧ 480 * 64 < s'.ct.feedback := by
  obtain ⟨s, h, hp⟩ := from_any (ee := poke (poke (poke (shippedEeprom .m88p) 48 0xFF) 49 0xFF) 50 0x7F)
    (es := reading 50 300 ++ reading 5 0 ++ ticks 50 ++ [.adc 416])
    (P := fun s => s.ct.pid.setpoint = 131072 * 64 - 1 && s.ocr == 0 && s.meas.resultAvail && s.meas.active == 1 &&
      s.ct.enabled && (step .m88p s .measureWork).any fun (s' : Sys) =>
        !s'.ct.emergency && decide (480 * 64 < s'.ct.feedback)) (by decide)
  simp only [Bool.and_eq_true, decide_eq_true_eq, beq_iff_eq] at hp
  obtain ⟨⟨⟨⟨⟨h1, h2⟩, h3⟩, h4⟩, h5⟩, h6⟩ := hp
  match e : step .m88p s .measureWork with
  | none => rw [e] at h6; cases h6
  | some s' =>
    rw [e] at h6
    simp only [Option.any_some, Bool.and_eq_true, decide_eq_true_eq, Bool.not_eq_true'] at h6
    exact ⟨s, s', ⟨_, h⟩, h1, by rw [h2]; decide, h3, h4, h5, e, h6.1, h6.2⟩

set_option maxRecDepth 100000 in
private theorem lost_run :
    ((demo .m88p 0xFF (reading 50 250 ++ reading 5 0 ++ reading 50 1023)).bind fun s =>
      runOk .m88p { s with now := (s.now + 3000) % 65536 }
      (reading 5 0 ++ reading 50 1023)).any (fun s => s.ct.emergency && !decide (HeaterOff s.ocr)) = true := by decide

/-- the sensor is lost for 3 s while heating -/
example : ∃ s, RunningAny .m88p s ∧ s.ct.emergency = true ∧ ¬ HeaterOff s.ocr := by
  obtain ⟨s, h, hp⟩ := demo_any validEeprom_m88p (demo_pause validEeprom_m88p lost_run)
  simp only [Bool.and_eq_true, Bool.not_eq_true', decide_eq_false_iff_not] at hp
  exact ⟨s, C95_covers _ _ h, hp.1, hp.2⟩

/-! ### what is not guaranteed -/

/-- The full claim: whatever the EEPROM contains, the running firmware has no undefined behaviour. -/
def C95_Defined (c : Conf) : Prop :=
  ∀ s e, RunningAny c s → possible s e = true → (step c s e).isSome = true

set_option maxRecDepth 100000 in
/-- It is false: one wrong byte in the proportional factor, and the first temperature overflows the controller. -/
theorem C95_defined_false : ¬ C95_Defined .m88p := by
  intro hf
  obtain ⟨s, h, hp⟩ := from_any (ee := poke (shippedEeprom .m88p) 2 0x7F) (es := ticks 50 ++ [.adc 300])
    (P := fun s => (step .m88p s .measureWork).isNone) (by decide)
  have := hf s .measureWork ⟨_, h⟩ rfl
  cases e : step .m88p s .measureWork with
  | none => rw [e] at this; cases this
  | some x => rw [e] at hp; cases hp

set_option maxRecDepth 100000 in
/-- Factors within the limits of the menu (kd 99.0) do not suffice: with a decay of 1/64, which the menu cannot change,
    the second temperature overflows the controller. -/
theorem C95_decay : ∃ ee,
    (∀ st, settingsInit .m88p ee = some st →
      WithinLimits .m88p { st.cache with k := st.cache.k.set 0 { st.cache.k[0] with decay := 64 } }) ∧
    ∃ s, RunningFrom .m88p ee s ∧ step .m88p s .measureWork = none := by
  refine ⟨poke (poke (poke (poke (shippedEeprom .m88p) 9 1) 10 0) 6 0xC0) 7 0x18, ?_, ?_⟩
  · intro st e
    have h : (settingsInit .m88p (poke (poke (poke (poke (shippedEeprom .m88p) 9 1) 10 0) 6 0xC0) 7 0x18)).all
        (fun st => decide (WithinLimits .m88p { st.cache with k := st.cache.k.set 0 { st.cache.k[0] with decay := 64 } })) = true := by
      decide
    rw [e] at h
    simpa using h
  · obtain ⟨s, h, hp⟩ := from_any (ee := poke (poke (poke (poke (shippedEeprom .m88p) 9 1) 10 0) 6 0xC0) 7 0x18)
      (es := reading 50 110 ++ reading 5 0 ++ ticks 50 ++ [.adc 410])
      (P := fun s => (step .m88p s .measureWork).isNone) (by decide)
    exact ⟨s, h, by simpa using hp⟩

set_option maxRecDepth 100000 in
/-- One wrong byte in the adjustment (300 C): the sensor reads 544 C, no flag is set and the iron is heated with 5 A. -/
theorem C95_adjustment : ∃ s s' v, RunningAny .m88p s ∧
    WithinLimits .m88p { s.set.cache with adj := 0 } ∧
    s.meas.resultAvail = true ∧ s.meas.active = 1 ∧
    TempValue .m88p (s.meas.avgSum / s.meas.avgCount) 0 v ∧ 540 * 64 < v ∧
    step .m88p s .measureWork = some s' ∧ s'.cc.emerg = 0 ∧ s'.ct.emergency = false ∧ s'.cc.pid.setpoint = 5 * 640 ∧
    HeaterAt s'.ocr (5 * 640) := by
  obtain ⟨s, h, hp⟩ := from_any (ee := poke (shippedEeprom .m88p) 59 0x4B)
    (es := reading 50 450 ++ reading 5 0 ++ ticks 50 ++ [.adc 450])
    (P := fun s => decide (WithinLimits .m88p { s.set.cache with adj := 0 }) && s.meas.resultAvail && s.meas.active == 1 &&
      s.meas.avgSum / s.meas.avgCount == 450 && (step .m88p s .measureWork).any fun (s' : Sys) =>
        s'.cc.emerg == 0 && !s'.ct.emergency && s'.cc.pid.setpoint == 5 * 640 && s'.ocr == 0) (by decide)
  simp only [Bool.and_eq_true, decide_eq_true_eq, beq_iff_eq] at hp
  obtain ⟨⟨⟨⟨h1, h2⟩, h3⟩, h4⟩, h5⟩ := hp
  match e : step .m88p s .measureWork with
  | none => rw [e] at h5; cases h5
  | some s' =>
    rw [e] at h5
    simp only [Option.any_some, Bool.and_eq_true, beq_iff_eq, Bool.not_eq_true'] at h5
    obtain ⟨⟨⟨k1, k2⟩, k3⟩, k4⟩ := h5
    refine ⟨s, s', 150 * 64 + 25218 - 0, ⟨_, h⟩, h1, h2, h3, ?_, by decide, e, k1, k2, k3, by rw [k4]; decide⟩
    rw [h4]
    exact ⟨25218, by unfold NearestAway; decide, rfl⟩

end Verif.Props
