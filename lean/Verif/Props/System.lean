import Verif.Proofs.Measure
import Verif.Proofs.Demo
/-
Property theorems C40, C43, C45, C54, C55 and C59: what holds in every state of the running
firmware.
-/
namespace Verif.Props
open Verif Verif.Spec

/-! ### C40 -/

/-- The temperature controller regulates to the active preset, or to the idle set point if idle
    mode is on and that is lower. -/
theorem C40_setpoint (c : Conf) (s : Sys) (h : Running c s) :
    WantedTemp s.set.cache s.ct.idle s.ct.pid.setpoint := (Running.inv h).ct.sp

/-- pressing the iron button for `n` samples -/
private def ironFor (n : Nat) : List Ev :=
  (List.replicate n [Ev.buttonsWork 0xFE, .tick, .tick, .tick, .tick, .tick, .tick, .tick, .tick, .tick,
    .tick]).flatten

set_option maxRecDepth 100000 in
/-- A long press of the iron button in a build with idle mode lowers the set point from 350 C to
    150 C. -/
example : ∃ s, Running .m328p s ∧ s.ct.idle = true ∧ s.set.cache.sp[s.set.cache.active]? = some (350 * 64) ∧
    s.ct.pid.setpoint = 150 * 64 := by
  obtain ⟨s, h, hp⟩ := demo_any validEeprom_m328p (demo_pause (n := 995) (pinb := 0xFF)
    (es := ironFor 1) (fs := ironFor 1)
    (P := fun s => s.ct.idle && (s.set.cache.sp[s.set.cache.active]? == some (350 * 64)) &&
      s.ct.pid.setpoint == 150 * 64) validEeprom_m328p (by decide))
  simp only [Bool.and_eq_true, beq_iff_eq] at hp
  exact ⟨s, h, hp.1.1, hp.1.2, hp.2⟩

/-! ### C43 -/

/-- The temperature controller is enabled exactly outside the calibration and tuning screens. -/
theorem C43_enabled (c : Conf) (s : Sys) (h : Running c s) :
    s.ct.enabled = true ↔ Tuning s.menu.state = false := by
  rw [(Running.inv h).en]
  cases Tuning s.menu.state <;> simp

/-- While it is disabled no current is requested: the set point of the current controller is set
    to 0 when the screen is entered and stays 0. -/
theorem C43_no_demand (c : Conf) (s : Sys) (h : Running c s) (ht : Tuning s.menu.state = true) :
    s.cc.pid.setpoint = 0 := by
  have hd : s.ct.enabled = false := by rw [(Running.inv h).en, ht]; rfl
  clear ht
  induction h with
  | boot hv e =>
    obtain ⟨-, st, -, b, t, hb, -, rfl⟩ := (boot_ok hv).elim e
    exact absurd (hb.en.symm.trans hd) (by decide)
  | step hr _ hs ih =>
    rcases step_eff (Running.inv hr) hs with ⟨-, hc⟩ | ⟨-, -, p, pl, hm⟩
    · rcases hc.sp with ⟨h1, h2⟩ | h1
      · rw [h1]; exact ih (h2.symm.trans hd)
      · exact h1
    · have hact : _ < 2 := (Running.inv hr).meas.act
      rcases Nat.lt_succ_iff_lt_or_eq.mp hact with ha | ha
      · obtain ⟨-, f, hc⟩ := hm.curr (Nat.lt_one_iff.mp ha)
        rw [hc.sp]
        exact ih ((congrArg ContrTemp.enabled hc.ct :).symm.trans hd)
      · have he := (hm.temp ha).enabled.symm.trans hd
        rcases (hm.temp ha).off he with h1 | h1
        · rw [h1]; exact ih he
        · exact h1

/-- pressing and releasing the SET button -/
private def setPress : List Ev :=
  Ev.buttonsWork 0xFB :: ticks 10 ++ (.buttonsWork 0xFF :: ticks 10)

set_option maxRecDepth 100000 in
example : ∃ s, Running .m88p s ∧ s.menu.state = .adjPre ∧ s.ct.enabled = false := by
  obtain ⟨s, h, hp⟩ := demo_any (c := .m88p) (pinb := 0xFF) validEeprom_m88p
    (es := setPress ++ setPress)
    (P := fun s => s.menu.state == .adjPre && !s.ct.enabled) (by decide)
  simp only [Bool.and_eq_true, beq_iff_eq, Bool.not_eq_true'] at hp
  exact ⟨s, h, hp.1, hp.2⟩

/-! ### C45 -/

/-- All settings stay within their limits. -/
theorem C45_limits (c : Conf) (s : Sys) (h : Running c s) : WithinLimits c s.set.cache :=
  (Running.inv h).set.lim

set_option maxRecDepth 100000 in
/-- holding the PLUS button for a second raises the active preset from 350 C to 351 C -/
example : ∃ s, Running .m88p s ∧ s.set.cache.sp[s.set.cache.active]? = some (351 * 64) := by
  obtain ⟨s, h, hp⟩ := demo_any validEeprom_m88p (demo_pause (n := 1001) (pinb := 0xFF)
    (es := [.buttonsWork 0xEF]) (fs := [.menuWork, .menuWork])
    (P := fun s => s.set.cache.sp[s.set.cache.active]? == some (351 * 64)) validEeprom_m88p (by decide))
  exact ⟨s, h, by simpa using hp⟩

/-! ### C54 -/

/-- While debugging is on the display is off and has released its pins. -/
theorem C54_debug_on (c : Conf) (s : Sys) (h : Running c s) (hd : s.debugEn = true) :
    s.disp.enabled = false ∧ s.ports.v.ddrD = 0 ∧ s.ports.v.portD = 0 ∧
      s.ports.v.ddrC &&& 0x38 = 0 ∧ s.ports.v.ddrB &&& 0x80 = 0 ∧
      (∀ i, DriverOn s.ports.v i = false) ∧ s.ports.v.txen = true := by
  have hi := (Running.inv h).disp
  have he : s.disp.enabled = false := by rw [hi.en, hd]; rfl
  have hp := hi.pins
  rw [he] at hp
  refine ⟨he, hp.1, hi.portD he, hp.2.1, hp.2.2, fun i => ?_, hi.tx.trans hd⟩
  by_contra hne
  have := (hi.drv i (by simpa using hne)).1
  rw [he] at this
  cases this

/-- While debugging is off the display owns its pins and the UART does not. -/
theorem C54_debug_off (c : Conf) (s : Sys) (h : Running c s) (hd : s.debugEn = false) :
    s.disp.enabled = true ∧ s.ports.v.ddrD = 0xFF ∧ s.ports.v.ddrC &&& 0x38 = 0x38 ∧
      s.ports.v.ddrB &&& 0x80 = 0x80 ∧ s.ports.v.txen = false := by
  have hi := (Running.inv h).disp
  have he : s.disp.enabled = true := by rw [hi.en, hd]; rfl
  have hp := hi.pins
  rw [he] at hp
  exact ⟨he, hp.1, hp.2.1, hp.2.2, hi.tx.trans hd⟩

/-- No multiplexing while debugging. -/
theorem C54_no_multiplex (c : Conf) (s : Sys) (h : Running c s) (hd : s.debugEn = true) :
    step c s .displayWork = some s := by
  have he := (C54_debug_on c s h hd).1
  show (displayWork s.now s.ports s.disp).bind _ = _
  unfold displayWork
  rw [he]
  rfl

set_option maxRecDepth 100000 in
/-- booting with the SET button pressed enables debugging -/
example : ∃ s, Running .m328p s ∧ s.debugEn = true := by
  obtain ⟨s, h, hp⟩ := demo_any (c := .m328p) (pinb := 0xFB) validEeprom_m328p
    (es := []) (P := fun s => s.debugEn) (by decide)
  exact ⟨s, h, hp⟩

/-! ### C55 -/

/-- Booting is never undefined. -/
theorem C55_boot (c : Conf) (ee : Nat → Nat) (pinb : BitVec 8) (h : ValidEeprom c ee) :
    ∃ s, boot c ee pinb = some s := by
  obtain ⟨s, e, -⟩ := boot_ok (pinb := pinb) h
  exact ⟨s, e⟩

/-- No event the hardware can produce is ever undefined. -/
theorem C55_step (c : Conf) (s : Sys) (e : Ev) (h : Running c s) (hp : possible s e = true) :
    ∃ s', step c s e = some s' := by
  obtain ⟨s', e', -⟩ := (Running.inv h).step hp
  exact ⟨s', e'⟩

example : ValidEeprom .m88p (shippedEeprom .m88p) := validEeprom_m88p
example : ValidEeprom .m328p (shippedEeprom .m328p) := validEeprom_m328p

/-! ### C59 -/

/-- After initialisation the heater is off, the current controller is enabled, restricted and
    without emergency, the temperature controller regulates to the active preset, the adjustment is
    in force, and the temperature is measured first. -/
theorem C59_boot (c : Conf) (ee : Nat → Nat) (pinb : BitVec 8) (s : Sys) (h : ValidEeprom c ee)
    (e : boot c ee pinb = some s) :
    HeaterOff s.ocr ∧ s.cc.enabled = true ∧ s.cc.restricted = true ∧ s.cc.emerg = 0 ∧
    s.cc.pid.setpoint = 0 ∧ s.ct.enabled = true ∧ s.ct.emergency = false ∧ s.ct.idle = false ∧
    (∃ st, settingsInit c ee = some st ∧ s.set = st ∧
      st.cache.sp[st.cache.active]? = some s.ct.pid.setpoint ∧
      st.cache.k[0]? = some s.ct.pid.k ∧
      s.meas.chan[1].adj = adjInForce c st.cache) ∧
    s.meas.chan[0].adj = 0 ∧ s.meas.active = 1 ∧ s.meas.adcOn = true ∧ s.meas.avgCount = 0 := by
  obtain ⟨hi, st, e1, b, t, hb, ⟨hs, -⟩, rfl⟩ := (boot_ok h).elim e
  obtain ⟨p, k1, k2⟩ := hb.ct.sp
  rw [hb.idle] at k2
  refine ⟨hb.ocr, ?_, ?_, ?_, ?_, hb.en, hb.emerg, hb.idle,
    ⟨st, e1, hs, ?_, ?_, ?_⟩, hb.meas.adj0, rfl, rfl, rfl⟩
  · show b.cc.enabled = true; rw [hb.cc]; rfl
  · show b.cc.restricted = true; rw [hb.cc]; rfl
  · show b.cc.emerg = 0; rw [hb.cc]; rfl
  · show b.cc.pid.setpoint = 0; rw [hb.cc]; rfl
  · rw [← hs]; exact k1.trans (congrArg some k2.symm)
  · rw [← hs, ← hb.boost]; exact hb.ct.k
  · rw [← hs]; exact hb.meas.adj1

set_option maxRecDepth 100000 in
/-- the shipped EEPROM: preset 350 C -/
example : (demo .m88p 0xFF []).any (fun s => s.ct.pid.setpoint == 350 * 64 && s.ocr == 0x1FFF) = true := by
  decide

end Verif.Props
