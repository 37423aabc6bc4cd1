import Verif.Spec.Sys
import Verif.Proofs.Safe
import Verif.Proofs.Pid
import Verif.Proofs.Timer
import Verif.Proofs.Settings
import Verif.Props.Scale
/-
The invariant of the running firmware, component by component, and defining equations of the
small operations.
-/
namespace Verif
open Spec

/-- settings module -/
structure SetInv (c : Conf) (s : SettingsSt) : Prop where
  lim : WithinLimits c s.cache
  off : s.eerie = true → s.eeOff < 64
  idx : s.eeIndex < c.nrEe

/-- measurement -/
structure MeasInv (m : Meas) (adj : Int) : Prop where
  act : m.active < 2
  cnt : 0 ≤ m.avgCount ∧ m.avgCount ≤ 65535
  sum : 0 ≤ m.avgSum ∧ m.avgSum ≤ 1023 * m.avgCount
  avail : m.resultAvail = true → 0 < m.avgCount
  conv : m.adcOn = true → m.resultAvail = false
  adj0 : m.chan[0].adj = 0
  adj1 : m.chan[1].adj = adj

/-- current controller and heater output -/
structure CcInv (cc : ContrCurr) (ocr : Int) : Prop where
  en : cc.enabled = true
  k : cc.pid.k = contrcurrFactors
  lim : cc.pid.iNeg = -320 ∧ cc.pid.iPos = 320 ∧ cc.pid.yNeg = 0 ∧ cc.pid.yPos = 3200
  sp : 0 ≤ cc.pid.setpoint ∧ cc.pid.setpoint ≤ 3200
  range : PidRange cc.pid
  prevY : 0 ≤ cc.prevY ∧ cc.prevY ≤ 3200
  model0 : 0 ≤ cc.model
  model : cc.rState = .disabled → 2 * cc.model < 2 * (3200 * 16) + 16
  model' : 2 * cc.model < 2 * (3200 * 24) + 24
  duty : ∃ y, (0 ≤ y ∧ y ≤ 3200) ∧ pwmDuty y = some ocr
  off : cc.emerg ≠ 0 → ocr = 0x1FFF

/-- temperature controller, given the settings in force -/
structure CtInv (c : Conf) (x : Settings) (ct : ContrTemp) : Prop where
  lim : ct.pid.iNeg = -1920 ∧ ct.pid.iPos = 5120 ∧ ct.pid.yNeg = 0 ∧ ct.pid.yPos = 30720
  range : PidRange ct.pid
  boost : ct.boost < c.nrBoost
  k : x.k[ct.boost]? = some ct.pid.k
  sp : WantedTemp x ct.idle ct.pid.setpoint
  fb : -1280 ≤ ct.feedback ∧ ct.feedback ≤ 32000
  idle : c.idle = false → ct.idle = false

/-- the ramp handler that belongs to a screen -/
def handlerFor : MenuState → Option RampHandler
  | .curtemp | .selpreset | .chgpreset => some .settemp
  | .idletemp => some .idletemp
  | .adj => some .adj
  | .kp => some .kp
  | .ki => some .ki
  | .kd => some .kd
  | _ => none

/-- menu -/
structure MenuInv (c : Conf) (m : Menu) : Prop where
  screen : ScreenExists c m.state = true
  ramp : m.ramp ≠ .none → m.handler = handlerFor m.state ∧ (handlerFor m.state).isSome = true
  period : 0 ≤ m.period ∧ m.period ≤ 400
  err : m.dispErr ≤ 3

/-- display, shared pins and debug UART -/
structure DispInv (c : Conf) (d : Display) (v : PortVals) (dbg : Bool) : Prop where
  mux : d.mux < 4
  io : ∀ i (h : i < 4), d.digit[i].sseg.iomap = some digitIomaps[i] ∧ d.digit[i].sseg.enMask = 0xFF
  en : d.enabled = !dbg
  nodbg : c.debug = false → dbg = false
  tx : v.txen = dbg
  drv : ∀ i, DriverOn v i = true → d.enabled = true ∧ i = d.mux
  pins : v.ddrD = (if d.enabled then 0xFF else 0) ∧
    v.ddrC &&& 0x38 = (if d.enabled then 0x38 else 0) ∧
    v.ddrB &&& 0x80 = (if d.enabled then 0x80 else 0)
  portD : d.enabled = false → v.portD = 0
  fixed : v.ddrB &&& 0x7F = 0x02 ∧ v.portB &&& 0x7F = 0x7F ∧ v.ddrC &&& 0xC7 = 0 ∧ v.portC &&& 0xC7 = 1

/-- the invariant of the running firmware -/
structure Inv (c : Conf) (s : Sys) : Prop where
  now : 0 ≤ s.now ∧ s.now ≤ 65535
  set : SetInv c s.set
  meas : MeasInv s.meas (if c.adj then s.set.cache.adj else 0)
  mcurr : 0 ≤ s.mcurr.prevFeedback ∧ s.mcurr.prevFeedback ≤ 3200
  mt : -1280 ≤ s.mtPrev ∧ s.mtPrev ≤ 32000
  cc : CcInv s.cc s.ocr
  ct : CtInv c s.set.cache s.ct
  emerg : s.ct.emergency = true → s.cc.pid.setpoint = 0
  restr : s.cc.restricted = decide (s.mtPrev < 6400)
  menu : MenuInv c s.menu
  en : s.ct.enabled = !Tuning s.menu.state
  dbg : s.debugEn = true → s.menu.state = .debug
  disp : DispInv c s.disp s.ports.v s.debugEn

/-- what the controllers and the measurement evaluation leave alone -/
structure Frame (s s' : Sys) : Prop where
  meas : s'.meas = s.meas
  now : s'.now = s.now
  set : s'.set = s.set
  disp : s'.disp = s.disp
  ports : s'.ports = s.ports
  debugEn : s'.debugEn = s.debugEn
  btn : s'.btn = s.btn
  menu : ∃ u, s'.menu = { s.menu with updReq := u }

theorem Frame.refl (s : Sys) : Frame s s := ⟨rfl, rfl, rfl, rfl, rfl, rfl, rfl, s.menu.updReq, rfl⟩

theorem Frame.trans {a b d : Sys} (h1 : Frame a b) (h2 : Frame b d) : Frame a d where
  meas := h2.meas.trans h1.meas
  now := h2.now.trans h1.now
  set := h2.set.trans h1.set
  disp := h2.disp.trans h1.disp
  ports := h2.ports.trans h1.ports
  debugEn := h2.debugEn.trans h1.debugEn
  btn := h2.btn.trans h1.btn
  menu := by
    obtain ⟨u, e⟩ := h1.menu
    obtain ⟨v, e'⟩ := h2.menu
    exact ⟨v, by rw [e', e]⟩

/-! ### equations of the small operations -/

theorem timerArm_eq (now : Int) {ms : Int} (h0 : 0 ≤ ms) (h1 : ms ≤ 32767) :
    timerArm now ms = some (toU16 (now + toU16 ms)) := by
  simp only [timerArm, timerMsToCount_eq h0 h1, Option.bind_eq_bind, Option.bind_some, pure]

theorem timerAdd_eq (t : Int) {ms : Int} (h0 : 0 ≤ ms) (h1 : ms ≤ 32767) :
    timerAdd t ms = some (toU16 (t + toU16 ms)) := by
  simp only [timerAdd, timerMsToCount_eq h0 h1, Option.bind_eq_bind, Option.bind_some, pure]

/-- the settings state after a store request -/
def requested (now : Int) (s : SettingsSt) : SettingsSt :=
  { s with storeRequest := true, storeTimer := toU16 (now + toU16 1000) }

theorem sysStore_eq (s : Sys) : sysStore s = some { s with set := requested s.now s.set } := by
  unfold sysStore storeSettings
  rw [timerArm_eq s.now (by decide) (by decide)]
  rfl

theorem elapsedDt_ok (now t : Int) : ∃ dt, elapsedDt now t = some dt ∧ dt.natAbs ≤ 2097 := by
  have hr : S16 (timerCountSince now t) := by unfold timerCountSince; exact toS16_range _
  have e1 := timerCountToMs_eq hr
  generalize hx : timerCountSince now t = x at *
  unfold S16 at hr
  have e2 : intToFixpt x = some (x * 64) := by
    simp only [intToFixpt, intToFixptBig, ck32_eq (x := x * 64) (by unfold S32; omega),
      Option.bind_eq_bind, Option.bind_some, fixptDeflate_eq, pure]
    rw [sat_eq (by omega) (by omega)]
  have e3 : intToFixpt 1000 = some 64000 := by decide
  have e4 := fixptDiv_eq (a := x * 64) (b := 64000) (by unfold S24; omega) (by decide) (by decide)
  have hb : (rdiv (x * 64 * 64) 64000).natAbs ≤ 2097 := by
    rw [rdiv_pos _ _ (by decide)]; split <;> omega
  refine ⟨_, ?_, hb⟩
  simp only [elapsedDt, timerMsSince, hx, e1, e2, e3, e4, Option.bind_eq_bind, Option.bind_some]
  rw [sat_eq (by omega) (by omega)]

theorem pwmcurrSet_ok (s : Sys) {y : Int} (h : 0 ≤ y ∧ y ≤ 3200) :
    ∃ d, pwmDuty y = some d ∧ pwmcurrSet s y = some { s with ocr := d } := by
  obtain ⟨d, hd, _⟩ := Props.C13_defined y h
  exact ⟨d, hd, by simp only [pwmcurrSet, hd, Option.bind_eq_bind, Option.bind_some, pure]⟩

theorem pwmcurrSet_zero (s : Sys) : pwmcurrSet s 0 = some { s with ocr := 0x1FFF } := by
  simp only [pwmcurrSet, Props.C13_endpoints.1, Option.bind_eq_bind, Option.bind_some, pure]

end Verif
