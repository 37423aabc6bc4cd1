import Verif.Model.Main
/-
The work functions with ticks of the timer inside them.  Model/Main takes the time to be constant during a work
function; here any number of ticks may come before each of the places where a function reads the timer
(`timer_now`, timer.c:35-45).  Between two of these places the functions do not depend on the time, so it does
not matter where exactly a tick comes.  Everything else is as in the modules without ticks.
-/
namespace Verif

/-- A computation which takes, for each reading of the timer, the number of ticks since the previous reading (or the
    beginning of the call) from a list; after its end no more ticks come. -/
abbrev TM := StateT (List Nat) Option

/-- timer.c:29-33: the ticks before the next reading of the timer -/
def tickIn (s : Sys) : TM Sys := fun g => some ({ s with now := toU16 (s.now + g.headD 0) }, g.tail)

/-- settings.c:174-178 `store_settings`: reads the timer once (line 177) -/
def sysStoreT (s : Sys) : TM Sys := do
  let s ← tickIn s
  sysStore s

/-- controller_current.c:83-157 `contrcurr_run`: reads the timer for the time step (line 93) and to remember the
    time (line 95) -/
def contrcurrRunT (s : Sys) (realR : Int) : TM Sys :=
  if !s.cc.enabled then pure s
  else if s.cc.emerg ≠ 0 then pure s
  else do
    let s ← tickIn s
    let dt ← elapsedDt s.now s.cc.timer
    let s ← tickIn s
    let (r, rState, model) ← contrcurrSelect s.cc realR
    let (pid, y) ← pidRun s.cc.pid dt r
    let y := if s.cc.restricted then (if y > 1280 then 1280 else y) else y
    pwmcurrSet { s with cc := { s.cc with timer := timerSetNow s.now, rState := rState,
                                          model := model, pid := pid, prevY := y } } y

/-- controller_current.c:159-169 `contrcurr_set_feedback` -/
def contrcurrSetFeedbackT (s : Sys) (r : Int) : TM Sys :=
  contrcurrRunT { s with cc := { s.cc with feedback := r } } r

/-- controller_temp.c:127-169 `contrtemp_run`: reads the timer for the time step (line 138) and to remember the
    time (line 140) -/
def contrtempRunT (s : Sys) (r : Int) : TM Sys :=
  if !s.ct.enabled then pure s
  else if s.ct.emergency then pure s
  else do
    let s ← tickIn s
    let dt ← elapsedDt s.now s.ct.dtTimer
    let s ← tickIn s
    let (pid, y) ← pidRun s.ct.pid dt r
    let s := { s with ct := { s.ct with dtTimer := timerSetNow s.now, pid := pid } }
    let yCurrent ← tempToAmps y
    let flags := s.cc.emerg
    let (flags, yCurrent) :=
      if r > 30720 then (flags ||| 2#8, CURR_NEGLIM) else (flags &&& ~~~2#8, yCurrent)
    let s ← contrcurrSetEmerg s flags
    return contrcurrSetSetpoint s yCurrent

/-- controller_temp.c:171-182 `contrtemp_set_feedback` -/
def contrtempSetFeedbackT (s : Sys) (r : Int) : TM Sys :=
  let s := if r ≠ s.ct.feedback then menuRequestUpdate { s with ct := { s.ct with feedback := r } }
           else s
  contrtempRunT s r

/-- controller_temp.c:205-215 `contrtemp_set_idle_setpoint` -/
def contrtempSetIdleSetpointT (c : Conf) (s : Sys) (w : Int) : TM Sys :=
  if c.idle then do
    let s := setCache s { s.set.cache with idleSp := w }
    let s ← contrtempUpdateSetpoint s
    sysStoreT s
  else pure s

/-- controller_temp.c:217-227 `do_set_enabled`: reads the timer once (line 223) -/
def contrtempDoSetEnabledT (c : Conf) (s : Sys) (enabled : Bool) : TM Sys := do
  let s ← tickIn s
  contrtempDoSetEnabled c s enabled

/-- controller_temp.c:229-233 `contrtemp_set_enabled` -/
def contrtempSetEnabledT (c : Conf) (s : Sys) (enabled : Bool) : TM Sys :=
  if s.ct.enabled ≠ enabled then contrtempDoSetEnabledT c s enabled else pure s

/-- controller_temp.c:285-308 `contrtemp_button_handler` with boost and idle: reads the timer on a press (line 294)
    and while the button is down (line 300); the other variants (lines 310-346) do not read it -/
def contrtempButtonT (c : Conf) (s : Sys) (b : Button) (e : BState) : TM Sys :=
  if c.boost ∧ c.idle ∧ b = .iron ∧ (e = .posedge ∨ (e = .pressed ∧ s.ct.biLet ∧ !s.ct.idle)) then do
    let s ← tickIn s
    contrtempButton c s b e
  else contrtempButton c s b e

/-- presets.c:31-38 `presets_store` -/
def presetsStoreT (s : Sys) : TM Sys := do
  let s ← sysStoreT s
  let s ← contrtempUpdateSetpoint s
  return menuRequestUpdate s

/-- presets.c:86-96 `presets_set_active_value` -/
def presetsSetActiveT (s : Sys) (v : Int) : TM Sys := do
  let x ← s.set.cache.presetsSet v
  presetsStoreT (setCache s x)

/-- measure.c:183-202 `adc_trigger_next_chan`: reads the timer once (line 196) -/
def adcTriggerNextT (c : Conf) (s : Sys) : TM Sys := do
  let s ← tickIn s
  let m ← adcTriggerNext c s.now s.meas
  return { s with meas := m }

/-- measure.c:234-265 adjustment, plausibility check and plausibility timeout of one channel: reads the timer when
    it starts the timeout (line 255) and when it looks at it (line 261) -/
def measPlausT (c : Conf) (cfg : MeasConfig) (s : Sys) (ch : MeasChan) (phys : Int) :
    TM (Sys × MeasChan × Int × Plaus) := do
  let phys ← if c.adj then fixptSub phys ch.adj else some phys
  let (ch, phys, plaus) :=
    if phys < cfg.negLim then (ch, cfg.negLim, Plaus.notPlausible)
    else if phys > cfg.posLim then (ch, cfg.posLim, Plaus.notPlausible)
    else ({ ch with timerRunning := false, plausTimeout := false }, phys, Plaus.plausible)
  let (s, ch) ← if plaus ≠ .plausible ∧ !ch.timerRunning then do
      let s ← tickIn s
      let t ← timerArm s.now cfg.timeoutMs
      pure (s, { ch with timer := t, timerRunning := true })
    else pure (s, ch)
  let (s, ch) ← if ch.timerRunning then do
      let s ← tickIn s
      pure (s, if timerExpired s.now ch.timer then { ch with plausTimeout := true } else ch)
    else pure (s, ch)
  return (s, ch, phys, if ch.plausTimeout then .timeout else plaus)

/-- measure.c:204-265 `measure_handle_result` up to the call of the user handler -/
def measHandleT (c : Conf) (s : Sys) : TM (Sys × Int × Plaus) := do
  let cfg ← measConfig c s.meas.active
  let raw ← measRaw s.meas
  let (mc, raw) := if s.meas.active = 0 then meascurrFilter s.mcurr raw else (s.mcurr, raw)
  let phys ← scale (toS16 raw) (toS16 cfg.rawLo) (toS16 cfg.rawHi) cfg.physLo cfg.physHi
  if h : s.meas.active < 2 then do
    let (s', ch, phys, plaus) ← measPlausT c cfg s s.meas.chan[s.meas.active] phys
    return ({ s' with meas := { s.meas with chan := s.meas.chan.set s.meas.active ch }, mcurr := mc }, phys, plaus)
  else failure

/-- measure_temp.c:61-81 `meastemp_result_handler` -/
def meastempResultT (s : Sys) (phys : Int) (plaus : Plaus) : TM Sys :=
  let s := match plaus with
    | .plausible => contrtempSetEmerg s false
    | .timeout => contrtempSetEmerg s true
    | .notPlausible => s
  match plaus with
  | .plausible =>
    let s := { s with mtPrev := phys }
    let s := contrcurrSetRestricted s (phys < 6400)
    contrtempSetFeedbackT s phys
  | .notPlausible => contrtempSetFeedbackT s s.mtPrev
  | .timeout => pure s

/-- measure_current.c:78-101 `meascurr_result_handler` -/
def meascurrResultT (s : Sys) (phys : Int) (plaus : Plaus) : TM Sys := do
  let flags := s.cc.emerg
  let flags := match plaus with
    | .plausible => flags &&& ~~~1#8
    | .timeout => flags ||| 1#8
    | .notPlausible => flags
  let s ← contrcurrSetEmerg s flags
  let s ← match plaus with
    | .plausible => contrcurrSetFeedbackT { s with mcurr := { s.mcurr with prevFeedback := phys } } phys
    | .notPlausible => contrcurrSetFeedbackT s s.mcurr.prevFeedback
    | .timeout => pure s
  return { s with mcurr := { s.mcurr with initialized := true } }

/-- measure.c:295-308 `measure_work` -/
def measureWorkT (c : Conf) (s : Sys) : TM Sys :=
  let avail := s.meas.resultAvail
  let s := { s with meas := { s.meas with resultAvail := false } }
  if avail then do
    let (s, phys, plaus) ← measHandleT c s
    let s ← if s.meas.active = 1 then meastempResultT s phys plaus else meascurrResultT s phys plaus
    adcTriggerNextT c s
  else pure s

/-- measure_temp.c:43-51 `meastemp_adjust_set` -/
def meastempAdjustSetT (c : Conf) (s : Sys) (a : Int) : TM Sys :=
  if c.adj then do
    let s := measureAdjustSet c s a
    let s := setCache s { s.set.cache with adj := a }
    let s ← sysStoreT s
    return menuRequestUpdate s
  else pure s

/-- debug_uart.c:215-231 `debug_enable`: `display_enable` reads the timer once, when it switches the display on
    (display.c:184) -/
def debugEnableT (c : Conf) (s : Sys) (enable : Bool) : TM Sys := do
  let s ← tickIn s
  debugEnable c s enable

/-- `timer_arm(&menu.timeout, ms)` -/
def menuArmT (s : Sys) (ms : Int) : TM Sys := do
  let s ← tickIn s
  menuArm s ms

/-- menu.c:374-413 the actions on entering a screen -/
def menuEnterT (c : Conf) (s : Sys) : MenuState → TM Sys
  | .selpreset => menuArmT s 3000
  | .chgpreset => menuArmT s 3000
  | .idletemp => menuArmT s 3000
  | .adjPre =>
    if !c.adj then pure s
    else do
      let s ← menuArmT s 1500
      contrtempSetEnabledT c s false
  | .adj => if !c.adj then pure s else contrtempSetEnabledT c s false
  | .kpPre | .kiPre | .kdPre =>
    if !c.kconf then pure s
    else do
      let s ← menuArmT s 1500
      contrtempSetEnabledT c s false
  | .kp | .ki | .kd => if !c.kconf then pure s else contrtempSetEnabledT c s false
  | .curtemp => contrtempSetEnabledT c s true
  | .debug => pure s

/-- menu.c:368-416 `menu_set_state` -/
def menuSetStateT (c : Conf) (s : Sys) (new : MenuState) : TM Sys :=
  if s.menu.state = new then pure s
  else do
    let s ← menuEnterT c { s with menu := { s.menu with state := new } } new
    return menuRequestUpdate s

/-- menu.c:456-462 `do_ramp_k` -/
def doRampKT (c : Conf) (s : Sys) (get : PidK → Int) (put : PidK → Int → PidK) (inc hi : Int)
    (up : Bool) : TM Sys := do
  let b := s.ct.boost
  if h : b < 3 then do
    let k := s.set.cache.k[b]
    let step ← if up then some inc else fixptNeg inc
    let v ← fixptAddLimited (get k) step 0 hi
    let s := setCache s { s.set.cache with k := s.set.cache.k.set b (put k v) }
    let s ← sysStoreT s
    contrtempUpdatePidConfig c s
  else failure

/-- the ramp handlers (menu.c:432-494) -/
def rampHandlerT (c : Conf) (s : Sys) (h : RampHandler) (up : Bool) : TM Sys :=
  match h with
  | .settemp => do
    let sp ← s.set.cache.presetsGet
    let sp ← doRampTemp sp up 0 30720
    let s ← presetsSetActiveT s sp
    menuSetStateT c s .chgpreset
  | .idletemp => do
    let sp ← doRampTemp s.set.cache.idleSp up 0 30720
    contrtempSetIdleSetpointT c s sp
  | .adj => do
    let a ← doRampTemp (measureAdjustGet c s) up (-6336) 6336
    meastempAdjustSetT c s a
  | .kp => doRampKT c s (·.kp) (fun k v => { k with kp := v }) 2 6336 up
  | .ki => doRampKT c s (·.ki) (fun k v => { k with ki := v }) 1 576 up
  | .kd => doRampKT c s (·.kd) (fun k v => { k with kd := v }) 2 6336 up

/-- menu.c:496-507 `start_ramping`: reads the timer for the waiting time (line 500) and for the first step
    (line 506) -/
def startRampingT (s : Sys) (up pre : Bool) (h : Option RampHandler) : TM Sys := do
  let s ← if pre then do
      let s ← tickIn s
      let t ← timerArm s.now 1000
      pure { s with menu := { s.menu with ramp := if up then .preUp else .preDown, rampPreTimer := t } }
    else pure { s with menu := { s.menu with ramp := if up then .up else .down } }
  let s ← tickIn s
  return { s with menu := { s.menu with handler := h, period := 400, rampTimer := timerSetNow s.now } }

/-- menu.c:509-520 `start_ramping_button` -/
def startRampingButtonT (s : Sys) (b : Button) (e : BState) (pre : Bool) (h : RampHandler) : TM Sys :=
  if e = .posedge then
    if b = .minus then startRampingT s false pre (some h)
    else if b = .plus then startRampingT s true pre (some h)
    else pure s
  else pure s

/-- menu.c:537-622 the part of the button handler that depends on the screen -/
def menuButtonScreenT (c : Conf) (s : Sys) (b : Button) (e : BState) : TM Sys :=
  match s.menu.state with
  | .curtemp => do
    let s ← startRampingButtonT s b e true .settemp
    if e = .negedge ∧ b ≠ .set then menuSetStateT c s .selpreset else return s
  | .selpreset => do
    let s ← menuArmT s 3000
    let s ← if e = .negedge then do
        let s ← if b = .plus then presetsStoreT (setCache s s.set.cache.presetsNext) else pure s
        if b = .minus then presetsStoreT (setCache s s.set.cache.presetsPrev) else pure s
      else pure s
    startRampingButtonT s b e true .settemp
  | .chgpreset => do
    let s ← menuArmT s 3000
    startRampingButtonT s b e false .settemp
  | .idletemp =>
    if !c.idle then pure s
    else do
      let s ← menuArmT s 3000
      startRampingButtonT s b e false .idletemp
  | .debug =>
    if !c.debug then pure s
    else if e = .posedge then do
      let s ← if b = .plus then debugEnableT c s true else pure s
      if b = .minus then do
        let s ← debugEnableT c s false
        return menuRequestUpdate s
      else return s
    else pure s
  | .adjPre | .kpPre | .kiPre | .kdPre => pure s
  | .adj => if !c.adj then pure s else startRampingButtonT s b e false .adj
  | .kp => if !c.kconf then pure s else startRampingButtonT s b e false .kp
  | .ki => if !c.kconf then pure s else startRampingButtonT s b e false .ki
  | .kd => if !c.kconf then pure s else startRampingButtonT s b e false .kd

/-- menu.c:531-634 `menu_button_handler` -/
def menuButtonT (c : Conf) (s : Sys) (b : Button) (e : BState) : TM Sys :=
  if b = .iron then pure s
  else do
    let s ← menuButtonScreenT c s b e
    if e = .negedge then
      let s := stopRamping s
      if b = .set then
        if !s.debugEn then menuSetStateT c s (nextMenuState c s.menu.state) else return s
      else return s
    else return s

/-- menu.c:643-668 the menu timeouts: reads the timer once in the screens with a timeout (line 659) -/
def menuTimeoutsT (c : Conf) (s : Sys) : TM Sys :=
  match s.menu.state with
  | .curtemp | .debug | .adj | .kp | .ki | .kd => pure s
  | .adjPre | .kpPre | .kiPre | .kdPre | .selpreset | .chgpreset | .idletemp => do
    let s ← tickIn s
    if timerExpired s.now s.menu.timeout then do
      let s ← if s.menu.state = .idletemp then menuSetStateT c s .curtemp
        else menuSetStateT c s (nextMenuState c s.menu.state)
      return stopRamping s
    else return s

/-- menu.c:689-707 the ramping: reads the timer once (line 694 or 699) before the ramp handler -/
def menuRampT (c : Conf) (s : Sys) : TM Sys :=
  match s.menu.ramp with
  | .none => pure s
  | .preUp | .preDown => do
    let s ← tickIn s
    if timerExpired s.now s.menu.rampPreTimer then
      startRampingT s (s.menu.ramp = .preUp) false s.menu.handler
    else return s
  | .up | .down => do
    let s ← tickIn s
    if timerExpired s.now s.menu.rampTimer then do
      let h ← s.menu.handler
      let s ← rampHandlerT c s h (s.menu.ramp = .up)
      let t ← timerAdd s.menu.rampTimer s.menu.period
      return { s with menu := { s.menu with
        updReq := true, rampTimer := t,
        period := if s.menu.period > 25 then s.menu.period / 2 else s.menu.period } }
    else return s

/-- menu.c:637-716 `menu_work` -/
def menuWorkT (c : Conf) (s : Sys) : TM Sys := do
  let s ← menuTimeoutsT c s
  let s := menuIndicate s
  let s ← menuRampT c s
  menuRefresh c s

/-- buttons.c:89-93 `call_button_handlers` -/
def callButtonHandlersT (c : Conf) (s : Sys) (x : Button × BState) : TM Sys := do
  let s ← contrtempButtonT c s x.1 x.2
  menuButtonT c s x.1 x.2

/-- buttons.c:95-122 `buttons_work`: reads the timer for the debouncing (line 101) and in the handlers -/
def buttonsWorkT (c : Conf) (s : Sys) (pinb : BitVec 8) : TM Sys := do
  let s ← tickIn s
  let (b, calls) ← buttonsSample s.now s.btn pinb
  calls.foldlM (callButtonHandlersT c) { s with btn := b }

/-- The work functions called by the main loop (main.c:84-90), with ticks inside; `display_work` (display.c:156) and
    `settings_work` (settings.c:184) read the timer once.  The interrupts are not work functions. -/
def workT (c : Conf) (s : Sys) : Ev → TM Sys
  | .measureWork => measureWorkT c s
  | .menuWork => menuWorkT c s
  | .buttonsWork pinb => buttonsWorkT c s pinb
  | .displayWork => do
    let s ← tickIn s
    step c s .displayWork
  | .settingsWork => do
    let s ← tickIn s
    step c s .settingsWork
  | _ => failure

end Verif
