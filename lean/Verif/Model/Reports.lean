import Verif.Model.Debug
/-
Model of the debug reports which the measurement and the controllers make: the calls of `debug_report_…` in
measure.c, measure_current.c, controller_current.c, controller_temp.c and pid.c, with the variables `old_…` in which the
value reported last is remembered.  The functions of Model/Pid, Model/ContrCurr, Model/ContrTemp and Model/Measure are
repeated here with the list of the reports that they make.  The only other call, `debug_print_int16` for "tb"
(controller_temp.c:87), is not made by `measure_work` and is not modelled here.
-/
namespace Verif

/-- pid.h:30-34, pid.c:51, 61, 73, 85, 87: the values reported by a PID controller -/
inductive Term where
  | e | p | i | d | pe
  deriving DecidableEq, Repr

/-- The variables that remember what was reported last: controller_current.c:67-70, controller_temp.c:59-61,
    measure.c:52 (`mc`: current, `mt`: temperature), measure_current.c:41 (`fc`), and pid.h:30-34 of both controllers. -/
inductive Slot where
  | cr1 | cr2 | rs | cy | tr | ty1 | ty2 | mc | mt | fc
  | pidC (t : Term)
  | pidT (t : Term)
  deriving DecidableEq, Repr

/-- pid.c:51, 61, 73, 85, 87: the second part of the name -/
def Term.name : Term → List Nat
  | .e => [101]
  | .p => [112]
  | .i => [105]
  | .d => [100]
  | .pe => [112, 101]

/-- The names: controller_current.c:135-164, controller_temp.c:145-176, measure.c:220 with measure_current.c:106 and
    measure_temp.c:86, measure_current.c:69; pid.c:51-87 with controller_current.c:234 "pid-c" and controller_temp.c:359
    "pid-t" -/
def Slot.names : Slot → List Nat × Option (List Nat)
  | .cr1 => ([99, 114, 49], none)
  | .cr2 => ([99, 114, 50], none)
  | .rs => ([114, 115], none)
  | .cy => ([99, 121], none)
  | .tr => ([116, 114], none)
  | .ty1 => ([116, 121, 49], none)
  | .ty2 => ([116, 121, 50], none)
  | .mc => ([109, 99], none)
  | .mt => ([109, 116], none)
  | .fc => ([102, 99], none)
  | .pidC t => ([112, 105, 100, 45, 99], some t.name)
  | .pidT t => ([112, 105, 100, 45, 116], some t.name)

/-- controller_current.c:46-50, 136: the number of the state, as `int8_t` -/
def RState.code : RState → Int
  | .disabled => 0
  | .syncing => 1
  | .enabled => 2

/-- the remembered values and the UART -/
structure Dbg where
  old : Slot → Int
  uart : Uart

/-- one call of `debug_report_…` (debug_uart.c:155-208) -/
def report (now : Int) (d : Dbg) (call : Slot × Int) : Option Dbg := do
  let (old, u) ← reportInt now.toNat d.uart (some call.1.names.1) call.1.names.2 (d.old call.1) call.2
  return { old := fun x => if x = call.1 then old else d.old x, uart := u }

/-- several calls, one after the other -/
def reports (now : Int) (d : Dbg) : List (Slot × Int) → Option Dbg
  | [] => some d
  | x :: xs => do
    let d ← report now d x
    reports now d xs

/-- pid.c:40-94 `pid_run` with its reports -/
def pidRunR (p : Pid) (dt r : Int) : Option (Pid × Int × List (Term × Int)) := do
  let e ← fixptSub p.setpoint r
  let calls := [(Term.e, e)]  -- line 51
  -- P term
  let pt ← fixptMul p.k.kp e
  let calls := calls ++ [(Term.p, pt)]  -- line 61
  -- I term
  let kie ← fixptMul p.k.ki e
  let inc ← fixptMul kie dt
  let i ← fixptAdd p.integr inc
  let i := cClamp i p.iNeg p.iPos
  let res ← fixptAdd pt i
  let calls := calls ++ [(Term.i, i)]  -- line 73
  -- D term
  let de ← fixptSub e p.prevE
  let d ← fixptMulDiv de p.k.kd dt
  let pe ← fixptDiv e p.k.decay
  let res ← fixptAdd res d
  let calls := calls ++ [(Term.d, d), (Term.pe, pe)]  -- lines 85-88
  return ({ p with integr := i, prevE := pe }, cClamp res p.yNeg p.yPos, calls)

/-- controller_current.c:83-157 `contrcurr_run` with its reports -/
def contrcurrRunR (s : Sys) (realR : Int) : Option (Sys × List (Slot × Int)) :=
  if !s.cc.enabled then some (s, [])
  else if s.cc.emerg ≠ 0 then some (s, [])
  else do
    let dt ← elapsedDt s.now s.cc.timer
    let (r, rState, model) ← contrcurrSelect s.cc realR
    let calls := [(Slot.rs, rState.code), (Slot.cr2, r)]  -- lines 135-138
    let (pid, y, terms) ← pidRunR s.cc.pid dt r
    let calls := calls ++ terms.map fun x => (Slot.pidC x.1, x.2)
    let y := if s.cc.restricted then (if y > 1280 then 1280 else y) else y
    let calls := calls ++ [(Slot.cy, y)]  -- lines 150-151
    let s ← pwmcurrSet { s with cc := { s.cc with timer := timerSetNow s.now, rState := rState,
                                                  model := model, pid := pid, prevY := y } } y
    return (s, calls)

/-- controller_current.c:159-169 `contrcurr_set_feedback` with its reports -/
def contrcurrSetFeedbackR (s : Sys) (r : Int) : Option (Sys × List (Slot × Int)) := do
  let calls := if r ≠ s.cc.feedback then [(Slot.cr1, r)] else []  -- lines 161-165
  let (s, more) ← contrcurrRunR { s with cc := { s.cc with feedback := r } } r
  return (s, calls ++ more)

/-- controller_temp.c:127-169 `contrtemp_run` with its reports -/
def contrtempRunR (s : Sys) (r : Int) : Option (Sys × List (Slot × Int)) :=
  if !s.ct.enabled then some (s, [])
  else if s.ct.emergency then some (s, [])
  else do
    let dt ← elapsedDt s.now s.ct.dtTimer
    let (pid, y, terms) ← pidRunR s.ct.pid dt r
    let s := { s with ct := { s.ct with dtTimer := timerSetNow s.now, pid := pid } }
    let calls := terms.map fun x => (Slot.pidT x.1, x.2)
    let calls := calls ++ [(Slot.ty1, y)]  -- line 145
    let yCurrent ← tempToAmps y
    let flags := s.cc.emerg
    let (flags, yCurrent) :=
      if r > 30720 then (flags ||| 2#8, CURR_NEGLIM) else (flags &&& ~~~2#8, yCurrent)
    let s ← contrcurrSetEmerg s flags
    let calls := calls ++ [(Slot.ty2, yCurrent)]  -- lines 164-165
    return (contrcurrSetSetpoint s yCurrent, calls)

/-- controller_temp.c:171-182 `contrtemp_set_feedback` with its reports -/
def contrtempSetFeedbackR (s : Sys) (r : Int) : Option (Sys × List (Slot × Int)) := do
  let (s, calls) :=
    if r ≠ s.ct.feedback then
      (menuRequestUpdate { s with ct := { s.ct with feedback := r } }, [(Slot.tr, r)])  -- lines 174-177
    else (s, [])
  let (s, more) ← contrtempRunR s r
  return (s, calls ++ more)

/-- measure_temp.c:61-81 `meastemp_result_handler` with its reports -/
def meastempResultR (s : Sys) (phys : Int) (plaus : Plaus) : Option (Sys × List (Slot × Int)) :=
  let s := match plaus with
    | .plausible => contrtempSetEmerg s false
    | .timeout => contrtempSetEmerg s true
    | .notPlausible => s
  match plaus with
  | .plausible =>
    let s := { s with mtPrev := phys }
    let s := contrcurrSetRestricted s (phys < 6400)
    contrtempSetFeedbackR s phys
  | .notPlausible => contrtempSetFeedbackR s s.mtPrev
  | .timeout => some (s, [])

/-- measure_current.c:78-101 `meascurr_result_handler` with its reports -/
def meascurrResultR (s : Sys) (phys : Int) (plaus : Plaus) : Option (Sys × List (Slot × Int)) := do
  let flags := s.cc.emerg
  let flags := match plaus with
    | .plausible => flags &&& ~~~1#8
    | .timeout => flags ||| 1#8
    | .notPlausible => flags
  let s ← contrcurrSetEmerg s flags
  let (s, calls) ← match plaus with
    | .plausible => contrcurrSetFeedbackR { s with mcurr := { s.mcurr with prevFeedback := phys } } phys
    | .notPlausible => contrcurrSetFeedbackR s s.mcurr.prevFeedback
    | .timeout => some (s, [])
  return ({ s with mcurr := { s.mcurr with initialized := true } }, calls)

/-- measure.c:204-265 `measure_handle_result` up to the call of the user handler, with the reports of measure.c:220-222
    and measure_current.c:69-70 -/
def measHandleR (c : Conf) (now : Int) (m : Meas) (mc : MeasCurr) :
    Option (Meas × MeasCurr × Int × Plaus × List (Slot × Int)) := do
  let cfg ← measConfig c m.active
  let raw ← measRaw m
  let calls := [(if m.active = 0 then Slot.mc else Slot.mt, toS16 raw)]  -- lines 220-222
  let (mc, raw, calls) :=
    if m.active = 0 then
      let (mc, raw) := meascurrFilter mc raw
      (mc, raw, calls ++ [(Slot.fc, toS16 raw)])
    else (mc, raw, calls)
  let phys ← scale (toS16 raw) (toS16 cfg.rawLo) (toS16 cfg.rawHi) cfg.physLo cfg.physHi
  if h : m.active < 2 then do
    let (ch, phys, plaus) ← measPlaus c cfg now m.chan[m.active] phys
    return ({ m with chan := m.chan.set m.active ch }, mc, phys, plaus, calls)
  else none

/-- measure.c:295-308 `measure_work` with all the reports made in it, in order -/
def measureWorkR (c : Conf) (s : Sys) : Option (Sys × List (Slot × Int)) :=
  let avail := s.meas.resultAvail
  let s := { s with meas := { s.meas with resultAvail := false } }
  if avail then do
    let (m, mc, phys, plaus, calls) ← measHandleR c s.now s.meas s.mcurr
    let s := { s with meas := m, mcurr := mc }
    let (s, more) ← if m.active = 1 then meastempResultR s phys plaus else meascurrResultR s phys plaus
    let m ← adcTriggerNext c s.now s.meas
    return ({ s with meas := m }, calls ++ more)
  else some (s, [])

end Verif
