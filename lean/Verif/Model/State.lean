import Verif.Model.Settings
import Verif.Model.Presets
import Verif.Model.PwmCurrent
import Verif.Model.Filter
import Verif.Model.Display
/-
The static data of all modules of the firmware in one structure.  The values remembered by
the debug reports (old_…) are left out; they only decide what is sent over the UART
(Model/Debug, property C58).
-/
namespace Verif

/-- buttons.h:7-14 -/
inductive Button where
  | set | minus | plus | iron
  deriving DecidableEq, Repr

/-- buttons.h:16-20 -/
inductive BState where
  | posedge | negedge | pressed
  deriving DecidableEq, Repr

/-- measure.h:53-57 -/
inductive Plaus where
  | plausible | notPlausible | timeout
  deriving DecidableEq, Repr

/-- measure.c:49-61 `struct meas_chan_context` (the configuration is in `measConfig`; `adj`
    exists only with CONF_ADJ and is 0 otherwise) -/
structure MeasChan where
  adj : Int
  plausTimeout : Bool
  timerRunning : Bool
  timer : Int
  deriving DecidableEq, Repr

/-- measure.c:63-72 `struct meas_context`; `adcOn` is the ADC converting in free-running mode
    (ADEN, ADSC, ADATE, ADIE set). Channel 0 is the current, channel 1 the temperature
    (measure.h:47-51). -/
structure Meas where
  chan : Vector MeasChan 2
  active : Nat
  avgCount : Int
  avgSum : Int
  avgTimer : Int
  resultAvail : Bool
  adcOn : Bool
  deriving DecidableEq, Repr

/-- measure_current.c:37-42 `struct meascurr_context` -/
structure MeasCurr where
  initialized : Bool
  prevFeedback : Int
  filter : Int
  deriving DecidableEq, Repr

/-- controller_current.c:46-50 -/
inductive RState where
  | disabled | syncing | enabled
  deriving DecidableEq, Repr

/-- controller_current.c:52-71 `struct current_contr_context` -/
structure ContrCurr where
  enabled : Bool
  restricted : Bool
  emerg : BitVec 8
  pid : Pid
  rState : RState
  feedback : Int
  prevY : Int
  timer : Int
  model : Int
  deriving DecidableEq, Repr

/-- controller_temp.c:38-62 `struct temp_contr_context`.  `idle` exists only with CONF_IDLE and
    `boost` only with CONF_BOOST; without them the accessors (lines 67-74, 93-100) give
    false / TEMPBOOST_NORMAL, which is what the members are in the model. -/
structure ContrTemp where
  enabled : Bool
  emergency : Bool
  idle : Bool
  boost : Nat
  biTimer : Int
  biLet : Bool
  pid : Pid
  feedback : Int
  dtTimer : Int
  deriving DecidableEq, Repr

/-- menu.c:43-57 -/
inductive MenuState where
  | curtemp | selpreset | chgpreset | idletemp | debug | adjPre | adj
  | kpPre | kp | kiPre | ki | kdPre | kd
  deriving DecidableEq, Repr

/-- menu.c:59-65 -/
inductive Ramp where
  | none | up | down | preUp | preDown
  deriving DecidableEq, Repr

/-- the functions a `ramp_handler_t` (menu.c:71) can point to -/
inductive RampHandler where
  | settemp | idletemp | adj | kp | ki | kd
  deriving DecidableEq, Repr

/-- menu.c:73-87 `struct menu_context`; `handler = none` is the null pointer -/
structure Menu where
  state : MenuState
  timeout : Int
  ramp : Ramp
  rampTimer : Int
  rampPreTimer : Int
  handler : Option RampHandler
  period : Int
  dispErr : Nat
  dispHeating : Bool
  updReq : Bool
  deriving DecidableEq, Repr

/-- buttons.c:46-49 `struct buttons_context` -/
structure Buttons where
  prev : BitVec 8
  debounce : Int
  deriving DecidableEq, Repr

/-- The whole firmware state.  `now` is `_timer_count_now` (timer.c:26), `ocr` is OCR1A, `mtPrev`
    is `meastemp.prev_feedback` (measure_temp.c:35-40), `debugEn` is `debug_enabled`
    (debug_uart.c:30). -/
structure Sys where
  now : Int
  set : SettingsSt
  meas : Meas
  mcurr : MeasCurr
  mtPrev : Int
  cc : ContrCurr
  ct : ContrTemp
  ocr : Int
  menu : Menu
  btn : Buttons
  disp : Display
  ports : Ports
  debugEn : Bool

end Verif
