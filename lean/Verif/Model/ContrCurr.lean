import Verif.Model.State
/-
Model of firmware/controller_current.c (without the debug reports).
Constants, in steps of 1/64 of 0.1 A (controller_current.h:8-30, Makefile:31-32 CONF_CURRCUTOFF
1.8, CONF_CURRCUTOFFHYST 0.1): 0.1 A = 64, 0.5 A = 320, 1.7 A = 1088, 1.8 A = 1152, 2 A = 1280,
5 A = 3200.
-/
namespace Verif

/-- controller_current.c:75-80 `contrcurr_factors` (controller_current.h:11-14: 1.8, 2.0, 0.0, 2.0) -/
def contrcurrFactors : PidK := { kp := 115, ki := 128, kd := 0, decay := 128 }

/-- `pwmcurr_set` (pwm_current.c:36-52): writes OCR1A -/
def pwmcurrSet (s : Sys) (y : Int) : Option Sys := do
  let d ← pwmDuty y
  return { s with ocr := d }

/-- controller_current.c:93-95, controller_temp.c:138-140: the elapsed time in seconds -/
def elapsedDt (now t : Int) : Option Int := do
  let ms ← timerMsSince now t
  let a ← intToFixpt ms
  let b ← intToFixpt 1000
  fixptDiv a b

/-- controller_current.c:97-133: which feedback is used; gives (r, new r_state, new model) -/
def contrcurrSelect (cc : ContrCurr) (realR : Int) : Option (Int × RState × Int) :=
  let syncing : Option (Int × RState × Int) := do
    let d24 ← intToFixpt 24
    let (m, r) ← lpFixptRun cc.model realR d24
    let diff ← fixptSub r realR
    let a ← fixptAbs diff
    return (r, if a < 64 then .enabled else .syncing, m)
  match cc.rState with
  | .disabled =>
    if realR ≤ 1088 then syncing
    else do
      let d16 ← intToFixpt 16
      let (m, r) ← lpFixptRun cc.model cc.prevY d16
      return (r, .disabled, m)
  | .syncing => syncing
  | .enabled =>
    if realR ≥ 1152 then some (realR, .disabled, lpFixptSet realR)
    else some (realR, .enabled, cc.model)

/-- controller_current.c:83-157 `contrcurr_run` -/
def contrcurrRun (s : Sys) (realR : Int) : Option Sys :=
  if !s.cc.enabled then some s
  else if s.cc.emerg ≠ 0 then some s
  else do
    let dt ← elapsedDt s.now s.cc.timer
    let (r, rState, model) ← contrcurrSelect s.cc realR
    let (pid, y) ← pidRun s.cc.pid dt r
    let y := if s.cc.restricted then (if y > 1280 then 1280 else y) else y
    pwmcurrSet { s with cc := { s.cc with timer := timerSetNow s.now, rState := rState,
                                          model := model, pid := pid, prevY := y } } y

/-- controller_current.c:159-169 `contrcurr_set_feedback` -/
def contrcurrSetFeedback (s : Sys) (r : Int) : Option Sys :=
  contrcurrRun { s with cc := { s.cc with feedback := r } } r

/-- controller_current.c:171-174 `contrcurr_set_setpoint` -/
def contrcurrSetSetpoint (s : Sys) (w : Int) : Sys :=
  { s with cc := { s.cc with pid := pidSetSetpoint s.cc.pid w } }

/-- controller_current.c:176-179 `contrcurr_set_restricted` -/
def contrcurrSetRestricted (s : Sys) (restricted : Bool) : Sys :=
  { s with cc := { s.cc with restricted := restricted } }

/-- controller_current.c:181-207 `contrcurr_set_enabled` -/
def contrcurrSetEnabled (s : Sys) (enable : Bool) (percent : Int) : Option Sys := do
  let s ← if enable ≠ s.cc.enabled then do
      let s ← pwmcurrSet { s with cc := { s.cc with enabled := enable } } 0
      pure { s with cc := { s.cc with pid := pidReset s.cc.pid, rState := .enabled, prevY := 0,
                                      timer := timerSetNow s.now } }
    else pure s
  if !enable then do
    let y ← scale percent 0 100 CURR_NEGLIM CURR_POSLIM
    pwmcurrSet s y
  else pure s

/-- controller_current.c:209-220 `contrcurr_set_emerg` -/
def contrcurrSetEmerg (s : Sys) (flags : BitVec 8) : Option Sys :=
  if flags ≠ s.cc.emerg then
    let s := { s with cc := { s.cc with emerg := flags } }
    if flags ≠ 0 then pwmcurrSet s CURR_NEGLIM else some s
  else some s

/-- controller_current.c:227-249 `contrcurr_init` -/
def contrcurrInit (s : Sys) : Option Sys := do
  let s := { s with cc := { s.cc with
    pid := pidInit s.cc.pid contrcurrFactors (-320) 320 CURR_NEGLIM CURR_POSLIM } }
  let s ← contrcurrSetEnabled s true 0
  let s ← contrcurrSetEmerg s 0
  return contrcurrSetRestricted s true

end Verif
