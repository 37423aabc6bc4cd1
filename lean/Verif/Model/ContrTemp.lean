import Verif.Model.ContrCurr
/-
Model of firmware/controller_temp.c and of the parts of presets.c and settings.c that act on
more than the settings.  Temperatures are in steps of 1/64 degree: 480 C = 30720.
-/
namespace Verif

/-- menu.c:293-297 `menu_request_display_update` -/
def menuRequestUpdate (s : Sys) : Sys := { s with menu := { s.menu with updReq := true } }

/-- settings.c:174-178 `store_settings` on the whole state -/
def sysStore (s : Sys) : Option Sys := do
  let set ← storeSettings s.now s.set
  return { s with set := set }

/-- writes through the pointer returned by `get_settings` (settings.c:169-172) -/
def setCache (s : Sys) (x : Settings) : Sys := { s with set := { s.set with cache := x } }

/-- controller_temp.c:76-91 `contrtemp_set_boost_mode`; an index outside of `temp_k` is undefined -/
def contrtempSetBoost (c : Conf) (s : Sys) (mode : Nat) : Option Sys := do
  let k ← s.set.cache.k[mode]?
  let s := { s with ct := { s.ct with pid := pidSetFactors s.ct.pid k } }
  let s := if c.boost then { s with ct := { s.ct with boost := mode } } else s
  return menuRequestUpdate s

/-- controller_temp.c:102-109 `contrtemp_update_pid_config` (lines 67-74 `contrtemp_get_boost_mode`) -/
def contrtempUpdatePidConfig (c : Conf) (s : Sys) : Option Sys := contrtempSetBoost c s s.ct.boost

/-- controller_temp.c:111-125 `temp_to_amps` (controller_temp.h:40-43: 0..250 C to 0..5 A) -/
def tempToAmps (temp : Int) : Option Int := do
  let cur ← rescale temp 0 16000 0 3200
  return fixptClamp cur CURR_NEGLIM CURR_POSLIM

/-- controller_temp.c:127-169 `contrtemp_run` -/
def contrtempRun (s : Sys) (r : Int) : Option Sys :=
  if !s.ct.enabled then some s
  else if s.ct.emergency then some s
  else do
    let dt ← elapsedDt s.now s.ct.dtTimer
    let (pid, y) ← pidRun s.ct.pid dt r
    let s := { s with ct := { s.ct with dtTimer := timerSetNow s.now, pid := pid } }
    let yCurrent ← tempToAmps y
    let flags := s.cc.emerg
    let (flags, yCurrent) :=
      if r > 30720 then (flags ||| 2#8, CURR_NEGLIM) else (flags &&& ~~~2#8, yCurrent)
    let s ← contrcurrSetEmerg s flags
    return contrcurrSetSetpoint s yCurrent

/-- controller_temp.c:171-182 `contrtemp_set_feedback` -/
def contrtempSetFeedback (s : Sys) (r : Int) : Option Sys :=
  let s := if r ≠ s.ct.feedback then menuRequestUpdate { s with ct := { s.ct with feedback := r } }
           else s
  contrtempRun s r

/-- controller_temp.c:189-203 `contrtemp_update_setpoint` -/
def contrtempUpdateSetpoint (s : Sys) : Option Sys := do
  let sp ← s.set.cache.presetsGet
  let w := if s.ct.idle ∧ s.set.cache.idleSp < sp then s.set.cache.idleSp else sp
  return { s with ct := { s.ct with pid := pidSetSetpoint s.ct.pid w } }

/-- controller_temp.c:205-215 `contrtemp_set_idle_setpoint` -/
def contrtempSetIdleSetpoint (c : Conf) (s : Sys) (w : Int) : Option Sys :=
  if c.idle then do
    let s := setCache s { s.set.cache with idleSp := w }
    let s ← contrtempUpdateSetpoint s
    sysStore s
  else some s

/-- controller_temp.c:217-227 `do_set_enabled` -/
def contrtempDoSetEnabled (c : Conf) (s : Sys) (enabled : Bool) : Option Sys := do
  let s := { s with ct := { s.ct with enabled := enabled, pid := pidReset s.ct.pid,
                                      dtTimer := timerSetNow s.now } }
  let s ← contrtempSetBoost c s 0
  return contrcurrSetSetpoint s CURR_NEGLIM

/-- controller_temp.c:229-233 `contrtemp_set_enabled` -/
def contrtempSetEnabled (c : Conf) (s : Sys) (enabled : Bool) : Option Sys :=
  if s.ct.enabled ≠ enabled then contrtempDoSetEnabled c s enabled else some s

/-- controller_temp.c:235-244 `do_set_emerg` -/
def contrtempDoSetEmerg (s : Sys) (emergency : Bool) : Sys :=
  let s := { s with ct := { s.ct with emergency := emergency } }
  if emergency then contrcurrSetSetpoint s CURR_NEGLIM else s

/-- controller_temp.c:246-250 `contrtemp_set_emerg` -/
def contrtempSetEmerg (s : Sys) (emergency : Bool) : Sys :=
  if emergency ≠ s.ct.emergency then contrtempDoSetEmerg s emergency else s

/-- controller_temp.c:257-260 `contrtemp_is_heating_up` -/
def contrtempIsHeatingUp (s : Sys) : Bool := s.ct.feedback < s.ct.pid.setpoint

/-- controller_temp.c:263-271 `contrtemp_do_next_boost_mode` -/
def contrtempNextBoost (c : Conf) (s : Sys) : Option Sys :=
  contrtempSetBoost c s (ringNext s.ct.boost (c.nrBoost - 1))

/-- controller_temp.c:275-280 `contrtemp_do_idle` -/
def contrtempDoIdle (s : Sys) (idle : Bool) : Option Sys := do
  let s := { s with ct := { s.ct with idle := idle } }
  let s ← contrtempUpdateSetpoint s
  return menuRequestUpdate s

/-- controller_temp.c:285-346 `contrtemp_button_handler`, all four build variants -/
def contrtempButton (c : Conf) (s : Sys) (b : Button) (e : BState) : Option Sys :=
  match c.boost, c.idle with
  | true, true =>  -- lines 286-308
    let idle := s.ct.idle
    if b ≠ .iron then some s
    else do
      let s ← if e = .posedge then do
          let t ← timerArm s.now 1000
          pure { s with ct := { s.ct with biTimer := t, biLet := true } }
        else pure s
      if s.ct.biLet then
        if idle ∨ (e = .pressed ∧ timerExpired s.now s.ct.biTimer) then do
          let s ← contrtempDoIdle s !idle
          return { s with ct := { s.ct with biLet := false } }
        else if e = .negedge then do
          let s ← contrtempNextBoost c s
          return { s with ct := { s.ct with biLet := false } }
        else return s
      else return s
  | true, false =>  -- lines 310-317
    if b ≠ .iron then some s
    else if e = .posedge then contrtempNextBoost c s else some s
  | false, true =>  -- lines 319-339
    if b ≠ .iron then some s
    else
      let idle := s.ct.idle
      let idle := if c.idleToggle then (if e = .posedge then !idle else idle)
        else
          let idle := if e = .posedge then true else idle
          if e = .negedge then false else idle
      if idle ≠ s.ct.idle then contrtempDoIdle s idle else some s
  | false, false => some s  -- lines 341-345

/-- controller_temp.c:348-372 `contrtemp_init` -/
def contrtempInit (c : Conf) (s : Sys) : Option Sys := do
  let pid := pidInit s.ct.pid s.set.cache.k[0] (-1920) 5120 0 30720
  let sp ← s.set.cache.presetsGet
  let s := { s with ct := { s.ct with pid := pidSetSetpoint pid sp } }
  let s ← contrtempDoSetEnabled c s true
  return contrtempDoSetEmerg s false

/-- presets.c:31-38 `presets_store` -/
def presetsStore (s : Sys) : Option Sys := do
  let s ← sysStore s
  let s ← contrtempUpdateSetpoint s
  return menuRequestUpdate s

/-- presets.c:40-50 `presets_next` -/
def presetsNext (s : Sys) : Option Sys := presetsStore (setCache s s.set.cache.presetsNext)

/-- presets.c:52-62 `presets_prev` -/
def presetsPrev (s : Sys) : Option Sys := presetsStore (setCache s s.set.cache.presetsPrev)

/-- presets.c:86-96 `presets_set_active_value` -/
def presetsSetActive (s : Sys) (v : Int) : Option Sys := do
  let x ← s.set.cache.presetsSet v
  presetsStore (setCache s x)

end Verif
