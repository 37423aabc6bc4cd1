import Verif.Model.Main
import Verif.Model.SimSensor
/-
Model of `simulator_setting_access` of firmware/simulator/simulator.cxx, through which the Python programs read and
write the settings of the simulated firmware.  A name is modelled as what it selects.  The simulator calls it between
two calls of the main loop.
-/
namespace Verif

/-- the names of the controller factors of one mode (pid.h:7-12 `struct pid_k_set`) -/
inductive SimFactor where
  | kp | ki | kd | decay
  deriving DecidableEq

/-- the names which simulator.cxx:475-512 knows, and all others -/
inductive SimName where
  | k (mode : Fin 3) (f : SimFactor)
  | idleSp
  | setpoint
  | active
  | adj
  | serial
  | unknown
  deriving DecidableEq

/-- reading a factor: the conversion of an `Int24` to `int` (int24.h, C90) -/
def SimFactor.get (k : PidK) : SimFactor → Int
  | .kp => k.kp
  | .ki => k.ki
  | .kd => k.kd
  | .decay => k.decay

/-- writing a factor: the conversion of an `int` to an `Int24` -/
def SimFactor.put (k : PidK) (v : Int) : SimFactor → PidK
  | .kp => { k with kp := i24Of v }
  | .ki => { k with ki := i24Of v }
  | .kd => { k with kd := i24Of v }
  | .decay => { k with decay := i24Of v }

/-- simulator.cxx:462-473 `SETTINGS_ACCESS` of a name that matches: `get` is the content of the field, `x` the settings
    with the new content.  The result is `*value`. -/
def settingsAccess (s : Sys) (write : Bool) (x : Settings) (get value : Int) : Option (Sys × Int) :=
  if write then do
    let s ← sysStore (setCache s x)
    return (s, value)
  else some (s, get)

/-- simulator.cxx:475-512 `simulator_setting_access`; the result is the state, and `*value` unless the function returns
    false.  `none` is undefined behaviour: `temp_setpoint[s->temp_setpoint_active]` outside of the array. -/
def simAccess (c : Conf) (s : Sys) (n : SimName) (value : Int) (write : Bool) : Option (Sys × Option Int) :=
  match n with
  | .k mode f => do
    let k := s.set.cache.k[mode]
    let (s, v) ← settingsAccess s write { s.set.cache with k := s.set.cache.k.set mode (f.put k value) } (f.get k) value
    let s ← contrtempUpdatePidConfig c s
    return (s, some v)
  | .idleSp => do
    let (s, v) ← settingsAccess s write { s.set.cache with idleSp := i24Of value } s.set.cache.idleSp value
    let s ← contrtempSetIdleSetpoint c s s.set.cache.idleSp
    return (s, some v)
  | .setpoint => do
    let x ← s.set.cache.presetsSet (i24Of value)
    let get ← s.set.cache.presetsGet
    let (s, v) ← settingsAccess s write x get value
    let s ← contrtempUpdateSetpoint s
    return (menuRequestUpdate s, some v)
  | .active => do
    let (s, v) ← settingsAccess s write { s.set.cache with active := (value % 256).toNat } s.set.cache.active value
    let s ← contrtempUpdateSetpoint s
    return (menuRequestUpdate s, some v)
  | .adj =>
    if write then do
      let s ← meastempAdjustSet c s (i24Of value)
      return (s, some value)
    else some (s, some (measureAdjustGet c s))
  | .serial => do
    let (s, v) ← settingsAccess s write { s.set.cache with serial := (value % 256).toNat } s.set.cache.serial value
    return (s, some v)
  | .unknown => some (s, none)

/-- pyxytronic.cxx:30-46 `xy_simulator_setting_write`: the new state; `none` also for the exception raised for an unknown
    name -/
def simWrite (c : Conf) (s : Sys) (n : SimName) (value : Int) : Option Sys := do
  let (s, v) ← simAccess c s n value true
  if v.isSome then some s else none

/-- pyxytronic.cxx:48-66 `xy_simulator_setting_read`: the new state and the value -/
def simRead (c : Conf) (s : Sys) (n : SimName) : Option (Sys × Int) := do
  let (s, v) ← simAccess c s n 0 false
  return (s, ← v)

/-- xytronic_simulator_gui.py:67-69 `__updateValues` (with xytronic_simulator.py:82-85 `setting_set`) -/
def simGuiUpdate (c : Conf) (s : Sys) (temp : Rat) : Option Sys := do
  let s ← simWrite c s .active 0
  simWrite c s .setpoint (pyFloatToFixpt temp)

end Verif
