import Verif.Spec.Sys
import Verif.Spec.Int24
import Verif.Model.SimSettings
/-
What the properties about reading and writing settings in the simulator talk about.
-/
namespace Verif.Spec

/-- `v` is the content of the setting with that name.  A build without adjustment has the adjustment 0. -/
def Holds (c : Conf) (x : Settings) : SimName → Int → Prop
  | .k mode .kp, v => v = x.k[mode].kp
  | .k mode .ki, v => v = x.k[mode].ki
  | .k mode .kd, v => v = x.k[mode].kd
  | .k mode .decay, v => v = x.k[mode].decay
  | .idleSp, v => v = x.idleSp
  | .setpoint, v => x.sp[x.active]? = some v
  | .active, v => v = x.active
  | .adj, v => v = if c.adj then x.adj else 0
  | .serial, v => v = x.serial
  | .unknown, _ => False

/-- The settings `x'` are the settings `x`, but the one with that name is `u`. -/
def Written (c : Conf) (x x' : Settings) : SimName → Int → Prop
  | .k mode .kp, u => x' = { x with k := x.k.set mode { x.k[mode] with kp := u } }
  | .k mode .ki, u => x' = { x with k := x.k.set mode { x.k[mode] with ki := u } }
  | .k mode .kd, u => x' = { x with k := x.k.set mode { x.k[mode] with kd := u } }
  | .k mode .decay, u => x' = { x with k := x.k.set mode { x.k[mode] with decay := u } }
  | .idleSp, u => x' = { x with idleSp := u }
  | .setpoint, u => ∃ h : x.active < 6, x' = { x with sp := x.sp.set x.active u }
  | .active, u => x' = { x with active := u.toNat }
  | .adj, u => x' = if c.adj then { x with adj := u } else x
  | .serial, u => x' = { x with serial := u.toNat }
  | .unknown, _ => False

/-- `u` is what is left of the number `v` in the type of the setting: 8 bits without sign or 24 bits with sign. -/
def Reduced : SimName → Int → Int → Prop
  | .active, v, u => Wraps 256 v u
  | .serial, v, u => Wraps 256 v u
  | _, v, u => WrapsS 8388608 v u

/-- `v` is within the documented limits of the setting. -/
def InLimits : SimName → Int → Prop
  | .k _ .kp, v => 0 ≤ v ∧ v ≤ 99 * 64
  | .k _ .ki, v => 0 ≤ v ∧ v ≤ 9 * 64
  | .k _ .kd, v => 0 ≤ v ∧ v ≤ 99 * 64
  | .k _ .decay, v => 64 ≤ v ∧ v ≤ 2 ^ 23 - 1
  | .idleSp, v => 0 ≤ v ∧ v ≤ 480 * 64
  | .setpoint, v => 0 ≤ v ∧ v ≤ 480 * 64
  | .active, v => 0 ≤ v ∧ v < 6
  | .adj, v => -99 * 64 ≤ v ∧ v ≤ 99 * 64
  | .serial, v => 0 ≤ v ∧ v < 256
  | .unknown, _ => False

/-- Every state of the simulated firmware when settings are read, and written within their limits, at any time between
    the interrupts and work calls. -/
inductive RunningSim (c : Conf) : Sys → Prop where
  | boot {ee pinb s} : ValidEeprom c ee → boot c ee pinb = some s → RunningSim c s
  | step {s e s'} : RunningSim c s → possible s e = true → step c s e = some s' → RunningSim c s'
  | read {s n s' v} : RunningSim c s → simRead c s n = some (s', v) → RunningSim c s'
  | write {s n v s'} : RunningSim c s → InLimits n v → simWrite c s n v = some s' → RunningSim c s'

end Verif.Spec
