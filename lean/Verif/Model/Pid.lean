import Verif.Model.Fixpt
/-
Model of firmware/pid.c, pid.h (without the CONF_DEBUG reports, which do not influence the
control values; they are modelled in Model/Debug).
-/
namespace Verif

/-- pid.h:7-12 `struct pid_k_set` -/
structure PidK where
  kp : Int
  ki : Int
  kd : Int
  decay : Int
  deriving DecidableEq, Repr

/-- pid.h:14-36 `struct pid` (debug fields omitted) -/
structure Pid where
  k : PidK
  setpoint : Int
  iNeg : Int
  iPos : Int
  yNeg : Int
  yPos : Int
  prevE : Int
  integr : Int
  deriving DecidableEq, Repr

/-- pid.c:28-32 `pid_reset` -/
def pidReset (p : Pid) : Pid := { p with prevE := 0, integr := 0 }

/-- pid.c:34-38 `pid_set_factors` -/
def pidSetFactors (p : Pid) (k : PidK) : Pid := pidReset { p with k := k }

/-- pid.h:50-53 `pid_set_setpoint` -/
def pidSetSetpoint (p : Pid) (w : Int) : Pid := { p with setpoint := w }

/-- pid.c:40-94 `pid_run`; returns the new state and the controller output. -/
def pidRun (p : Pid) (dt r : Int) : Option (Pid × Int) := do
  let e ← fixptSub p.setpoint r
  -- P term
  let pt ← fixptMul p.k.kp e
  -- I term
  let kie ← fixptMul p.k.ki e
  let inc ← fixptMul kie dt
  let i ← fixptAdd p.integr inc
  let i := cClamp i p.iNeg p.iPos
  let res ← fixptAdd pt i
  -- D term
  let de ← fixptSub e p.prevE
  let d ← fixptMulDiv de p.k.kd dt
  let pe ← fixptDiv e p.k.decay
  let res ← fixptAdd res d
  return ({ p with integr := i, prevE := pe }, cClamp res p.yNeg p.yPos)

/-- pid.c:96-112 `pid_init`; `p` is the previous content of the structure
    (the set point is not initialised by pid_init). -/
def pidInit (p : Pid) (k : PidK) (iNeg iPos yNeg yPos : Int) : Pid :=
  pidSetFactors { p with iNeg := iNeg, iPos := iPos, yNeg := yNeg, yPos := yPos } k

end Verif
