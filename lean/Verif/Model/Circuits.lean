import Mathlib.Data.Rat.Defs
import Mathlib.Algebra.Order.Field.Rat
import Mathlib.Analysis.SpecialFunctions.Exp
import Mathlib.Analysis.SpecialFunctions.Trigonometric.Basic
/-
The circuits of the simulator (simulator/circuits): calculations in discrete steps of time.

Simplification: the floating-point numbers of the program are real numbers here (rational ones in the PWM generator),
so nothing is rounded.  An exception (a division by zero, a failed assertion) is `none`.  The printed messages are left
out, but for the counter of those of the PWM generator.
-/
namespace Verif

/-- rcnet.py:29-38 `RCNet`: the resistor, the capacitor, the voltage of the capacitor, the current -/
structure RcNet where
  r : ℝ
  c : ℝ
  v : ℝ
  i : ℝ

/-- rcnet.py:40-47 `__init__`, rcnet.py:55-59 the setter of `q` -/
noncomputable def rcNet (r c : ℝ) (v q : Option ℝ) : Option RcNet :=
  match q with
  | none => some ⟨r, c, v.getD 0, 0⟩
  | some q => if v.isSome then none else if c = 0 then none else some ⟨r, c, q / c, 0⟩

/-- rcnet.py:49-53 the getter of `q` -/
noncomputable def RcNet.q (n : RcNet) : ℝ := n.c * n.v

/-- rcnet.py:61-70 `calc`; the returned voltage is the one of the new state -/
noncomputable def RcNet.calc (n : RcNet) (vIn dt : ℝ) : Option RcNet :=
  if n.r * n.c = 0 then none
  else
    let dv := vIn - n.v
    let fact := Real.exp (-1 / (n.r * n.c) * dt)
    some { n with i := dv / n.r * fact, v := n.v + dv * (1 - fact) }

/-- voltagedivider.py:24-37 `VoltageDivider` -/
structure VoltDiv where
  r1 : ℝ
  r2 : ℝ
  i : ℝ

/-- voltagedivider.py:39-41 `u1` -/
noncomputable def VoltDiv.u1 (n : VoltDiv) : ℝ := n.i * n.r1

/-- voltagedivider.py:43-45 `u2` -/
noncomputable def VoltDiv.u2 (n : VoltDiv) : ℝ := n.i * n.r2

/-- voltagedivider.py:47-49 `calc`; the returned voltage is `u2` of the new state -/
noncomputable def VoltDiv.calc (n : VoltDiv) (uIn : ℝ) : Option VoltDiv :=
  if n.r1 + n.r2 = 0 then none else some { n with i := uIn / (n.r1 + n.r2) }

/-- sine.py:29-35 `SineGenerator` -/
structure SineGen where
  f : ℝ
  peakV : ℝ
  cycleT : ℝ
  v : ℝ

/-- sine.py:37-41 `__init__` -/
noncomputable def sineGen (f rmsV : ℝ) : SineGen := ⟨max f 0, rmsV * Real.sqrt 2, 0, 0⟩

/-- sine.py:51-56 `calc`, with `cycleDur` (sine.py:47-49) -/
noncomputable def SineGen.calc (n : SineGen) (dt : ℝ) : SineGen :=
  if n.f ≠ 0 then
    { n with cycleT := n.cycleT + dt, v := n.peakV * Real.sin (Real.pi * 2 * ((n.cycleT + dt) / (1 / n.f))) }
  else n

/-- pwm.py:27-34 `PWMGenerator`; `errors` counts the printed messages -/
structure PwmGen where
  f : Rat
  duty : Rat
  cycleT : Rat
  out : Bool
  errors : Nat
  deriving DecidableEq, Repr

/-- pwm.py:36-41 `__init__` -/
def pwmGen (f duty : Rat) : PwmGen := ⟨max f 0, max (min duty 1) 0, 0, false, 0⟩

/-- pwm.py:43-45 `cycleDur` -/
def PwmGen.dur (n : PwmGen) : Rat := 1 / n.f

/-- pwm.py:63-71 the end of a cycle -/
def PwmGen.wrap (n : PwmGen) : PwmGen :=
  if n.cycleT - n.dur ≥ n.dur then { n with cycleT := 0, errors := if n.errors < 10 then n.errors + 1 else n.errors }
  else { n with cycleT := n.cycleT - n.dur }

/-- pwm.py:47-72 `calc`; what is returned is `out` of the new state -/
def PwmGen.calc (n : PwmGen) (dt : Rat) : PwmGen :=
  if n.f ≠ 0 then
    let n := { n with cycleT := n.cycleT + dt }
    if n.out then
      if n.cycleT ≥ n.dur then (if n.duty < 1 then { n with out := false } else n).wrap else n
    else if n.cycleT ≥ n.dur * (1 - n.duty) then if n.duty > 0 then { n with out := true } else n.wrap
    else n
  else n

end Verif
