import Verif.Spec.Sys
/-
The controllers as they are documented: the diagram doc/controller.dia (doc/controller.png).  Nothing in this file
is taken from the program.
-/
namespace Verif.Spec

/-- "0..480 °C", in 1/64 °C: temperature set point, its difference to the feedback, output of the temperature
    controller, feedback and iron temperature. -/
def DocTemp (x : Int) : Prop := 0 ≤ x ∧ x ≤ 480 * 64

/-- "0..5 A", in 1/640 A: output of the mapping, its difference to the feedback, output of the current controller,
    feedback and heater current. -/
def DocAmps (x : Int) : Prop := 0 ≤ x ∧ x ≤ 5 * 640

/-- "PWM duty cycle 0x0000..0x1FFF" -/
def DocDuty (x : Int) : Prop := 0 ≤ x ∧ x ≤ 0x1FFF

/-- The sum of `n` values of the ADC, each in "0x000..0x3FF". -/
def DocAdcSum (sum n : Int) : Prop := 0 ≤ sum ∧ sum ≤ 0x3FF * n

instance (x : Int) : Decidable (DocTemp x) := by unfold DocTemp; infer_instance
instance (x : Int) : Decidable (DocAmps x) := by unfold DocAmps; infer_instance

/-- The factor `k` in 1/64 stands for the documented factor `d` in 1/100: it is the nearest one. -/
def FactorIs (k d : Int) : Prop := 2 * (100 * k - 64 * d).natAbs ≤ 100

instance (k d : Int) : Decidable (FactorIs k d) := by unfold FactorIs; infer_instance

/-- "Temperature PID controller kp = 4.0, ki = 0.04, kd = 0.5" -/
def DocTempFactors (k : PidK) : Prop := FactorIs k.kp 400 ∧ FactorIs k.ki 4 ∧ FactorIs k.kd 50

/-- "Current PID controller kp = 2.0, ki = 0.05, kd = 0.05" -/
def DocCurrFactors (k : PidK) : Prop := FactorIs k.kp 200 ∧ FactorIs k.ki 5 ∧ FactorIs k.kd 5

instance (k : PidK) : Decidable (DocTempFactors k) := by unfold DocTempFactors; infer_instance
instance (k : PidK) : Decidable (DocCurrFactors k) := by unfold DocCurrFactors; infer_instance

end Verif.Spec
