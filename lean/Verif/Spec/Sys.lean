import Verif.Model.Main
/-
What the properties about the running firmware talk about: valid settings, the states that can
be reached, and the values observable from outside.
-/
namespace Verif.Spec

/-- The documented limits of the settings: set points 0..480 C, adjustment ±99 C, controller
    factors kp, kd 0..99, ki 0..9, and a D-decay divider of at least 1.0; an existing preset is
    selected.  Fixed-point values are in steps of 1/64. -/
structure WithinLimits (c : Conf) (x : Settings) : Prop where
  k : ∀ i (h : i < 3), i < c.nrBoost →
    (0 ≤ x.k[i].kp ∧ x.k[i].kp ≤ 99 * 64) ∧ (0 ≤ x.k[i].ki ∧ x.k[i].ki ≤ 9 * 64) ∧
    (0 ≤ x.k[i].kd ∧ x.k[i].kd ≤ 99 * 64) ∧ (64 ≤ x.k[i].decay ∧ x.k[i].decay ≤ 2 ^ 23 - 1)
  idleSp : 0 ≤ x.idleSp ∧ x.idleSp ≤ 480 * 64
  sp : ∀ i (h : i < 6), (0 : Int) ≤ x.sp[i] ∧ x.sp[i] ≤ 480 * 64
  active : x.active < 6
  adj : -99 * 64 ≤ x.adj ∧ x.adj ≤ 99 * 64

instance (c : Conf) (x : Settings) : Decidable (WithinLimits c x) :=
  decidable_of_iff ((∀ i (h : i < 3), i < c.nrBoost →
    (0 ≤ x.k[i].kp ∧ x.k[i].kp ≤ 99 * 64) ∧ (0 ≤ x.k[i].ki ∧ x.k[i].ki ≤ 9 * 64) ∧
    (0 ≤ x.k[i].kd ∧ x.k[i].kd ≤ 99 * 64) ∧ (64 ≤ x.k[i].decay ∧ x.k[i].decay ≤ 2 ^ 23 - 1)) ∧
    (0 ≤ x.idleSp ∧ x.idleSp ≤ 480 * 64) ∧ (∀ i (h : i < 6), (0 : Int) ≤ x.sp[i] ∧ x.sp[i] ≤ 480 * 64) ∧
    x.active < 6 ∧ (-99 * 64 ≤ x.adj ∧ x.adj ≤ 99 * 64))
    ⟨fun ⟨a, b, c, d, e⟩ => ⟨a, b, c, d, e⟩, fun ⟨a, b, c, d, e⟩ => ⟨a, b, c, d, e⟩⟩

/-- An EEPROM content whose settings, as loaded at boot, are within the limits. -/
def ValidEeprom (c : Conf) (ee : Nat → Nat) : Prop :=
  ∀ st, settingsInit c ee = some st → WithinLimits c st.cache

/-- Every state of the running firmware: after booting from any valid EEPROM with any buttons
    pressed, and any sequence of interrupts and work calls that the hardware can produce. -/
inductive Running (c : Conf) : Sys → Prop where
  | boot {ee pinb s} : ValidEeprom c ee → boot c ee pinb = some s → Running c s
  | step {s e s'} : Running c s → possible s e = true → step c s e = some s' → Running c s'

/-- The screens in which regulation is off: calibration and controller tuning. -/
def Tuning : MenuState → Bool
  | .adjPre | .adj | .kpPre | .kp | .kiPre | .ki | .kdPre | .kd => true
  | _ => false

/-- The screens that exist in a build. -/
def ScreenExists (c : Conf) : MenuState → Bool
  | .curtemp | .selpreset | .chgpreset => true
  | .idletemp => c.idle
  | .debug => c.debug
  | .adjPre | .adj => c.adj
  | .kpPre | .kp | .kiPre | .ki | .kdPre | .kd => c.kconf

/-- The temperature the user wants: the active preset, or the idle set point if idle mode is on
    and that is lower. -/
def WantedTemp (x : Settings) (idle : Bool) (w : Int) : Prop :=
  ∃ p, x.sp[x.active]? = some p ∧ w = if idle then min x.idleSp p else p

/-- Digit driver `i` (0..2: PC3, PC4, PC5; 3: PB7) is switched on. -/
def DriverOn (v : PortVals) (i : Nat) : Bool :=
  match i with
  | 0 => v.portC.getLsbD 3
  | 1 => v.portC.getLsbD 4
  | 2 => v.portC.getLsbD 5
  | 3 => v.portB.getLsbD 7
  | _ => false

end Verif.Spec
