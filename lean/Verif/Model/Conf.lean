/-
Build configuration (firmware/Makefile:22-32 and the target device and hardware, Makefile:1-19).
CONF_PRESETS is fixed to 1: with 0 the sources do not link (DESIGN.md finding F7).
-/
namespace Verif

/-- The compile-time options that influence behaviour. -/
structure Conf where
  debug : Bool
  boost : Bool
  idle : Bool
  idleToggle : Bool
  eering : Bool
  adj : Bool
  kconf : Bool
  /-- HW_SMD (true) or HW_LEGACY (false), measure_temp.c:95-106 -/
  smd : Bool
  /-- device with 1024 bytes of EEPROM (m328p); otherwise 512 bytes (m88, m88p) -/
  bigEe : Bool
  deriving DecidableEq, Repr

/-- E2END + 1 of the device -/
def Conf.e2size (c : Conf) : Nat := if c.bigEe then 1024 else 512

/-- settings.c:55-59 `NR_EE_SETTINGS` (struct settings has 64 bytes, settings.c:219) -/
def Conf.nrEe (c : Conf) : Nat := if c.eering then c.e2size / 64 else 1

/-- controller_temp.h:49-57 `NR_BOOST_MODES` -/
def Conf.nrBoost (c : Conf) : Nat := if c.boost then 3 else 1

/-- the configuration the Makefile selects for `DEV := m88p` -/
def Conf.m88p : Conf :=
  { debug := false, boost := true, idle := true, idleToggle := true, eering := true,
    adj := true, kconf := false, smd := true, bigEe := false }

/-- the configuration the Makefile selects for `DEV := m328p` -/
def Conf.m328p : Conf :=
  { debug := true, boost := true, idle := true, idleToggle := true, eering := true,
    adj := true, kconf := true, smd := true, bigEe := true }

end Verif
