import Verif.Model.Conf
import Verif.Model.Pid
import Verif.Model.Ring
import Verif.Model.Timer
/-
Model of firmware/settings.c, settings.h: the cached settings, their 64-byte image, the
EEPROM, the writer interrupt and the boot scan.
EEPROM bytes and byte addresses are natural numbers.  Assumption: `ee_settings` is the only
EEMEM object and therefore starts at address 0 (no other EEMEM object exists in the sources).
-/
namespace Verif

/-- settings.h:10-18 `struct settings` -/
structure Settings where
  k : Vector PidK 3
  idleSp : Int
  sp : Vector Int 6
  active : Nat
  adj : Int
  res0 : Nat
  res1 : Nat
  serial : Nat
  deriving DecidableEq, Repr

/-- bits 0..7 of a two's complement integer -/
def byte0 (x : Int) : Nat := (x % 256).toNat
/-- bits 8..15 -/
def byte1 (x : Int) : Nat := (x / 256 % 256).toNat
/-- bits 16..23 -/
def byte2 (x : Int) : Nat := (x / 65536 % 256).toNat

/-- the three bytes (little endian) of an int24_t (fixpt_t, fixpt.h) in memory -/
def enc24 (x : Int) : List Nat := [byte0 x, byte1 x, byte2 x]

/-- an int24_t (fixpt_t, fixpt.h) read back from its three bytes -/
def dec24 (b0 b1 b2 : Nat) : Int := toS24 (b0 + 256 * b1 + 65536 * b2)

/-- pid.h:7-12: memory image of `struct pid_k_set` (12 bytes) -/
def encK (k : PidK) : List Nat := enc24 k.kp ++ enc24 k.ki ++ enc24 k.kd ++ enc24 k.decay

/-- The memory image of `struct settings` (settings.h:10-18), 64 bytes, no padding
    (AVR has byte alignment; settings.c:219 asserts the size). -/
def Settings.image (s : Settings) : List Nat :=
  encK s.k[0] ++ encK s.k[1] ++ encK s.k[2] ++ enc24 s.idleSp ++
  enc24 s.sp[0] ++ enc24 s.sp[1] ++ enc24 s.sp[2] ++ enc24 s.sp[3] ++ enc24 s.sp[4] ++
  enc24 s.sp[5] ++ [s.active % 256] ++ enc24 s.adj ++ [s.res0 % 256, s.res1 % 256, s.serial % 256]

/-- an int24_t at offset `o` of a 64-byte image -/
def dec24At (b : Nat → Nat) (o : Nat) : Int := dec24 (b o) (b (o + 1)) (b (o + 2))

/-- a `struct pid_k_set` at offset `o` -/
def decKAt (b : Nat → Nat) (o : Nat) : PidK :=
  { kp := dec24At b o, ki := dec24At b (o + 3), kd := dec24At b (o + 6),
    decay := dec24At b (o + 9) }

/-- `struct settings` read from the bytes `b 0 … b 63` -/
def Settings.ofBytes (b : Nat → Nat) : Settings :=
  { k := #v[decKAt b 0, decKAt b 12, decKAt b 24],
    idleSp := dec24At b 36,
    sp := #v[dec24At b 39, dec24At b 42, dec24At b 45, dec24At b 48, dec24At b 51, dec24At b 54],
    active := b 57,
    adj := dec24At b 58,
    res0 := b 61, res1 := b 62, serial := b 63 }

/-- settings.c:61-107, the initialiser of `ee_settings[0]` (values from controller_temp.h:10-46
    and presets.h:14-21, converted by FLOAT_TO_FIXPT).  Without CONF_BOOST / CONF_IDLE the
    unused members are zero. -/
def shippedSettings (c : Conf) : Settings :=
  { k := #v[{ kp := 96, ki := 19, kd := 13, decay := 128 },
            if c.boost then { kp := 96, ki := 26, kd := 32, decay := 128 } else ⟨0, 0, 0, 0⟩,
            if c.boost then { kp := 96, ki := 32, kd := 64, decay := 128 } else ⟨0, 0, 0, 0⟩],
    idleSp := if c.idle then 9600 else 0,
    sp := #v[19520, 20480, 21440, 22400, 23360, 24320],
    active := 3, adj := 0, res0 := 0, res1 := 0, serial := 0 }

/-- The EEPROM as programmed with the shipped image: slot 0 initialised, the other slots
    zero (settings.c:62: a partially initialised array). -/
def shippedEeprom (c : Conf) : Nat → Nat := fun a => (shippedSettings c).image.getD a 0

/-- `struct settings_context` (settings.c:40-50) together with the EEPROM peripheral:
    the memory, the EERIE bit of EECR and the byte being programmed (address, data), if any. -/
structure SettingsSt where
  storeTimer : Int
  storeRequest : Bool
  cache : Settings
  eeIndex : Nat
  eeOff : Nat
  eerie : Bool
  eeprom : Nat → Nat
  prog : Option (Nat × Nat)

/-- settings.c:110-120 `ee_read_byte`.  The address register has just enough bits for the
    device, so the address wraps at the EEPROM size. -/
def eeReadByte (c : Conf) (ee : Nat → Nat) (addr : Nat) : Nat := ee (addr % c.e2size)

/-- settings.c:122-128 `ee_read_block` of a whole `struct settings` in slot `index` -/
def eeReadSettings (c : Conf) (ee : Nat → Nat) (index : Nat) : Settings :=
  Settings.ofBytes (fun o => eeReadByte c ee (index * 64 + o))

/-- settings.c:130-167 `ISR(EE_READY_vect)`.  `none`: the offset is outside of the cache image
    or the slot index outside of the array.
    A byte that differs is programmed: the memory keeps its old content until the programming
    has finished (`eeProgDone`). -/
def eeIsr (c : Conf) (s : SettingsSt) : Option SettingsSt := do
  let index := if c.eering then s.eeIndex else 0
  let data ← s.cache.image[s.eeOff]?
  if index < c.nrEe then
    let addr := index * 64 + s.eeOff
    let s := if eeReadByte c s.eeprom addr = data then s
             else { s with prog := some (addr % c.e2size, data) }
    let off := (s.eeOff + 1) % 256
    return { s with eeOff := off, eerie := if off ≥ 64 then false else s.eerie }
  else none

/-- hardware: the programming of the current byte has finished -/
def eeProgDone (s : SettingsSt) : SettingsSt :=
  match s.prog with
  | none => s
  | some (a, d) => { s with eeprom := fun x => if x = a then d else s.eeprom x, prog := none }

/-- settings.c:174-178 `store_settings` (timer_arm with a constant delay cannot fail; the model
    keeps the `Option` of `timerArm`). -/
def storeSettings (now : Int) (s : SettingsSt) : Option SettingsSt := do
  let t ← timerArm now 1000
  return { s with storeRequest := true, storeTimer := t }

/-- settings.c:180-209 `settings_work`; also tells whether a store was started. -/
def settingsWork (c : Conf) (now : Int) (s : SettingsSt) : SettingsSt × Bool :=
  if !s.storeRequest then (s, false)
  else if !timerExpired now s.storeTimer then (s, false)
  else
    let s := { s with storeRequest := false }
    let s := if c.eering then
        { s with cache := { s.cache with serial := (s.cache.serial + 1) % 256 },
                 eeIndex := ringNext s.eeIndex (c.nrEe - 1) }
      else s
    ({ s with eeOff := 0, eerie := true }, true)

/-- settings.c:229-241, the scan for the newest slot; `fuel` bounds the loop (the index returns
    to 0 after `ARRAY_SIZE + 2` steps).  Running out of fuel is `none` (endless loop).
    Reads beyond the array are EEPROM reads with a wrapped address (finding F2). -/
def eeScan (c : Conf) (ee : Nat → Nat) : Nat → Nat → Nat → Option Nat
  | 0, _, _ => none
  | fuel + 1, nextIndex, serial =>
    let found := nextIndex
    let nextIndex := ringNext nextIndex (c.nrEe + 1)
    let nextSerial := eeReadByte c ee (nextIndex * 64 + 63)
    if nextSerial ≠ (serial + 1) % 256 then some found
    else if nextIndex ≠ 0 then eeScan c ee fuel nextIndex nextSerial
    else some found

/-- settings.c:211-249 `settings_init`: the slot to load -/
def eeFind (c : Conf) (ee : Nat → Nat) : Option Nat :=
  if c.eering then eeScan c ee (c.nrEe + 2) 0 (eeReadByte c ee 63) else some 0

/-- settings.c:211-249 `settings_init` after a reset (static data zero: no request pending,
    EERIE off, nothing being programmed). -/
def settingsInit (c : Conf) (ee : Nat → Nat) : Option SettingsSt := do
  let found ← eeFind c ee
  return { storeTimer := 0, storeRequest := false, cache := eeReadSettings c ee found,
           eeIndex := if c.eering then found else 0, eeOff := 0, eerie := false,
           eeprom := ee, prog := none }

/-- The interrupt can fire: EERIE is set and no byte is being programmed (EEPE clear). -/
def eeReady (s : SettingsSt) : Bool := s.eerie && s.prog.isNone

/-- A store is in progress: bytes are left to be handled or one is being programmed. -/
def storing (s : SettingsSt) : Bool := s.eerie || s.prog.isSome

/-- What a power failure leaves in the EEPROM: a byte being programmed may end up with any
    value `v` (hardware; ATmega88 data sheet, "Preventing EEPROM Corruption"). -/
def powerFail (s : SettingsSt) (v : Nat) : Nat → Nat :=
  match s.prog with
  | none => s.eeprom
  | some (a, _) => fun x => if x = a then v else s.eeprom x

end Verif
