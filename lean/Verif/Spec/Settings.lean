import Verif.Model.Settings
/-
What the properties about stored settings talk about.
-/
namespace Verif

/-- every member holds a value of its C type -/
structure Settings.Wf (s : Settings) : Prop where
  k : ∀ i (h : i < 3), S24 s.k[i].kp ∧ S24 s.k[i].ki ∧ S24 s.k[i].kd ∧ S24 s.k[i].decay
  idleSp : S24 s.idleSp
  sp : ∀ i (h : i < 6), S24 s.sp[i]
  active : s.active < 256
  adj : S24 s.adj
  res0 : s.res0 < 256
  res1 : s.res1 < 256
  serial : s.serial < 256

instance (s : Settings) : Decidable s.Wf :=
  decidable_of_iff ((∀ i (h : i < 3), S24 s.k[i].kp ∧ S24 s.k[i].ki ∧ S24 s.k[i].kd ∧
      S24 s.k[i].decay) ∧ S24 s.idleSp ∧ (∀ i (h : i < 6), S24 s.sp[i]) ∧ s.active < 256 ∧
      S24 s.adj ∧ s.res0 < 256 ∧ s.res1 < 256 ∧ s.serial < 256)
    ⟨fun ⟨a, b, c, d, e, f, g, h⟩ => ⟨a, b, c, d, e, f, g, h⟩,
     fun ⟨a, b, c, d, e, f, g, h⟩ => ⟨a, b, c, d, e, f, g, h⟩⟩

/-- the same settings, whatever the serial numbers -/
def SameVals (a b : Settings) : Prop := { a with serial := 0 } = { b with serial := 0 }

instance (a b : Settings) : Decidable (SameVals a b) := inferInstanceAs (Decidable (_ = _))

namespace Spec

/-- What can happen to the settings machinery. -/
inductive SEv where
  /-- the main program changes the cached settings (never the serial number) -/
  | modify (s : Settings)
  /-- `store_settings()` at timer value `now` -/
  | request (now : Int)
  /-- `settings_work()` at timer value `now` -/
  | work (now : Int)
  /-- the EEPROM-ready interrupt -/
  | isr
  /-- the hardware finishes programming a byte -/
  | progDone
  /-- power fails; the byte being programmed, if any, is left with value `v`; reboot -/
  | crash (v : Nat)

/-- The machinery together with a record of what a user would expect: the settings stored by
    the last store that was finished, and those of the store in progress. -/
structure Hist where
  st : SettingsSt
  saved : Settings
  writing : Option Settings

/-- What can happen when.  With `calm` the settings are not changed while they are being
    written.  A store starts only after the previous one has finished (C27 shows that starts
    are at least 1000 ms apart, a store takes 64 * 3.4 ms). -/
def Allowed (calm : Bool) (c : Conf) (h : Hist) : SEv → Prop
  | .modify s => s.Wf ∧ s.serial = h.st.cache.serial ∧ (calm = true → storing h.st = false)
  | .request _ => True
  | .work now => (settingsWork c now h.st).2 = true → storing h.st = false
  | .isr => eeReady h.st = true
  | .progDone => h.st.prog.isSome = true
  | .crash v => v < 256

instance (calm : Bool) (c : Conf) (h : Hist) (e : SEv) : Decidable (Allowed calm c h e) := by
  cases e <;> unfold Allowed <;> infer_instance

/-- the store in progress has finished when no byte is left and none is being programmed -/
def settle (h : Hist) (st : SettingsSt) : Hist :=
  if storing st then { h with st }
  else { st, saved := h.writing.getD h.saved, writing := none }

/-- one event; `none` is undefined behaviour -/
def hstep (c : Conf) (h : Hist) : SEv → Option Hist
  | .modify s => some { h with st := { h.st with cache := s } }
  | .request now => (storeSettings now h.st).map fun st => { h with st }
  | .work now =>
    let r := settingsWork c now h.st
    some (if r.2 then { h with st := r.1, writing := some r.1.cache } else { h with st := r.1 })
  | .isr => (eeIsr c h.st).map (settle h)
  | .progDone => some (settle h (eeProgDone h.st))
  | .crash v => (settingsInit c (powerFail h.st v)).map fun st =>
      { st, saved := st.cache, writing := none }

/-- Every state the machinery can get into, starting from the shipped EEPROM image. -/
inductive Reachable (calm : Bool) (c : Conf) : Hist → Prop where
  | boot {st} : settingsInit c (shippedEeprom c) = some st →
      Reachable calm c { st, saved := st.cache, writing := none }
  | step {h e h'} : Reachable calm c h → Allowed calm c h e → hstep c h e = some h' →
      Reachable calm c h'

end Spec
end Verif
