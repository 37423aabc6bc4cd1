import Verif.Model.Settings
/-
Model of firmware/presets.c (CONF_PRESETS=1), the part that acts on the settings.
`presets_store` (presets.c:31-38) additionally requests a store, updates the controller's
setpoint and requests a display update; these effects are in the model of the whole system.
-/
namespace Verif

/-- presets.c:40-50 `presets_next` (NR_PRESETS = 6, presets.h:12) -/
def Settings.presetsNext (s : Settings) : Settings := { s with active := ringNext s.active 5 }

/-- presets.c:52-62 `presets_prev` -/
def Settings.presetsPrev (s : Settings) : Settings := { s with active := ringPrev s.active 5 }

/-- presets.c:73-84 `presets_get_active_value`; an index outside of the array is undefined -/
def Settings.presetsGet (s : Settings) : Option Int := s.sp[s.active]?

/-- presets.c:86-96 `presets_set_active_value`; an index outside of the array is undefined -/
def Settings.presetsSet (s : Settings) (v : Int) : Option Settings :=
  if h : s.active < 6 then some { s with sp := s.sp.set s.active v } else none

end Verif
