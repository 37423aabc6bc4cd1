import Verif.Model.ContrTemp
/-
Model of firmware/measure.c, measure_temp.c and measure_current.c (without the debug reports).
-/
namespace Verif

/-- measure.h:63-93 `struct measure_config`, the members used by the calculation -/
structure MeasConfig where
  avgMs : Int
  rawLo : Int
  rawHi : Int
  physLo : Int
  physHi : Int
  negLim : Int
  posLim : Int
  timeoutMs : Int
  deriving DecidableEq, Repr

/-- measure_current.c:105-119 `meascurr_config` (0..65 to 0..1.1 A, limits 0..5 A) -/
def meascurrConfig : MeasConfig :=
  { avgMs := 5, rawLo := 0, rawHi := 65, physLo := 0, physHi := 704,
    negLim := 0, posLim := 3200, timeoutMs := 3000 }

/-- measure_temp.c:85-111 `meastemp_config` (150..480 C, limits -20..500 C) -/
def meastempConfig (c : Conf) : MeasConfig :=
  { avgMs := 50, rawLo := if c.smd then 210 else 209, rawHi := if c.smd then 411 else 410,
    physLo := 9600, physHi := 30720, negLim := -1280, posLim := 32000, timeoutMs := 3000 }

/-- measure.c:74-99: the configuration of a channel; an index outside of the array is undefined -/
def measConfig (c : Conf) (chan : Nat) : Option MeasConfig :=
  if chan = 0 then some meascurrConfig else if chan = 1 then some (meastempConfig c) else none

/-- measure_current.c:55-73 `meascurr_filter_handler` -/
def meascurrFilter (m : MeasCurr) (raw : Int) : MeasCurr × Int :=
  let (f, out) := if m.initialized then lpU16Run m.filter raw 4 else (lpU16Set raw, raw)
  ({ m with filter := f }, cMin out 1023)

/-- measure.c:183-202 `adc_trigger_next_chan` -/
def adcTriggerNext (c : Conf) (now : Int) (m : Meas) : Option Meas := do
  let active := ringNext m.active 1
  let cfg ← measConfig c active
  let t ← timerArm now cfg.avgMs
  return { m with active := active, avgSum := 0, avgCount := 0, avgTimer := t, adcOn := true }

/-- measure.c:234-265: adjustment, plausibility check and plausibility timeout of one channel -/
def measPlaus (c : Conf) (cfg : MeasConfig) (now : Int) (ch : MeasChan) (phys : Int) :
    Option (MeasChan × Int × Plaus) := do
  let phys ← if c.adj then fixptSub phys ch.adj else some phys
  let (ch, phys, plaus) :=
    if phys < cfg.negLim then (ch, cfg.negLim, Plaus.notPlausible)
    else if phys > cfg.posLim then (ch, cfg.posLim, Plaus.notPlausible)
    else ({ ch with timerRunning := false, plausTimeout := false }, phys, Plaus.plausible)
  let ch ← if plaus ≠ .plausible ∧ !ch.timerRunning then do
      let t ← timerArm now cfg.timeoutMs
      pure { ch with timer := t, timerRunning := true }
    else pure ch
  let ch := if ch.timerRunning && timerExpired now ch.timer then { ch with plausTimeout := true }
            else ch
  return (ch, phys, if ch.plausTimeout then .timeout else plaus)

/-- measure.c:218 the averaged raw value; division by zero is undefined -/
def measRaw (m : Meas) : Option Int := do
  if m.avgCount = 0 then none
  else return toU16 (m.avgSum / m.avgCount)

/-- measure.c:204-265 `measure_handle_result` up to the call of the user handler: gives the new
    state, the channel, the physical value and its plausibility. -/
def measHandle (c : Conf) (now : Int) (m : Meas) (mc : MeasCurr) :
    Option (Meas × MeasCurr × Int × Plaus) := do
  let cfg ← measConfig c m.active
  let raw ← measRaw m
  let (mc, raw) := if m.active = 0 then meascurrFilter mc raw else (mc, raw)
  let phys ← scale (toS16 raw) (toS16 cfg.rawLo) (toS16 cfg.rawHi) cfg.physLo cfg.physHi
  if h : m.active < 2 then do
    let (ch, phys, plaus) ← measPlaus c cfg now m.chan[m.active] phys
    return ({ m with chan := m.chan.set m.active ch }, mc, phys, plaus)
  else none

/-- measure.c:270-288 `ISR(ADC_vect)` with conversion result `raw` -/
def adcIsr (now : Int) (m : Meas) (raw : Int) : Meas :=
  let m := { m with avgSum := toU32 (m.avgSum + raw), avgCount := toU16 (m.avgCount + 1) }
  if timerExpired now m.avgTimer then { m with resultAvail := true, adcOn := false } else m

/-- measure_temp.c:61-81 `meastemp_result_handler` -/
def meastempResult (s : Sys) (phys : Int) (plaus : Plaus) : Option Sys :=
  let s := match plaus with
    | .plausible => contrtempSetEmerg s false
    | .timeout => contrtempSetEmerg s true
    | .notPlausible => s
  match plaus with
  | .plausible =>
    let s := { s with mtPrev := phys }
    let s := contrcurrSetRestricted s (phys < 6400)
    contrtempSetFeedback s phys
  | .notPlausible => contrtempSetFeedback s s.mtPrev
  | .timeout => some s

/-- measure_current.c:78-101 `meascurr_result_handler` -/
def meascurrResult (s : Sys) (phys : Int) (plaus : Plaus) : Option Sys := do
  let flags := s.cc.emerg
  let flags := match plaus with
    | .plausible => flags &&& ~~~1#8
    | .timeout => flags ||| 1#8
    | .notPlausible => flags
  let s ← contrcurrSetEmerg s flags
  let s ← match plaus with
    | .plausible => contrcurrSetFeedback { s with mcurr := { s.mcurr with prevFeedback := phys } } phys
    | .notPlausible => contrcurrSetFeedback s s.mcurr.prevFeedback
    | .timeout => some s
  return { s with mcurr := { s.mcurr with initialized := true } }

/-- measure.c:295-308 `measure_work` (with 204-268 and the dispatch 127-140) -/
def measureWork (c : Conf) (s : Sys) : Option Sys :=
  let avail := s.meas.resultAvail
  let s := { s with meas := { s.meas with resultAvail := false } }
  if avail then do
    let (m, mc, phys, plaus) ← measHandle c s.now s.meas s.mcurr
    let s := { s with meas := m, mcurr := mc }
    let s ← if m.active = 1 then meastempResult s phys plaus else meascurrResult s phys plaus
    let m ← adcTriggerNext c s.now s.meas
    return { s with meas := m }
  else some s

/-- measure.c:310-316 `measure_adjust_set` for the temperature channel (no effect without
    CONF_ADJ) -/
def measureAdjustSet (c : Conf) (s : Sys) (a : Int) : Sys :=
  if c.adj then
    { s with meas := { s.meas with chan := s.meas.chan.set 1 { s.meas.chan[1] with adj := a } } }
  else s

/-- measure.c:318-325 `measure_adjust_get` for the temperature channel -/
def measureAdjustGet (c : Conf) (s : Sys) : Int := if c.adj then s.meas.chan[1].adj else 0

/-- measure_temp.c:43-51 `meastemp_adjust_set` -/
def meastempAdjustSet (c : Conf) (s : Sys) (a : Int) : Option Sys :=
  if c.adj then do
    let s := measureAdjustSet c s a
    let s := setCache s { s.set.cache with adj := a }
    let s ← sysStore s
    return menuRequestUpdate s
  else some s

/-- measure_temp.c:113-118 `meastemp_init` -/
def meastempInit (c : Conf) (s : Sys) : Sys :=
  if c.adj then measureAdjustSet c s s.set.cache.adj else s

/-- measure_current.c:121-124 `meascurr_init` -/
def meascurrInit (s : Sys) : Sys := { s with mcurr := { s.mcurr with initialized := false } }

/-- measure.c:290-293 `measure_start`; measure.c:327-334 `measure_init` performs one conversion
    whose result is discarded (interrupts are disabled, the flag is cleared) and leaves no trace -/
def measureStart (c : Conf) (s : Sys) : Option Sys := do
  let m ← adcTriggerNext c s.now s.meas
  return { s with meas := m }

end Verif
