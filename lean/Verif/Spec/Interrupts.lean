import Verif.Model.Main
/-
What an interrupt may change, and what it means that the main program does not care.
-/
namespace Verif.Spec
open Verif

/-- `t` is `s` except for what is written by the interrupts of the ADC (measure.c:270-288: sum and number of the samples,
    "result available", the ADC itself) and of the EEPROM (settings.c:130-167: the offset, the enable bit, the memory and
    the byte being programmed). -/
structure DiffersByIsr (s t : Sys) : Prop where
  now : t.now = s.now
  chan : t.meas.chan = s.meas.chan
  active : t.meas.active = s.meas.active
  avgTimer : t.meas.avgTimer = s.meas.avgTimer
  mcurr : t.mcurr = s.mcurr
  mtPrev : t.mtPrev = s.mtPrev
  cc : t.cc = s.cc
  ct : t.ct = s.ct
  ocr : t.ocr = s.ocr
  menu : t.menu = s.menu
  btn : t.btn = s.btn
  disp : t.disp = s.disp
  ports : t.ports = s.ports
  debugEn : t.debugEn = s.debugEn
  storeTimer : t.set.storeTimer = s.set.storeTimer
  storeRequest : t.set.storeRequest = s.set.storeRequest
  cache : t.set.cache = s.set.cache
  eeIndex : t.set.eeIndex = s.set.eeIndex

/-- what the interrupts write is as before -/
structure KeepsIsr (s t : Sys) : Prop where
  avgCount : t.meas.avgCount = s.meas.avgCount
  avgSum : t.meas.avgSum = s.meas.avgSum
  resultAvail : t.meas.resultAvail = s.meas.resultAvail
  adcOn : t.meas.adcOn = s.meas.adcOn
  eeOff : t.set.eeOff = s.set.eeOff
  eerie : t.set.eerie = s.set.eerie
  eeprom : t.set.eeprom = s.set.eeprom
  prog : t.set.prog = s.set.prog

/-- The order of two events makes no difference: both orders are undefined, or both lead to the same state. -/
def EitherOrder (c : Conf) (s : Sys) (e f : Ev) : Prop :=
  (step c s e).bind (fun t => step c t f) = (step c s f).bind (fun t => step c t e)

end Verif.Spec
