import Verif.Spec.Sys
import Verif.Model.Inside
/-
Ticks of the timer inside the work functions.
-/
namespace Verif.Spec

/-- two times of the 16-bit timer are at most `n` ticks apart -/
def Apart (n : Nat) (x y : Int) : Prop := ∃ k : Int, -n ≤ k ∧ k ≤ n ∧ (x - y - k) % 65536 = 0

/-- all the times the firmware remembers, and the time itself -/
structure Times where
  now : Int
  store : Int
  avg : Int
  plaus0 : Int
  plaus1 : Int
  curr : Int
  iron : Int
  temp : Int
  timeout : Int
  ramp : Int
  pre : Int
  debounce : Int
  mux : Int

/-- the times in a state -/
def timesOf (s : Sys) : Times where
  now := s.now
  store := s.set.storeTimer
  avg := s.meas.avgTimer
  plaus0 := s.meas.chan[0].timer
  plaus1 := s.meas.chan[1].timer
  curr := s.cc.timer
  iron := s.ct.biTimer
  temp := s.ct.dtTimer
  timeout := s.menu.timeout
  ramp := s.menu.rampTimer
  pre := s.menu.rampPreTimer
  debounce := s.btn.debounce
  mux := s.disp.muxTimer

/-- the state with other times -/
def timeSet (t : Times) (s : Sys) : Sys :=
  { s with
    now := t.now
    set := { s.set with storeTimer := t.store }
    meas := { s.meas with
      avgTimer := t.avg
      chan := #v[{ s.meas.chan[0] with timer := t.plaus0 }, { s.meas.chan[1] with timer := t.plaus1 }] }
    cc := { s.cc with timer := t.curr }
    ct := { s.ct with biTimer := t.iron, dtTimer := t.temp }
    menu := { s.menu with timeout := t.timeout, rampTimer := t.ramp, rampPreTimer := t.pre }
    btn := { s.btn with debounce := t.debounce }
    disp := { s.disp with muxTimer := t.mux } }

/-- The states agree except for the time and the times remembered; these are at most `n` ticks apart. -/
structure SameBut (n : Nat) (s t : Sys) : Prop where
  rest : t = timeSet (timesOf t) s
  now : Apart n s.now t.now
  store : Apart n s.set.storeTimer t.set.storeTimer
  avg : Apart n s.meas.avgTimer t.meas.avgTimer
  plaus0 : Apart n s.meas.chan[0].timer t.meas.chan[0].timer
  plaus1 : Apart n s.meas.chan[1].timer t.meas.chan[1].timer
  curr : Apart n s.cc.timer t.cc.timer
  iron : Apart n s.ct.biTimer t.ct.biTimer
  temp : Apart n s.ct.dtTimer t.ct.dtTimer
  timeout : Apart n s.menu.timeout t.menu.timeout
  ramp : Apart n s.menu.rampTimer t.menu.rampTimer
  pre : Apart n s.menu.rampPreTimer t.menu.rampPreTimer
  debounce : Apart n s.btn.debounce t.btn.debounce
  mux : Apart n s.disp.muxTimer t.disp.muxTimer

/-- the functions called by the main loop -/
def IsWork : Ev → Bool
  | .measureWork | .menuWork | .buttonsWork _ | .displayWork | .settingsWork => true
  | _ => false

/-- Every state of the running firmware when the timer interrupt may also come inside the work functions: after booting
    from any valid EEPROM, any sequence of interrupts between the work calls and of work calls with fewer than 1000
    ticks (one second) inside. -/
inductive RunningT (c : Conf) : Sys → Prop where
  | boot {ee pinb s} : ValidEeprom c ee → boot c ee pinb = some s → RunningT c s
  | isr {s e s'} : RunningT c s → IsWork e = false → possible s e = true → step c s e = some s' → RunningT c s'
  | call {s e g s' g'} : RunningT c s → IsWork e = true → g.sum < 1000 → workT c s e g = some (s', g') → RunningT c s'

end Verif.Spec
