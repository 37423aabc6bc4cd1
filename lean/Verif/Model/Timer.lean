import Verif.Model.Util
/-
Model of firmware/timer.c / timer.h: 16-bit tick counter, TIMERCPS = 1000 (timer.h).
A `struct timer` is its 16-bit `count`.  `now` is the value returned by timer_now().
-/
namespace Verif

/-- timer.h `TIMERCPS` -/
def TIMERCPS : Int := 1000

/-- timer.c:47-51 `_timer_ms_to_count` -/
def timerMsToCount (ms : Int) : Option Int := do
  let p ← ck32 (TIMERCPS * ms)
  let r ← sdivRoundUp ck32 p 1000
  return toS16 r

/-- timer.c:53-57 `_timer_count_to_ms` -/
def timerCountToMs (count : Int) : Option Int := do
  let p ← ck32 (count * 1000)
  sdivRound ck32 p TIMERCPS

/-- timer.c:59-62 `_timer_count_since` -/
def timerCountSince (now t : Int) : Int := toS16 (toU16 (now - t))

/-- timer.c:64-67 `timer_expired` -/
def timerExpired (now t : Int) : Bool := timerCountSince now t ≥ 0

/-- timer.c:69-72 `timer_ms_since` -/
def timerMsSince (now t : Int) : Option Int := timerCountToMs (timerCountSince now t)

/-- timer.c:74-78 `timer_arm`: the new timer value -/
def timerArm (now ms : Int) : Option Int := do
  let c ← timerMsToCount ms
  return toU16 (now + toU16 c)

/-- timer.c:80-83 `timer_set_now` -/
def timerSetNow (now : Int) : Int := now

/-- timer.c:85-89 `timer_add` -/
def timerAdd (t ms : Int) : Option Int := do
  let c ← timerMsToCount ms
  return toU16 (t + toU16 c)

/-- timer.c:29-33 the tick interrupt `TIMER0_COMPA_vect` -/
def timerTick (count : Int) : Int := toU16 (count + 1)

end Verif
