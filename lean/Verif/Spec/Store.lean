/-
Independent specification of "store a while after the latest request".
-/
namespace Verif.Spec

/-- what the rest of the firmware does with the store machinery, at tick `T` -/
inductive StoreEv where
  /-- `store_settings()` -/
  | request (T : Nat)
  /-- one pass of the main loop polls `settings_work()` -/
  | poll (T : Nat)
  deriving Repr, DecidableEq

def StoreEv.tick : StoreEv → Nat
  | .request T | .poll T => T

/-- the events happen in the order of time, none before tick `T` -/
def Ordered (T : Nat) : List StoreEv → Prop
  | [] => True
  | e :: es => T ≤ e.tick ∧ Ordered e.tick es

/-- The ticks at which a store has to start.  `pending` is the tick of the latest request that
    no store has served.  A store starts at the first poll 1000 ticks or more after that request;
    the 16-bit tick counter makes the timer look unexpired again from 33768 ticks on, for 32768
    ticks, and so on. -/
def storeStarts (pending : Option Nat) : List StoreEv → List Nat
  | [] => []
  | .request T :: es => storeStarts (some T) es
  | .poll T :: es =>
    match pending with
    | none => storeStarts none es
    | some R =>
      if 1000 ≤ T - R ∧ (T - R - 1000) % 65536 < 32768 then T :: storeStarts none es
      else storeStarts (some R) es

end Verif.Spec
