import Mathlib.Data.Rat.Defs
/-
What the tool on the host has to make of the debug interface.
-/
namespace Verif.Spec

/-- What the firmware does with the debug interface. -/
inductive DebugOp where
  /-- debugging is switched on or off -/
  | enable (on : Bool)
  /-- the value is printed with the name, at the time -/
  | value (name : List Nat) (value : Int) (time : Nat)
  /-- the value is printed with two names (the terms of the PID controllers), at the time -/
  | term (name name2 : List Nat) (value : Int) (time : Nat)

/-- The columns of the table behind the time: the name of the value, and the unit in which it is printed. -/
def columns : List (List Nat × Rat) :=
  [ ([99, 114, 49], 1 / 640),    -- cr1: current, in amperes
    ([99, 114, 50], 1 / 640),    -- cr2: current, in amperes
    ([114, 115], 1),             -- rs
    ([99, 121], 1 / 640),        -- cy: current, in amperes
    ([116, 114], 1 / 64),        -- tr: temperature, in degrees
    ([116, 121, 49], 1 / 64),    -- ty1: temperature, in degrees
    ([116, 121, 50], 1 / 640),   -- ty2: current, in amperes
    ([109, 99], 1),              -- mc
    ([102, 99], 1),              -- fc
    ([109, 116], 1),             -- mt
    ([116, 98], 1) ]             -- tb

/-- Whether debugging is on after the operations (the newest first). -/
def debugOn : List DebugOp → Bool
  | [] => false
  | .enable on :: _ => on
  | _ :: older => debugOn older

/-- The value printed last with the name since debugging was switched on last, or 0 (the newest operation first). -/
def lastValue (name : List Nat) : List DebugOp → Int
  | [] => 0
  | .enable true :: _ => 0
  | .enable false :: older => lastValue name older
  | .value n v _ :: older => if n = name ∧ debugOn older = true then v else lastValue name older
  | .term _ _ _ _ :: older => lastValue name older

/-- The table: a row for every value printed since debugging was switched on last, with the values of all columns at
    that time (the newest operation first). -/
def table : List DebugOp → List (List Rat)
  | [] => []
  | .enable true :: _ => []
  | .enable false :: older => table older
  | .value n v t :: older =>
    if debugOn older = true then
      table older ++ [(t : Rat) :: columns.map fun col => (lastValue col.1 (.value n v t :: older) : Rat) * col.2]
    else table older
  | .term _ _ _ _ :: older => table older

/-- A name: not empty, of characters that are visible. -/
def Name (s : List Nat) : Prop := s ≠ [] ∧ ∀ ch ∈ s, 32 < ch ∧ ch < 127

/-- An operation of the firmware: known names, 32 bit values and 16 bit times. -/
def DebugOp.Valid : DebugOp → Prop
  | .enable _ => True
  | .value n v t => n ∈ columns.map Prod.fst ∧ -2147483648 ≤ v ∧ v ≤ 2147483647 ∧ t < 65536
  | .term n m v t => Name n ∧ Name m ∧ -2147483648 ≤ v ∧ v ≤ 2147483647 ∧ t < 65536

end Verif.Spec
