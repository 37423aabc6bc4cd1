import Verif.Spec.Host
import Verif.Model.Reports
/-
What the debug reports of the measurement and of the controllers are about.
-/
namespace Verif.Spec

/-- The value given to the report `k` by the last of the calls that is for `k`, or `old` if there is none. -/
def lastCall (k : Slot) (old : Int) (calls : List (Slot × Int)) : Int :=
  calls.foldl (fun v x => if x.1 = k then x.2 else v) old

/-- a name, from its characters -/
def chars (l : List Char) : List Nat := l.map Char.toNat

/-- The second name of a term of a PID controller: e, p, i, d and pe. -/
def termName : Term → List Nat
  | .e => chars ['e']
  | .p => chars ['p']
  | .i => chars ['i']
  | .d => chars ['d']
  | .pe => chars ['p', 'e']

/-- The name under which a value is reported, and the second name of the terms of the controllers. -/
def nameOf : Slot → List Nat × Option (List Nat)
  | .cr1 => (chars ['c', 'r', '1'], none)
  | .cr2 => (chars ['c', 'r', '2'], none)
  | .rs => (chars ['r', 's'], none)
  | .cy => (chars ['c', 'y'], none)
  | .tr => (chars ['t', 'r'], none)
  | .ty1 => (chars ['t', 'y', '1'], none)
  | .ty2 => (chars ['t', 'y', '2'], none)
  | .mc => (chars ['m', 'c'], none)
  | .mt => (chars ['m', 't'], none)
  | .fc => (chars ['f', 'c'], none)
  | .pidC t => (chars ['p', 'i', 'd', '-', 'c'], some (termName t))
  | .pidT t => (chars ['p', 'i', 'd', '-', 't'], some (termName t))

/-- The number under which the source of the current feedback is reported: 0 the model of the current, 2 the
    measurement, 1 the change from the model to the measurement. -/
def sourceNumber : RState → Int
  | .disabled => 0
  | .syncing => 1
  | .enabled => 2

/-- The report as an operation on the debug interface. -/
def opOf (time : Nat) (x : Slot × Int) : DebugOp :=
  match nameOf x.1 with
  | (n, none) => .value n x.2 time
  | (n, some m) => .term n m x.2 time

/-- What is to be printed for the calls: the values that differ from the one reported before. -/
def changes (time : Nat) (old : Slot → Int) : List (Slot × Int) → List DebugOp
  | [] => []
  | x :: xs => (if x.2 ≠ old x.1 then [opOf time x] else []) ++ changes time (fun k => if k = x.1 then x.2 else old k) xs

/-- The operations on the debug interface that are not made by `measure_work`: switching it on or off, and the boost
    mode, "tb". -/
def ModeOp : DebugOp → Prop
  | .enable _ => True
  | .value n v t => n = [116, 98] ∧ -2147483648 ≤ v ∧ v ≤ 2147483647 ∧ t < 65536
  | .term _ _ _ _ => False

/-- Whether a value has been printed with the name since debugging was switched on last (the newest operation first). -/
def printedSince (name : List Nat) : List DebugOp → Bool
  | [] => false
  | .enable true :: _ => false
  | .enable false :: older => printedSince name older
  | .value n _ _ :: older => decide (n = name ∧ debugOn older = true) || printedSince name older
  | .term _ _ _ _ :: older => printedSince name older

end Verif.Spec
