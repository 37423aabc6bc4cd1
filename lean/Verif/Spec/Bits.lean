/-
Independent specification of a sequence of bit writes.
-/
namespace Verif.Spec

/-- A bit map operation as seen by its user. -/
inductive BitOp where
  | set (n : Nat)
  | clear (n : Nat)
  | write (n : Nat) (v : Bool)
  deriving Repr, DecidableEq

/-- the bit an operation is aimed at -/
def BitOp.bit : BitOp → Nat
  | .set n | .clear n | .write n _ => n

/-- the value an operation stores -/
def BitOp.value : BitOp → Bool
  | .set _ => true
  | .clear _ => false
  | .write _ v => v

/-- The value last stored in bit `k` by `ops` (executed in list order), or `init` if no
    operation was aimed at `k`. -/
def lastWritten (init : Bool) (k : Nat) : List BitOp → Bool
  | [] => init
  | op :: ops => lastWritten (if op.bit = k then op.value else init) k ops

end Verif.Spec
