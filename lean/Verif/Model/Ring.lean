/-
Model of firmware/ring.c.  uint8_t values are natural numbers; the arithmetic wraps at 256.
-/
namespace Verif

/-- ring.c:25-34 `ring_next` -/
def ringNext (current maxIndex : Nat) : Nat :=
  let next := (current + 1) % 256
  if next > maxIndex then 0 else next

/-- ring.c:36-45 `ring_prev` -/
def ringPrev (current maxIndex : Nat) : Nat :=
  let prev := (current + 255) % 256
  if prev > maxIndex then maxIndex else prev

end Verif
