import Verif.Spec.StoreIn
import Verif.Spec.Wear
/-
How often the EEPROM is written, with interrupts inside the work functions.
-/
namespace Verif.Spec

/-- A stretch of the main loop from the state `x0` on, together with the EEPROM bytes programmed in it: the tick at which
    the interrupt came that did it, and the address, the newest first.  (The interrupt may have come inside a work
    function, see `WriterStep`.) -/
inductive ProgramsI (v : Speed) (c : Conf) (x0 : LoopI) (L0 : Nat) : LoopI → Nat → List (Nat × Nat) → Prop where
  | start : ProgramsI v c x0 L0 x0 L0 []
  | programs {x L y M l a d} : ProgramsI v c x0 L0 x L l → WriterStep v c x L (some .eeIsr) y M →
      y.s.set.prog = some (a, d) → ProgramsI v c x0 L0 y M ((M, a) :: l)
  | other {x L e y M l} : ProgramsI v c x0 L0 x L l → WriterStep v c x L e y M →
      (e = some .eeIsr → y.s.set.prog = none) → ProgramsI v c x0 L0 y M l

end Verif.Spec
