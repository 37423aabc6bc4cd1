import Verif.Spec.Loop
/-
How often the EEPROM is written.
-/
namespace Verif.Spec

/-- A stretch of the main loop from the state `x0` on, together with the EEPROM bytes programmed in it: time and
    address, the newest first. -/
inductive Programs (v : Speed) (c : Conf) (x0 : Loop) : Loop → List (Nat × Nat) → Prop where
  | start : Programs v c x0 x0 []
  | programs {x y l a d} : Programs v c x0 x l → LoopStep c x (some .eeIsr) y → InTime v y →
      y.s.set.prog = some (a, d) → Programs v c x0 y ((x.T, a) :: l)
  | other {x e y l} : Programs v c x0 x l → LoopStep c x e y → InTime v y →
      (e = some .eeIsr → y.s.set.prog = none) → Programs v c x0 y l

/-- the number of places for the settings in the EEPROM: 8 in 512 bytes, 16 in 1024 bytes, or only one -/
def places (c : Conf) : Nat := if c.eering = false then 1 else if c.bigEe then 16 else 8

end Verif.Spec
