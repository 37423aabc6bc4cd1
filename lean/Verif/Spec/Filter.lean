/-
Independent specification vocabulary for the low-pass filters, on unbounded integers.
-/
namespace Verif.Spec

/-- the accumulator recurrence of a low-pass filter with divisor `2^s`, without any
    machine limits -/
def exactAcc (s : Nat) (acc : Int) : List Int → Int
  | [] => acc
  | x :: xs => exactAcc s (acc - acc / 2 ^ s + x) xs

end Verif.Spec
