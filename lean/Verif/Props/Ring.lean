import Verif.Model.Ring
import Mathlib.Tactic.Linarith
/-
C14: ring index arithmetic (ring.c).
-/
namespace Verif.Props

/-- `ring_next`/`ring_prev` are `+1`/`-1` modulo `max+1` on indices `0..max`, for every
    8-bit `max`. -/
theorem C14_step (i m : Nat) (hm : m ≤ 255) (hi : i ≤ m) :
    ringNext i m = (i + 1) % (m + 1) ∧ ringPrev i m = (i + m) % (m + 1) := by
  unfold ringNext ringPrev
  constructor
  · by_cases h : i = m
    · subst h
      rw [Nat.mod_self]
      simp only []
      split <;> omega
    · rw [Nat.mod_eq_of_lt (by omega : i + 1 < m + 1), Nat.mod_eq_of_lt (by omega : i + 1 < 256)]
      rw [if_neg (by omega)]
  · by_cases h : i = 0
    · subst h
      rw [Nat.mod_eq_of_lt (by omega : 0 + m < m + 1)]
      simp only []
      split <;> omega
    · have e : (i + m) % (m + 1) = i - 1 := by
        rw [show i + m = (i - 1) + (m + 1) by omega, Nat.add_mod_right,
          Nat.mod_eq_of_lt (by omega)]
      rw [e]
      simp only []
      rw [show (i + 255) % 256 = i - 1 by omega, if_neg (by omega)]

example : ringNext 5 5 = 0 ∧ ringPrev 0 5 = 5 ∧ ringNext 255 255 = 0 ∧ ringPrev 0 255 = 255 := by
  decide

/-- Whatever the 8-bit inputs, the result is inside the ring. -/
theorem C14_range (i m : Nat) (_hi : i ≤ 255) (_hm : m ≤ 255) :
    ringNext i m ≤ m ∧ ringPrev i m ≤ m := by
  unfold ringNext ringPrev
  simp only []
  constructor <;> split <;> omega

example : ringNext 200 5 = 0 ∧ ringPrev 200 5 = 5 := by decide

/-- The two directions are inverse to each other on the ring. -/
theorem C14_inverse (i m : Nat) (hm : m ≤ 255) (hi : i ≤ m) :
    ringPrev (ringNext i m) m = i ∧ ringNext (ringPrev i m) m = i := by
  unfold ringNext ringPrev
  simp only []
  constructor <;> split <;> split <;> omega

example : ringPrev (ringNext 5 5) 5 = 5 ∧ ringNext (ringPrev 0 5) 5 = 0 := by decide

/-- `n` steps forward from `i`. -/
theorem C14_iterate (i m n : Nat) (hm : m ≤ 255) (hi : i ≤ m) :
    (fun j => ringNext j m)^[n] i = (i + n) % (m + 1) := by
  induction n with
  | zero => simp [Nat.mod_eq_of_lt (by omega : i < m + 1)]
  | succ n ih =>
    rw [Function.iterate_succ_apply', ih]
    have h : (i + n) % (m + 1) ≤ m := by
      have := Nat.mod_lt (i + n) (by omega : 0 < m + 1); omega
    rw [(C14_step _ m hm h).1, Nat.mod_add_mod]; rfl

example : (fun j => ringNext j 5)^[10] 3 = 1 := by decide

/-- Every slot of the ring is visited exactly once per turn. -/
theorem C14_turn (i j m : Nat) (hm : m ≤ 255) (hi : i ≤ m) (hj : j ≤ m) :
    ∃ n, n ≤ m ∧ (fun k => ringNext k m)^[n] i = j ∧
      ∀ n', n' ≤ m → (fun k => ringNext k m)^[n'] i = j → n' = n := by
  have key : ∀ n, n ≤ m → ((i + n) % (m + 1) = j ↔ n = if i ≤ j then j - i else j + m + 1 - i) := by
    intro n hn
    by_cases h : i + n ≤ m
    · rw [Nat.mod_eq_of_lt (by omega)]; split <;> omega
    · rw [show i + n = (i + n - (m + 1)) + (m + 1) by omega, Nat.add_mod_right,
        Nat.mod_eq_of_lt (by omega)]; split <;> omega
  refine ⟨if i ≤ j then j - i else j + m + 1 - i, by split <;> omega, ?_, ?_⟩
  · rw [C14_iterate i m _ hm hi]
    exact (key _ (by split <;> omega)).2 rfl
  · intro n' hn' h
    rw [C14_iterate i m _ hm hi] at h
    exact (key _ hn').1 h

example : (fun j => ringNext j 5)^[4] 3 = 1 := by decide

end Verif.Props
