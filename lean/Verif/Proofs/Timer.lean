import Verif.Model.Timer
import Verif.Proofs.Arith
/-
Helper lemmas for the timer.
-/
namespace Verif

theorem timerMsToCount_eq {ms : Int} (h0 : 0 ≤ ms) (h1 : ms ≤ 32767) :
    timerMsToCount ms = some ms := by
  unfold timerMsToCount TIMERCPS sdivRoundUp
  rw [ck32_eq (by unfold S32; omega)]
  simp only [Option.bind_eq_bind, Option.bind_some]
  rw [if_neg (by omega), if_neg (by omega), if_neg (by omega), ck32_eq (by unfold S32; omega)]
  simp only [Option.bind_some]
  rw [ck32_eq (by unfold S32; omega)]
  simp only [Option.bind_some]
  rw [tdiv_pos_eq, if_pos (by omega), ck32_eq (by unfold S32; omega)]
  simp only [Option.bind_some, pure]
  congr 1
  unfold toS16; omega

theorem timerCountToMs_eq {c : Int} (h : S16 c) : timerCountToMs c = some c := by
  unfold S16 at h
  unfold timerCountToMs TIMERCPS sdivRound
  rw [ck32_eq (by unfold S32; omega)]
  simp only [Option.bind_eq_bind, Option.bind_some]
  rw [if_neg (by omega)]
  have e : (1000 : Int).tdiv 2 = 500 := by decide
  rw [e]
  split
  · rw [ck32_eq (by unfold S32; omega)]
    simp only [Option.bind_some]
    rw [tdiv_pos_eq, if_neg (by omega), ck32_eq (by unfold S32; omega)]
    congr 1; omega
  · rw [ck32_eq (by unfold S32; omega)]
    simp only [Option.bind_some]
    rw [tdiv_pos_eq, if_pos (by omega), ck32_eq (by unfold S32; omega)]
    congr 1; omega

end Verif

