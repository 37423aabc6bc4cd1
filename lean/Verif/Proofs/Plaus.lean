import Verif.Props.Timer
import Verif.Proofs.Measure
/-
The plausibility timeout of a channel over a history of readings.
-/
namespace Verif
open Spec Props

/-- the time of the latest reading -/
def lastTime (h : List (Nat × Bool)) : Nat := (h.map (·.1)).headD 0

/-- what the channel remembers: the start of the disturbance and whether it has lasted 3 s -/
structure Remembers (ch : MeasChan) (h : List (Nat × Bool)) : Prop where
  calm : disturbedSince h = none → ch.timerRunning = false ∧ ch.plausTimeout = false
  busy : ∀ t, disturbedSince h = some t → ch.timerRunning = true ∧
    ch.timer = (((t + 3000) % 65536 : Nat) : Int) ∧ ch.plausTimeout = decide (3000 ≤ lastTime h - t)

theorem disturbed_le {h : List (Nat × Bool)} (hg : GapsOk (h.map (·.1))) {t : Nat}
    (hd : disturbedSince h = some t) : t ≤ lastTime h := by
  induction h with
  | nil => cases hd
  | cons r h ih =>
    obtain ⟨T, b⟩ := r
    cases b
    · have e : disturbedSince ((T, false) :: h) = some ((disturbedSince h).getD T) := rfl
      rw [e] at hd
      cases hd' : disturbedSince h with
      | none =>
        rw [hd'] at hd
        simp only [Option.getD_none, Option.some.injEq] at hd
        show t ≤ T
        omega
      | some t' =>
        rw [hd'] at hd
        simp only [Option.getD_some, Option.some.injEq] at hd
        subst hd
        cases h with
        | nil => cases hd'
        | cons r h =>
          obtain ⟨g1, g2, g3⟩ := hg
          have h1 : t' ≤ r.1 := ih g3 hd'
          have h2 : r.1 ≤ T := g1
          show t' ≤ T
          omega
    · cases hd

theorem arm3000 (t : Nat) : timerArm (nowAt t) 3000 = some (((t + 3000) % 65536 : Nat) : Int) := by
  rw [timerArm_eq _ (by decide) (by decide)]
  have : toU16 3000 = 3000 := by decide
  rw [this, Option.some.injEq]
  unfold nowAt toU16
  omega

theorem expired3000 {t T : Nat} (h0 : t ≤ T) (h1 : T < t + 3000 + 32768) :
    timerExpired (nowAt T) (((t + 3000) % 65536 : Nat) : Int) = decide (3000 ≤ T - t) := by
  rw [Bool.eq_iff_iff]
  unfold timerExpired timerCountSince nowAt toU16 toS16
  simp only [ge_iff_le, decide_eq_true_eq]
  omega

theorem plaus_step {cfg : MeasConfig} (ht : cfg.timeoutMs = 3000) {ch : MeasChan}
    {h : List (Nat × Bool)} {T : Nat} {v : Int} (hg : GapsOk (T :: h.map (·.1))) (hr : Remembers ch h)
    {b : Bool} (hb : b = true ↔ cfg.negLim ≤ v ∧ v ≤ cfg.posLim) :
    ∃ ch' p, plausStep cfg (nowAt T) ch v = some (ch', p, verdict ((T, b) :: h) T) ∧
      ch'.adj = ch.adj ∧ Remembers ch' ((T, b) :: h) := by
  unfold plausStep
  cases b with
  | true =>
    rw [if_neg (by have := hb.mp rfl; omega)]
    exact ⟨_, _, rfl, rfl, ⟨fun _ => ⟨rfl, rfl⟩, fun t h => by cases h⟩⟩
  | false =>
    have hv : ¬ (cfg.negLim ≤ v ∧ v ≤ cfg.posLim) := fun hh => by cases hb.mpr hh
    rw [if_pos (by omega)]
    have hnew : disturbedSince ((T, false) :: h) = some ((disturbedSince h).getD T) := rfl
    have hl : lastTime ((T, false) :: h) = T := rfl
    cases hd : disturbedSince h with
    | none =>
      obtain ⟨r1, r2⟩ := hr.calm hd
      rw [hd] at hnew
      simp only [Option.getD_none] at hnew
      simp only [r1, r2, ht, arm3000, Bool.false_eq_true, if_false, Option.map_some, Bool.false_or,
        expired3000 (t := T) (T := T) (by omega) (by omega)]
      have hver : verdict ((T, false) :: h) T =
          if decide (3000 ≤ T - T) = true then Plaus.timeout else Plaus.notPlausible := by
        unfold verdict; rw [hnew]; simp only [decide_eq_true_eq]
      rw [hver]
      refine ⟨_, _, rfl, rfl, ⟨fun hh => (by rw [hnew] at hh; cases hh), fun t hh => ?_⟩⟩
      rw [hnew] at hh
      cases hh
      exact ⟨rfl, rfl, rfl⟩
    | some t =>
      obtain ⟨r1, r2, r3⟩ := hr.busy t hd
      rw [hd] at hnew
      simp only [Option.getD_some] at hnew
      have hle : t ≤ lastTime h ∧ lastTime h ≤ T ∧ T ≤ lastTime h + 32767 := by
        cases h with
        | nil => cases hd
        | cons r h =>
          obtain ⟨g1, g2, g3⟩ := hg
          exact ⟨disturbed_le (h := r :: h) g3 hd, g1, g2⟩
      have hx : (ch.plausTimeout || timerExpired (nowAt T) ch.timer) = decide (3000 ≤ T - t) := by
        rw [r2, r3]
        by_cases hlong : 3000 ≤ lastTime h - t
        · rw [decide_eq_true hlong, Bool.true_or, eq_comm, decide_eq_true_eq]; omega
        · rw [decide_eq_false hlong, Bool.false_or, expired3000 (by omega) (by omega)]
      have hver : verdict ((T, false) :: h) T =
          if decide (3000 ≤ T - t) = true then Plaus.timeout else Plaus.notPlausible := by
        unfold verdict; rw [hnew]; simp only [decide_eq_true_eq]
      simp only [r1, if_true, Option.map_some, hx]
      rw [hver]
      refine ⟨_, _, rfl, rfl, ⟨fun hh => (by rw [hnew] at hh; cases hh), fun t' hh => ?_⟩⟩
      rw [hnew] at hh
      cases hh
      exact ⟨rfl, r2, rfl⟩

end Verif
