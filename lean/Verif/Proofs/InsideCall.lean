import Verif.Proofs.InsideMeas
import Verif.Proofs.InvBoot
/-
A call with ticks inside in terms of a call at one instant.
-/
namespace Verif
open Spec

theorem work_cases {e : Ev} (h : IsWork e = true) : e = .measureWork ∨ e = .menuWork ∨
    (∃ pinb, e = .buttonsWork pinb) ∨ e = .displayWork ∨ e = .settingsWork := by
  cases e <;> simp [IsWork] at h ⊢

theorem inv_times {c : Conf} {s : Sys} (h : Inv c s) (τ : Times) (hn : 0 ≤ τ.now ∧ τ.now ≤ 65535) :
    Inv c (timeSet τ s) where
  now := hn
  set := { h.set with }
  meas := { h.meas with }
  mcurr := h.mcurr
  mt := h.mt
  cc := { h.cc with }
  ct := { h.ct with }
  emerg := h.emerg
  restr := h.restr
  menu := { h.menu with }
  en := h.en
  dbg := h.dbg
  disp := { h.disp with }

theorem timeSet_back (s : Sys) (τ : Times) : timeSet (timesOf s) (timeSet τ s) = s := by
  have key : timeSet (timesOf s) (timeSet τ s) =
      { s with meas := { s.meas with chan := #v[s.meas.chan[0], s.meas.chan[1]] } } := rfl
  have e : #v[s.meas.chan[0], s.meas.chan[1]] = s.meas.chan := by
    ext i hi
    rcases i with _ | _ | i
    · rfl
    · rfl
    · omega
  rw [key, e]

/-- one call: the state before and after in terms of a call at one instant -/
theorem work_call {c : Conf} {s s' : Sys} {e : Ev} {g g' : List Nat} (hi : Inv c s) (he : IsWork e = true)
    (hg : g.sum < 1000) (h : workT c s e g = some (s', g')) :
    ∃ τ τ' t', Inv c (timeSet τ s) ∧ step c (timeSet τ s) e = some t' ∧ s' = timeSet τ' t' ∧ Inv c t' ∧ Inv c s' := by
  obtain ⟨t, h1, h2, h3⟩ := work_atOnce c s e g (work_cases he) hg
  rcases h3 with ⟨h3, -⟩ | ⟨s1, g1, t', e1, e2, e3, -, e5⟩
  · rw [h] at h3; cases h3
  · rw [h] at e1; cases e1
    have et : t = timeSet (timesOf t) s := h2.rest
    have it : Inv c t := by rw [et]; exact inv_times hi _ (by show 0 ≤ t.now ∧ t.now ≤ 65535; rw [h1]; exact hi.now)
    have hp : possible t e = true := by rcases work_cases he with rfl | rfl | ⟨p, rfl⟩ | rfl | rfl <;> rfl
    have it' : Inv c t' := (it.step hp).elim e2
    have es : s' = timeSet (timesOf s') t' := by
      have := timeSet_back s' (timesOf t')
      rw [← e3.rest] at this
      exact this.symm
    obtain ⟨k, -, hk⟩ := e5 hi.now
    refine ⟨timesOf t, timesOf s', t', et ▸ it, et ▸ e2, es, it', ?_⟩
    rw [es]
    exact inv_times it' _ (by show 0 ≤ s'.now ∧ s'.now ≤ 65535; rw [hk]; exact toU16_rng _)

end Verif
