import Verif.Proofs.Debug
/-
C58: debug reports.
-/
namespace Verif.Props
open Spec

/-- A report whose value differs from the one reported before: with debugging enabled exactly one line is
    transmitted, with the time, the prefixes and the value, otherwise nothing; the value is remembered.  (The buffers
    of the two numbers are large enough; a larger text would be undefined, `none`.) -/
theorem C58_change (now : Nat) (u : Uart) (p0 : List Nat) (p1 : Option (List Nat)) (old new : Int) (hv : S32 new)
    (hne : new ≠ old) :
    ∃ u', reportInt now u (some p0) p1 old new = some (new, u') ∧ u'.enabled = u.enabled ∧
      ∃ line, u'.out = u.out ++ line ∧
        if u.enabled then ReportLine p0 p1 (now % 65536) new line else line = [] := by
  have hn : (ltoa10 new).length + 1 ≤ 12 := by have := ltoa10_len hv; omega
  have ht : (utoa16 (now % 65536)).length + 1 ≤ 5 := by have := utoa16_len now; omega
  unfold reportInt printInt printStr3 printTimestamp
  rw [if_pos (Ne.symm hne)]
  simp only [if_pos hn, if_pos ht]
  cases hu : u.enabled with
  | false => exact ⟨u, by simp, hu, [], by simp, by simp⟩
  | true =>
    refine ⟨⟨true, u.out ++ (utoa16 (now % 65536) ++ 58 :: 32 :: p0 ++ (p1.elim [] fun p => 32 :: p) ++
      32 :: ltoa10 new ++ [13, 10])⟩, ?_, rfl, _, rfl, ?_⟩
    · cases p1 <;> simp [hu]
    · rw [if_pos rfl]
      exact ⟨_, _, utoa16_reads now, ltoa10_reads hv, rfl⟩

/-- A report of the value reported before transmits nothing. -/
theorem C58_same (now : Nat) (u : Uart) (p0 p1 : Option (List Nat)) (old : Int) :
    reportInt now u p0 p1 old old = some (old, u) := by
  unfold reportInt
  rw [if_neg (by simp)]

/-- A history of reports of one value: `debug_report_*` is called with each value in turn. -/
def runReports (p0 : List Nat) (p1 : Option (List Nat)) : List (Bool × Nat × Int) → Int → List Nat → Option (Int × List Nat)
  | [], old, out => some (old, out)
  | (en, now, v) :: rest, old, out => do
    let (old, u) ← reportInt now ⟨en, out⟩ (some p0) p1 old v
    runReports p0 p1 rest old u.out

/-- Any history of reports transmits one line for each change of the value that took place while debugging was
    enabled, in order, and nothing else. -/
theorem C58_history (p0 : List Nat) (p1 : Option (List Nat)) (h : List (Bool × Nat × Int))
    (hv : ∀ x ∈ h, S32 x.2.2) (hn : ∀ x ∈ h, x.2.1 < 65536) (old : Int) (out : List Nat) :
    ∃ old' lines, runReports p0 p1 h old out = some (old', out ++ lines) ∧ ReportLines p0 p1 (toReport old h) lines := by
  induction h generalizing old out with
  | nil => exact ⟨old, [], by simp [runReports], rfl⟩
  | cons x h ih =>
    obtain ⟨en, now, v⟩ := x
    have hv' := hv (en, now, v) (by simp)
    have hn' := hn (en, now, v) (by simp)
    have ih := ih (fun x hx => hv x (by simp [hx])) (fun x hx => hn x (by simp [hx]))
    unfold runReports toReport
    by_cases hne : v = old
    · subst hne
      rw [C58_same]
      obtain ⟨o, ls, e, hl⟩ := ih v out
      exact ⟨o, ls, e, by simpa using hl⟩
    · obtain ⟨u', e, -, line, ho, hl⟩ := C58_change now ⟨en, out⟩ p0 p1 old v hv' hne
      rw [e]
      obtain ⟨o, ls, e', hl'⟩ := ih v u'.out
      cases en with
      | false =>
        simp only [Bool.false_eq_true, if_false] at hl
        subst hl
        refine ⟨o, ls, ?_, by simpa using hl'⟩
        show runReports p0 p1 h v u'.out = _
        rw [e', ho, List.append_nil]
      | true =>
        rw [if_pos rfl, Nat.mod_eq_of_lt hn'] at hl
        refine ⟨o, line ++ ls, ?_, ?_⟩
        · show runReports p0 p1 h v u'.out = _
          rw [e', ho, List.append_assoc]
        · simp only [Bool.true_and, decide_eq_true hne, if_true, List.cons_append, List.nil_append]
          exact ⟨line, ls, hl, hl', rfl⟩

/-- "abcd: p -2147483648", the longest number; the buffers of 5 and 12 characters are filled completely. -/
example : S32 (-2147483648) ∧ (-2147483648 : Int) ≠ 0 ∧
    reportInt 0xABCD ⟨true, []⟩ (some [112]) none 0 (-2147483648) =
      some (-2147483648, ⟨true, [97, 98, 99, 100, 58, 32, 112, 32, 45, 50, 49, 52, 55, 52, 56, 51, 54, 52, 56, 13, 10]⟩) := by
  decide

/-- A value that changes while debugging is off is reported neither then nor when debugging is switched on; the next
    change is. -/
example : toReport 0 [(false, 1, 5), (true, 2, 5), (true, 3, 6), (true, 4, 6)] = [(3, 6)] ∧
    runReports [112] none [(false, 1, 5), (true, 2, 5), (true, 3, 6), (true, 4, 6)] 0 [] =
      some (6, [51, 58, 32, 112, 32, 54, 13, 10]) := by decide

end Verif.Props
