import Verif.Model.Presets
/-
C30: the presets (presets.c).
-/
namespace Verif.Props

/-- what a user can do with the presets -/
inductive PresetOp where
  | next
  | prev
  | set (v : Int)
  deriving DecidableEq

/-- the model -/
def presetRun (s : Settings) : List PresetOp → Option Settings
  | [] => some s
  | .next :: ops => presetRun s.presetsNext ops
  | .prev :: ops => presetRun s.presetsPrev ops
  | .set v :: ops => s.presetsSet v >>= fun s => presetRun s ops

/-- The specification: six cells on a circle and a pointer. -/
def presetSpec (p : Nat × (Nat → Int)) : List PresetOp → Nat × (Nat → Int)
  | [] => p
  | .next :: ops => presetSpec ((p.1 + 1) % 6, p.2) ops
  | .prev :: ops => presetSpec ((p.1 + 5) % 6, p.2) ops
  | .set v :: ops => presetSpec (p.1, fun i => if i = p.1 then v else p.2 i) ops

/-- Every history of preset operations behaves like a pointer moving on a circle of six
    independent cells: never undefined, the index stays in 0..5, reading gives the cell under the
    pointer, and nothing else in the settings changes. -/
theorem C30_ring (ops : List PresetOp) : ∀ (s : Settings), s.active < 6 →
    ∃ s', presetRun s ops = some s' ∧ s'.active < 6 ∧
      s'.active = (presetSpec (s.active, fun i => s.sp[i]!) ops).1 ∧
      (∀ i (h : i < 6), s'.sp[i] = (presetSpec (s.active, fun i => s.sp[i]!) ops).2 i) ∧
      s'.presetsGet = some ((presetSpec (s.active, fun i => s.sp[i]!) ops).2 s'.active) ∧
      s' = { s with active := s'.active, sp := s'.sp } := by
  have gen : ∀ (s : Settings) (f : Nat → Int), s.active < 6 → (∀ i (h : i < 6), s.sp[i] = f i) →
      ∃ s', presetRun s ops = some s' ∧ s'.active < 6 ∧
      s'.active = (presetSpec (s.active, f) ops).1 ∧
      (∀ i (h : i < 6), s'.sp[i] = (presetSpec (s.active, f) ops).2 i) ∧
      s' = { s with active := s'.active, sp := s'.sp } := by
    induction ops with
    | nil => intro s f h1 h2; exact ⟨s, rfl, h1, rfl, h2, rfl⟩
    | cons op ops ih =>
      intro s f h1 h2
      cases op with
      | next =>
        have e : s.presetsNext.active = (s.active + 1) % 6 := by
          simp only [Settings.presetsNext, ringNext]; split <;> omega
        obtain ⟨s', a, b, c, d, g⟩ := ih s.presetsNext f (by omega) h2
        rw [e] at c d
        exact ⟨s', a, b, c, d, g⟩
      | prev =>
        have e : s.presetsPrev.active = (s.active + 5) % 6 := by
          simp only [Settings.presetsPrev, ringPrev]; split <;> omega
        obtain ⟨s', a, b, c, d, g⟩ := ih s.presetsPrev f (by omega) h2
        rw [e] at c d
        exact ⟨s', a, b, c, d, g⟩
      | set v =>
        have e : s.presetsSet v = some { s with sp := s.sp.set s.active v } := by
          simp only [Settings.presetsSet, h1, dite_true]
        obtain ⟨s', a, b, c, d, g⟩ := ih { s with sp := s.sp.set s.active v }
          (fun i => if i = s.active then v else f i) h1 (by
            intro i hi
            rw [Vector.getElem_set]
            by_cases hx : s.active = i
            · rw [if_pos hx, if_pos hx.symm]
            · rw [if_neg hx, if_neg (Ne.symm hx)]
              exact h2 i hi)
        refine ⟨s', ?_, b, c, d, g⟩
        simp only [presetRun, e, Option.bind_eq_bind, Option.bind_some]
        exact a
  intro s h
  obtain ⟨s', a, b, c, d, g⟩ := gen s (fun i => s.sp[i]!) h (fun i hi => by
    rw [getElem!_pos s.sp i hi])
  refine ⟨s', a, b, c, d, ?_, g⟩
  simp only [Settings.presetsGet]
  rw [getElem?_pos s'.sp s'.active b, d _ b]

/-- Six steps in one direction, or one step forth and one back, lead back. -/
theorem C30_cycle (s : Settings) (h : s.active < 6) :
    presetRun s [.next, .next, .next, .next, .next, .next] = some s ∧
    presetRun s [.prev, .prev, .prev, .prev, .prev, .prev] = some s ∧
    presetRun s [.next, .prev] = some s ∧ presetRun s [.prev, .next] = some s := by
  obtain ⟨k, idle, sp, act, adj, r0, r1, ser⟩ := s
  simp only at h
  simp only [presetRun, Settings.presetsNext, Settings.presetsPrev, Option.some.injEq,
    Settings.mk.injEq, true_and, and_true]
  revert act
  decide

/-- from the shipped settings: back three, change, forth one, change -/
example : ((presetRun (shippedSettings Conf.m88p) [.prev, .prev, .prev, .prev, .set 6400, .next,
      .set 64]).map fun s => (s.active, s.sp.toList)) =
    some (0, [64, 20480, 21440, 22400, 23360, 6400]) := by decide

end Verif.Props
