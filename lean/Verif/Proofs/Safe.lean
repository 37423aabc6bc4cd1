/-
Total correctness of computations that may run into undefined behaviour.
-/
namespace Verif

/-- `m` is defined and its result satisfies `Q` -/
def Safe {α : Type _} (m : Option α) (Q : α → Prop) : Prop := ∃ a, m = some a ∧ Q a

theorem Safe.pure {α : Type _} {a : α} {Q : α → Prop} (h : Q a) : Safe (some a) Q := ⟨a, rfl, h⟩

theorem Safe.bind {α β : Type _} {m : Option α} {f : α → Option β} {P : α → Prop} {Q : β → Prop}
    (hm : Safe m P) (hf : ∀ a, P a → Safe (f a) Q) : Safe (m >>= f) Q := by
  obtain ⟨a, rfl, ha⟩ := hm
  exact hf a ha

theorem Safe.mono {α : Type _} {m : Option α} {P Q : α → Prop} (hm : Safe m P)
    (h : ∀ a, P a → Q a) : Safe m Q := by
  obtain ⟨a, e, ha⟩ := hm
  exact ⟨a, e, h a ha⟩

theorem Safe.of_eq {α : Type _} {m : Option α} {a : α} {Q : α → Prop} (e : m = some a) (h : Q a) :
    Safe m Q := ⟨a, e, h⟩

theorem Safe.elim {α : Type _} {m : Option α} {a : α} {Q : α → Prop} (h : Safe m Q)
    (e : m = some a) : Q a := by
  obtain ⟨b, eb, hb⟩ := h
  rw [e] at eb
  cases eb
  exact hb

end Verif
