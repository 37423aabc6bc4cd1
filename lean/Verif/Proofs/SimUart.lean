import Verif.Model.SimUart
import Verif.Spec.Sim
import Verif.Proofs.Host
import Mathlib.Tactic.NormNum
import Mathlib.Tactic.Ring
/-
Lemmas about the simulated UART and the reader of the simulator.
-/
namespace Verif
open Spec

/-! ### the ring -/

theorem putAll_spec (bs : List Nat) : ∀ (u : SimUart) (n : Nat) (f : Nat → Nat) (w : Nat),
    w < 4096 → u.write = (w + n) % 4096 → (∀ i < n, n ≤ i + 4096 → u.buf ((w + i) % 4096) = f i) →
    (∀ i (h : i < bs.length), f (n + i) = bs[i]) →
    (bs.foldl simUartPut u).write = (w + (n + bs.length)) % 4096 ∧ (bs.foldl simUartPut u).read = u.read ∧
      ∀ i < n + bs.length, n + bs.length ≤ i + 4096 → (bs.foldl simUartPut u).buf ((w + i) % 4096) = f i := by
  induction bs with
  | nil => intro u n f w hw h1 h2 _; exact ⟨h1, rfl, h2⟩
  | cons b bs ih =>
    intro u n f w hw h1 h2 h3
    rw [List.foldl_cons]
    have h0 := h3 0 (by simp)
    have := ih (simUartPut u b) (n + 1) f w hw ?_ ?_ ?_
    · rw [show n + (b :: bs).length = n + 1 + bs.length by simp; omega]
      exact this
    · show (if u.write + 1 ≥ 4096 then 0 else u.write + 1) = _
      split <;> omega
    · intro i hi hle
      show (if (w + i) % 4096 = u.write then b else u.buf ((w + i) % 4096)) = f i
      by_cases h : i = n
      · rw [if_pos (by rw [h1, h]), h]
        exact h0.symm
      · rw [if_neg (by omega)]
        exact h2 i (by omega) (by omega)
    · intro i hi
      have := h3 (i + 1) (by simpa using hi)
      rw [show n + 1 + i = n + (i + 1) by omega, this]
      rfl

theorem getAll_spec : ∀ (max : Nat) (u : SimUart) (r : Nat), u.read < 4096 → u.write = (u.read + r) % 4096 → r < 4096 →
    r ≤ max → (simUartGet u max).1 = (List.range r).map (fun j => u.buf ((u.read + j) % 4096)) ∧
      (simUartGet u max).2 = { u with read := u.write } := by
  intro max
  induction max with
  | zero =>
    intro u r h0 h1 h2 h3
    obtain rfl : r = 0 := by omega
    refine ⟨rfl, ?_⟩
    have : u.write = u.read := by omega
    obtain ⟨f, w, rd⟩ := u
    cases this
    rfl
  | succ max ih =>
    intro u r h0 h1 h2 h3
    show (if u.read ≠ u.write then _ else _ : List Nat × SimUart).1 = _ ∧
      (if u.read ≠ u.write then _ else _ : List Nat × SimUart).2 = _
    cases r with
    | zero =>
      have : u.write = u.read := by omega
      rw [if_neg (by rw [this]; simp)]
      obtain ⟨f, w, rd⟩ := u
      cases this
      exact ⟨rfl, rfl⟩
    | succ r =>
      rw [if_pos (by omega)]
      have hr : (if u.read + 1 ≥ 4096 then 0 else u.read + 1) = (u.read + 1) % 4096 := by split <;> omega
      obtain ⟨k1, k2⟩ := ih { u with read := if u.read + 1 ≥ 4096 then 0 else u.read + 1 } r
        (by show (if _ then _ else _) < 4096; omega) (by show u.write = ((if _ then _ else _) + r) % 4096; omega)
        (by omega) (by omega)
      refine ⟨?_, ?_⟩
      · simp only
        rw [k1, List.range_succ_eq_map, List.map_cons, List.map_map]
        congr 1
        · rw [Nat.add_zero, Nat.mod_eq_of_lt h0]
        · apply List.map_congr_left
          intro j _
          simp only [Function.comp]
          rw [hr]
          congr 1
          omega
      · simp only
        rw [k2]

/-! ### lines -/

theorem cutLine_some : ∀ (s l r : List Nat), cutLine s = some (l, r) → s = l ++ 13 :: 10 :: r ∧ OneLine l := by
  intro s
  induction s with
  | nil => intro l r h; cases h
  | cons a s ih =>
    intro l r h
    cases s with
    | nil => cases h
    | cons b s =>
      unfold cutLine at h
      split at h
      · rename_i hab
        cases h
        refine ⟨by rw [hab.1, hab.2]; rfl, ?_⟩
        intro x y hxy
        have := congrArg List.length hxy
        simp at this
        omega
      · rename_i hab
        rw [Option.map_eq_some_iff] at h
        obtain ⟨⟨l', r'⟩, h, e⟩ := h
        cases e
        obtain ⟨k1, k2⟩ := ih l' r' h
        refine ⟨by rw [k1]; rfl, ?_⟩
        intro x y hxy
        cases x with
        | nil =>
          simp only [List.nil_append, List.cons_append, List.cons.injEq] at hxy
          obtain ⟨e1, e2⟩ := hxy
          cases l' with
          | nil => simp at e2
          | cons q l' =>
            simp only [List.cons_append, List.cons.injEq] at e2 k1
            exact hab ⟨e1, by rw [k1.1, e2.1]⟩
        | cons p x =>
          simp only [List.cons_append, List.cons.injEq] at hxy
          exact k2 x y hxy.2

theorem cutLine_line : ∀ (l r : List Nat), OneLine l → cutLine (l ++ 13 :: 10 :: r) = some (l, r) := by
  intro l
  induction l with
  | nil => intro r _; rfl
  | cons a l ih =>
    intro r h
    have h' : OneLine l := fun x y hxy => h (a :: x) y (by rw [List.cons_append, hxy]; rfl)
    have := ih r h'
    cases l with
    | nil =>
      show (if a = 13 ∧ 13 = 10 then _ else _) = _
      rw [if_neg (by omega)]
      rfl
    | cons b l =>
      show (if a = 13 ∧ b = 10 then _ else (cutLine (b :: l ++ 13 :: 10 :: r)).map fun p => (a :: p.1, p.2)) = _
      rw [if_neg (fun hab => h [] (l ++ [13]) (by rw [hab.1, hab.2]; rfl)), this]
      rfl

/-- what does not contain an end of line -/
theorem cutLine_none : ∀ s : List Nat, cutLine s = none ↔ ∀ a b, s ≠ a ++ 13 :: 10 :: b := by
  intro s
  constructor
  · intro h a b e
    induction s generalizing a with
    | nil => simp at e
    | cons x s ih =>
      cases s with
      | nil =>
        have := congrArg List.length e
        simp at this
        omega
      | cons y s =>
        unfold cutLine at h
        split at h
        · cases h
        · rename_i hxy
          rw [Option.map_eq_none_iff] at h
          cases a with
          | nil =>
            simp only [List.nil_append, List.cons.injEq] at e
            exact hxy ⟨e.1, e.2.1⟩
          | cons p a =>
            simp only [List.cons_append, List.cons.injEq] at e
            exact ih h a e.2
  · intro h
    cases hc : cutLine s with
    | none => rfl
    | some p => exact absurd (cutLine_some s p.1 p.2 hc).1 (h _ _)

theorem transmitted_cons (l : List Nat) (ls : List (List Nat)) :
    transmitted (l :: ls) = l ++ 13 :: 10 :: transmitted ls := by
  unfold transmitted
  simp

theorem transmitted_append (a b : List (List Nat)) : transmitted (a ++ b) = transmitted a ++ transmitted b := by
  unfold transmitted
  simp

/-- a text is divided into lines in only one way -/
theorem lines_unique : ∀ (ls ls' : List (List Nat)) (r r' : List Nat), (∀ l ∈ ls, OneLine l) → (∀ l ∈ ls', OneLine l) →
    transmitted ls ++ r = transmitted ls' ++ r' → ls.length ≤ ls'.length →
    ∃ more, ls' = ls ++ more ∧ r = transmitted more ++ r' := by
  intro ls
  induction ls with
  | nil =>
    intro ls' r r' _ _ h _
    exact ⟨ls', rfl, by simpa [transmitted] using h⟩
  | cons l ls ih =>
    intro ls' r r' h1 h2 h hlen
    cases ls' with
    | nil => simp at hlen
    | cons l' ls' =>
      rw [transmitted_cons, transmitted_cons, List.append_assoc, List.append_assoc, List.cons_append, List.cons_append,
        List.cons_append, List.cons_append] at h
      have e1 := cutLine_line l (transmitted ls ++ r) (h1 l (by simp))
      have e2 := cutLine_line l' (transmitted ls' ++ r') (h2 l' (by simp))
      rw [h, e2] at e1
      simp only [Option.some.injEq, Prod.mk.injEq] at e1
      obtain ⟨rfl, e1⟩ := e1
      obtain ⟨more, k1, k2⟩ := ih ls' r r' (fun x hx => h1 x (by simp [hx])) (fun x hx => h2 x (by simp [hx])) e1.symm
        (by simpa using hlen)
      exact ⟨more, by rw [k1]; rfl, k2⟩

/-! ### upper case digits -/

/-- the character of a digit -/
private def upper (d : Nat) : Nat := if d < 10 then 48 + d else 55 + d

private theorem upper_ok (d : Nat) (h : d < 16) : 32 < upper d ∧ upper d < 127 ∧ upper d ≠ 58 ∧ upper d ≠ 45 ∧
    upper d ≠ 43 ∧ upper d ≠ 95 ∧ upper d ≠ 120 ∧ upper d ≠ 88 ∧ pyDigit 16 (upper d) = some d := by
  revert d
  decide

private theorem upper_digits : ∀ (l : List Nat) (ok : Bool) (acc : Nat), (∀ d ∈ l, d < 16) → (ok = true ∨ l ≠ []) →
    pyDigits 16 ok acc (l.map upper) = some (l.foldl (fun a d => 16 * a + d) acc) := by
  intro l
  induction l with
  | nil =>
    intro ok acc _ h
    rcases h with rfl | h
    · rfl
    · exact absurd rfl h
  | cons d l ih =>
    intro ok acc h _
    obtain ⟨-, -, -, -, -, k6, -, -, hp⟩ := upper_ok d (h d (by simp))
    rw [List.map_cons]
    show (if upper d = 95 then _ else (pyDigit 16 (upper d)).bind fun d' => pyDigits 16 true (16 * acc + d') _) = _
    rw [if_neg k6, hp, Option.bind_some, ih true _ (fun x hx => h x (by simp [hx])) (Or.inl rfl)]
    rfl

private theorem upper_prefix {l : List Nat} (h : ∀ d ∈ l, d < 16) : pyPrefix (l.map upper) = l.map upper := by
  match l with
  | [] => rfl
  | [a] =>
    show pyPrefix [upper a] = [upper a]
    generalize upper a = x
    unfold pyPrefix
    split
    · rename_i h; cases h
    · rfl
  | a :: b :: l =>
    have hb := upper_ok b (h b (by simp))
    show pyPrefix (upper a :: upper b :: l.map upper) = upper a :: upper b :: l.map upper
    generalize upper a = x
    generalize upper b = y at hb ⊢
    unfold pyPrefix
    split
    · rename_i heq
      cases heq
      rw [if_neg (by omega)]
    · rfl

/-- the time which the host prints: it is read as that time -/
theorem hostUtoa_ok (now : Nat) : hostUtoa16 (now % 65536) ≠ [] ∧ Vis (hostUtoa16 (now % 65536)) ∧
    58 ∉ hostUtoa16 (now % 65536) ∧ (hostUtoa16 (now % 65536)).length ≤ 4 ∧
    pyInt 16 (hostUtoa16 (now % 65536)) = some ((now % 65536 : Nat) : Int) := by
  have hlt : now % 65536 < 65536 := Nat.mod_lt _ (by decide)
  have hlen : (hostUtoa16 (now % 65536)).length ≤ 4 := by
    have := utoa16_len now
    unfold utoa16 at this
    unfold hostUtoa16
    rw [List.length_map] at this ⊢
    exact this
  have hval := digitsOf_val (b := 16) (by decide) 20 (now % 65536) (Nat.lt_trans hlt (by decide))
  have hne := digitsOf_ne (b := 16) 20 (now % 65536) (by decide)
  have h16 : ∀ d ∈ digitsOf 16 20 (now % 65536), d < 16 := digitsOf_lt (by decide) _ _
  have e : hostUtoa16 (now % 65536) = (digitsOf 16 20 (now % 65536)).map upper := rfl
  rw [e] at hlen ⊢
  generalize digitsOf 16 20 (now % 65536) = l at *
  have vis : Vis (l.map upper) := fun ch hc => by
    obtain ⟨d, hd, rfl⟩ := List.mem_map.mp hc
    have := upper_ok d (h16 d hd)
    exact ⟨this.1, this.2.1⟩
  refine ⟨by simpa using hne, vis, fun hc => ?_, hlen, ?_⟩
  · obtain ⟨d, hd, he⟩ := List.mem_map.mp hc
    exact (upper_ok d (h16 d hd)).2.2.1 he
  · have hs : pyStrip (l.map upper) = l.map upper := by
      have := strip_word (s := l.map upper) (e := []) (by simpa using hne)
        (fun ch hc => vis_space (vis ch (List.mem_of_head? hc))) (fun ch hc => vis_space (vis ch (List.mem_of_getLast? hc)))
        (by simp)
      rwa [List.append_nil] at this
    unfold pyInt
    rw [hs]
    cases hm : l.map upper with
    | nil => rw [List.map_eq_nil_iff] at hm; exact absurd hm hne
    | cons ch cs =>
      obtain ⟨d, hd, hc⟩ := List.mem_map.mp (show ch ∈ l.map upper by rw [hm]; simp)
      have hv := upper_ok d (h16 d hd)
      rw [hc] at hv
      simp only []
      simp only [if_true, if_neg (show ¬ (ch = 45 ∨ ch = 43) by omega), if_neg (show ¬ ch = 45 by omega)]
      rw [← hm, upper_prefix h16, upper_digits l false 0 h16 (Or.inr hne), Option.map_some, hval]

/-! ### a line of the firmware -/

/-- what the reader makes of a line of the firmware, with the text `body` behind the time -/
theorem simLine_body (v : SimVals) (now : Nat) (body : List Nat) (hb : body ≠ [])
    (hv : ∀ ch ∈ body, ch = 32 ∨ (32 < ch ∧ ch < 127)) (hf : ∀ ch, body.head? = some ch → 32 < ch)
    (hl : ∀ ch, body.getLast? = some ch → 32 < ch) :
    simLine v (pyStrip ((hostUtoa16 (now % 65536) ++ 58 :: 32 :: body).filter (· < 128))) =
      match pySplit [] body with
      | [e0, e1] => simElem v e0 e1 none
      | [e0, e1, e2] => simElem v e0 e1 (some e2)
      | _ => v := by
  obtain ⟨t1, t2, t3, -, t5⟩ := hostUtoa_ok now
  generalize ht : hostUtoa16 (now % 65536) = t at *
  have vis : ∀ ch ∈ body, 32 < ch → pySpace ch = false := fun ch hc h => by
    rcases hv ch hc with rfl | hh
    · omega
    · exact vis_space hh
  have hfil : (t ++ 58 :: 32 :: body).filter (· < 128) = t ++ 58 :: 32 :: body := by
    rw [List.filter_eq_self]
    intro ch hc
    simp only [decide_eq_true_eq]
    simp only [List.mem_append, List.mem_cons] at hc
    rcases hc with hc | hc | hc | hc
    · have := t2 ch hc; omega
    · omega
    · omega
    · rcases hv ch hc with rfl | hh
      · omega
      · omega
  have hstrip : pyStrip (t ++ 58 :: 32 :: body) = t ++ 58 :: 32 :: body := by
    have := strip_word (s := t ++ 58 :: 32 :: body) (e := []) (by simp) (fun ch hc => ?_) (fun ch hc => ?_) (by simp)
    · rwa [List.append_nil] at this
    · cases t with
      | nil => exact absurd rfl t1
      | cons a t =>
        cases hc
        exact vis_space (t2 _ (by simp))
    · rw [List.getLast?_append, List.getLast?_cons_cons, List.getLast?_cons_of_ne_nil hb] at hc
      cases hg : body.getLast? with
      | none => rw [List.getLast?_eq_none_iff] at hg; exact absurd hg hb
      | some x =>
        rw [hg] at hc
        cases hc
        exact vis _ (List.mem_of_getLast? hg) (hl _ hg)
  have hstrip2 : pyStrip (32 :: body) = body := by
    unfold pyStrip
    rw [List.dropWhile_cons_of_pos (by decide)]
    show pyStrip body = body
    have := strip_word (s := body) (e := []) hb (fun ch hc => vis ch (List.mem_of_head? hc) (hf ch hc))
      (fun ch hc => vis ch (List.mem_of_getLast? hc) (hl ch hc)) (by simp)
    rwa [List.append_nil] at this
  have htake : (t ++ 58 :: 32 :: body).takeWhile (· ≠ 58) = t := by
    rw [List.takeWhile_append_of_pos (by intro x hx; simp only [decide_eq_true_eq]; rintro rfl; exact t3 hx)]
    simp
  have hdrop : (t ++ 58 :: 32 :: body).dropWhile (· ≠ 58) = 58 :: 32 :: body := by
    rw [List.dropWhile_append_of_pos (by intro x hx; simp only [decide_eq_true_eq]; rintro rfl; exact t3 hx)]
    simp
  rw [hfil, hstrip]
  unfold simLine
  rw [if_neg (by simp), if_neg ?ne, if_neg (by simp), htake, hdrop, t5]
  case ne =>
    intro e
    have : 58 ∈ ([115, 116] : List Nat) := by rw [← e]; simp
    revert this
    decide
  simp only [List.drop_one, List.tail_cons, hstrip2]
  rfl

end Verif
