import Verif.Model.Host
import Verif.Spec.Host
import Verif.Proofs.Debug
/-
Lemmas about the tool on the host: it reads back what the firmware prints.
-/
namespace Verif
open Spec

/-- a character of a word: not white space -/
def Vis (s : List Nat) : Prop := ∀ ch ∈ s, 32 < ch ∧ ch < 127

theorem vis_space {ch : Nat} (h : 32 < ch ∧ ch < 127) : pySpace ch = false := by
  unfold pySpace
  simp only [Bool.or_eq_false_iff, Bool.and_eq_false_iff, decide_eq_false_iff_not]
  omega

theorem digitChar_vis : ∀ d < 16, 32 < digitChar d ∧ digitChar d < 127 ∧ digitChar d ≠ 58 ∧ digitChar d ≠ 45 ∧
    digitChar d ≠ 43 ∧ digitChar d ≠ 95 ∧ digitChar d ≠ 120 ∧ digitChar d ≠ 88 := by decide

theorem strip_head {s : List Nat} {ch : Nat} (h : pySpace ch = false) :
    pyStrip (ch :: s) = ((ch :: s).reverse.dropWhile pySpace).reverse := by
  unfold pyStrip
  rw [List.dropWhile_cons_of_neg (by rw [h]; decide)]

/-- white space at the end is stripped -/
theorem strip_mid {a b : Nat} {s e : List Nat} (ha : pySpace a = false) (hb : pySpace b = false)
    (he : ∀ ch ∈ e, pySpace ch = true) : pyStrip (a :: s ++ b :: e) = a :: s ++ [b] := by
  rw [List.cons_append, strip_head ha, ← List.cons_append, List.reverse_append, List.reverse_cons, List.append_assoc,
    List.dropWhile_append_of_pos (by intro x hx; exact he x (List.mem_reverse.mp hx)), List.singleton_append,
    List.dropWhile_cons_of_neg (by rw [hb]; decide), List.reverse_cons, List.reverse_reverse]

/-- a text that starts and ends with visible characters, with white space behind it -/
theorem strip_word {s e : List Nat} (hs : s ≠ []) (h1 : ∀ ch, s.head? = some ch → pySpace ch = false)
    (h2 : ∀ ch, s.getLast? = some ch → pySpace ch = false) (he : ∀ ch ∈ e, pySpace ch = true) :
    pyStrip (s ++ e) = s := by
  cases s with
  | nil => exact absurd rfl hs
  | cons a s =>
    rcases List.eq_nil_or_concat s with rfl | ⟨s, b, rfl⟩
    · have ha := h1 a rfl
      unfold pyStrip
      rw [List.singleton_append, List.dropWhile_cons_of_neg (by rw [ha]; decide), List.reverse_cons,
        List.dropWhile_append_of_pos (by intro x hx; exact he x (List.mem_reverse.mp hx)),
        List.dropWhile_cons_of_neg (by rw [ha]; decide)]
      rfl
    · have ha := h1 a rfl
      have hb := h2 b (by rw [List.concat_eq_append, ← List.cons_append, List.getLast?_append]; rfl)
      rw [List.concat_eq_append, ← List.cons_append, List.append_assoc, List.singleton_append, strip_mid ha hb he]

theorem split_word {s : List Nat} (hs : Vis s) : ∀ (w r : List Nat), pySplit w (s ++ r) = pySplit (w ++ s) r := by
  induction s with
  | nil => intro w r; rw [List.nil_append, List.append_nil]
  | cons ch s ih =>
    intro w r
    have h := vis_space (hs ch (by simp))
    rw [List.cons_append]
    show (if pySpace ch then _ else pySplit (w ++ [ch]) (s ++ r)) = _
    rw [h, if_neg (by decide), ih (fun x hx => hs x (by simp [hx])), List.append_assoc, List.singleton_append]

theorem split_two {a b : List Nat} (ha : Vis a) (hb : Vis b) (ha' : a ≠ []) (hb' : b ≠ []) :
    pySplit [] (a ++ 32 :: b) = [a, b] := by
  rw [split_word ha, List.nil_append]
  show (if pySpace 32 then (if a.isEmpty then _ else a :: pySplit [] b) else _) = _
  rw [if_pos (by decide), if_neg (by simpa using ha')]
  have := split_word hb [] []
  rw [List.append_nil, List.nil_append] at this
  rw [this]
  show a :: (if b.isEmpty then [] else [b]) = _
  rw [if_neg (by simpa using hb')]

theorem split_three {a b d : List Nat} (ha : Vis a) (hb : Vis b) (hd : Vis d) (ha' : a ≠ []) (hb' : b ≠ []) (hd' : d ≠ []) :
    pySplit [] (a ++ 32 :: b ++ 32 :: d) = [a, b, d] := by
  rw [List.append_assoc, split_word ha, List.nil_append]
  show (if pySpace 32 then (if a.isEmpty then _ else a :: pySplit [] (b ++ 32 :: d)) else _) = _
  rw [if_pos (by decide), if_neg (by simpa using ha'), split_two hb hd hb' hd']

theorem pyDigits_digits {b : Nat} (hb : b = 10 ∨ b = 16) : ∀ (l : List Nat) (ok : Bool) (acc : Nat), (∀ d ∈ l, d < b) →
    (ok = true ∨ l ≠ []) → pyDigits b ok acc (l.map digitChar) = some (l.foldl (fun a d => b * a + d) acc) := by
  intro l
  induction l with
  | nil =>
    intro ok acc _ h
    rcases h with rfl | h
    · rfl
    · exact absurd rfl h
  | cons d l ih =>
    intro ok acc h _
    have hd := h d (by simp)
    have hd16 : d < 16 := by rcases hb with rfl | rfl <;> omega
    have hp : pyDigit b (digitChar d) = some d := by
      rcases hb with rfl | rfl
      · exact (by decide : ∀ d < 10, pyDigit 10 (digitChar d) = some d) d hd
      · exact (by decide : ∀ d < 16, pyDigit 16 (digitChar d) = some d) d hd
    rw [List.map_cons]
    show (if digitChar d = 95 then _ else (pyDigit b (digitChar d)).bind fun d' => pyDigits b true (b * acc + d') _) = _
    rw [if_neg (digitChar_vis d hd16).2.2.2.2.2.1, hp, Option.bind_some, ih true _ (fun x hx => h x (by simp [hx])) (Or.inl rfl)]
    rfl

private theorem digits_strip {l : List Nat} (hl : l ≠ []) (h : ∀ d ∈ l, d < 16) :
    pyStrip (l.map digitChar) = l.map digitChar := by
  have := strip_word (s := l.map digitChar) (e := []) (by simpa using hl) (fun ch hc => ?_) (fun ch hc => ?_) (by simp)
  · rwa [List.append_nil] at this
  · obtain ⟨d, hd, rfl⟩ := List.mem_map.mp (List.mem_of_head? hc)
    have := digitChar_vis d (h d hd)
    exact vis_space ⟨this.1, this.2.1⟩
  · obtain ⟨d, hd, rfl⟩ := List.mem_map.mp (List.mem_of_getLast? hc)
    have := digitChar_vis d (h d hd)
    exact vis_space ⟨this.1, this.2.1⟩

private theorem prefix_digits {l : List Nat} (h : ∀ d ∈ l, d < 16) : pyPrefix (l.map digitChar) = l.map digitChar := by
  match l with
  | [] => rfl
  | [a] =>
    show pyPrefix [digitChar a] = [digitChar a]
    generalize digitChar a = x
    unfold pyPrefix
    split
    · rename_i h; cases h
    · rfl
  | a :: b :: l =>
    have hb := digitChar_vis b (h b (by simp))
    show pyPrefix (digitChar a :: digitChar b :: l.map digitChar) = digitChar a :: digitChar b :: l.map digitChar
    generalize digitChar a = x
    generalize digitChar b = y at hb ⊢
    unfold pyPrefix
    split
    · rename_i heq
      cases heq
      rw [if_neg (by omega)]
    · rfl

theorem pyInt_hex {l : List Nat} (hl : l ≠ []) (h : ∀ d ∈ l, d < 16) :
    pyInt 16 (l.map digitChar) = some ((l.foldl (fun a d => 16 * a + d) 0 : Nat) : Int) := by
  unfold pyInt
  rw [digits_strip hl h]
  cases hm : l.map digitChar with
  | nil => rw [List.map_eq_nil_iff] at hm; exact absurd hm hl
  | cons ch cs =>
    obtain ⟨d, hd, hc⟩ := List.mem_map.mp (show ch ∈ l.map digitChar by rw [hm]; simp)
    have hv := digitChar_vis d (h d hd)
    rw [hc] at hv
    simp only []
    simp only [if_true, if_neg (show ¬ (ch = 45 ∨ ch = 43) by omega), if_neg (show ¬ ch = 45 by omega)]
    rw [← hm, prefix_digits h, pyDigits_digits (Or.inr rfl) l false 0 h (Or.inr hl), Option.map_some]

theorem pyInt_time (now : Nat) : pyInt 16 (utoa16 (now % 65536)) = some ((now % 65536 : Nat) : Int) := by
  have h : now % 65536 < 65536 := Nat.mod_lt _ (by decide)
  unfold utoa16
  rw [pyInt_hex (digitsOf_ne _ _ (by decide)) (digitsOf_lt (by decide) _ _),
    digitsOf_val (by decide) _ _ (Nat.lt_trans h (by decide))]

theorem pyInt_value {v : Int} (hv : S32 v) : pyInt 10 (ltoa10 v) = some v := by
  have hn : v.natAbs < 10 ^ 20 := by
    have : v.natAbs ≤ 2147483648 := by unfold S32 at hv; omega
    exact Nat.lt_of_le_of_lt this (by decide)
  have h10 : ∀ d ∈ digitsOf 10 20 v.natAbs, d < 10 := digitsOf_lt (by decide) _ _
  have hne := digitsOf_ne (b := 10) 20 v.natAbs (by decide)
  have h16 : ∀ d ∈ digitsOf 10 20 v.natAbs, d < 16 := fun d hd => Nat.lt_trans (h10 d hd) (by decide)
  have hval := digitsOf_val (b := 10) (by decide) 20 v.natAbs hn
  have hd := pyDigits_digits (Or.inl rfl) _ false 0 h10 (Or.inr hne)
  rw [hval] at hd
  unfold ltoa10 pyInt
  by_cases h : v < 0
  · rw [if_pos h]
    have : pyStrip ([45] ++ (digitsOf 10 20 v.natAbs).map digitChar) = 45 :: (digitsOf 10 20 v.natAbs).map digitChar := by
      have := strip_word (s := 45 :: (digitsOf 10 20 v.natAbs).map digitChar) (e := []) (by simp) (fun ch hc => ?_)
        (fun ch hc => ?_) (by simp)
      · rwa [List.append_nil] at this
      · cases hc; decide
      · rw [List.getLast?_cons, Option.some.injEq] at hc
        have hm := List.mem_of_getLast? (l := (digitsOf 10 20 v.natAbs).map digitChar) (a := ch) (by
          cases hl : ((digitsOf 10 20 v.natAbs).map digitChar).getLast? with
          | none => rw [List.getLast?_eq_none_iff, List.map_eq_nil_iff] at hl; exact absurd hl hne
          | some x => rw [hl] at hc; rw [← hc]; rfl)
        obtain ⟨d, hd, rfl⟩ := List.mem_map.mp hm
        have := digitChar_vis d (h16 d hd)
        exact vis_space ⟨this.1, this.2.1⟩
    rw [this]
    simp only [true_or, if_true, if_neg (show ¬ (10 : Nat) = 16 by decide)]
    rw [hd, Option.map_some]
    exact congrArg some (by omega : -(v.natAbs : Int) = v)
  · rw [if_neg h, List.nil_append, digits_strip hne h16]
    cases hm : (digitsOf 10 20 v.natAbs).map digitChar with
    | nil => rw [List.map_eq_nil_iff] at hm; exact absurd hm hne
    | cons ch cs =>
      obtain ⟨d, hd', hc⟩ := List.mem_map.mp (show ch ∈ (digitsOf 10 20 v.natAbs).map digitChar by rw [hm]; simp)
      have hvis := digitChar_vis d (h16 d hd')
      rw [hc] at hvis
      rw [hm] at hd
      simp only [if_neg (show ¬ (ch = 45 ∨ ch = 43) by omega), if_neg (show ¬ (10 : Nat) = 16 by decide),
        if_neg (show ¬ ch = 45 by omega)]
      rw [hd, Option.map_some]
      exact congrArg some (by omega : (v.natAbs : Int) = v)

/-! ### a line -/

theorem utoa16_vis (now : Nat) : utoa16 (now % 65536) ≠ [] ∧ Vis (utoa16 (now % 65536)) ∧ 58 ∉ utoa16 (now % 65536) := by
  unfold utoa16
  have h : ∀ d ∈ digitsOf 16 20 (now % 65536), d < 16 := digitsOf_lt (by decide) _ _
  refine ⟨by simpa using digitsOf_ne _ _ (by decide), fun ch hc => ?_, fun hc => ?_⟩
  · obtain ⟨d, hd, rfl⟩ := List.mem_map.mp hc
    have := digitChar_vis d (h d hd)
    exact ⟨this.1, this.2.1⟩
  · obtain ⟨d, hd, he⟩ := List.mem_map.mp hc
    exact (digitChar_vis d (h d hd)).2.2.1 he

theorem ltoa10_vis (v : Int) : ltoa10 v ≠ [] ∧ Vis (ltoa10 v) := by
  unfold ltoa10
  have h : ∀ d ∈ digitsOf 10 20 v.natAbs, d < 10 := digitsOf_lt (by decide) _ _
  refine ⟨by simp [digitsOf_ne (b := 10) 20 v.natAbs (by decide)], fun ch hc => ?_⟩
  rcases List.mem_append.mp hc with hc | hc
  · split at hc
    · rw [List.mem_singleton.mp hc]; decide
    · cases hc
  · obtain ⟨d, hd, rfl⟩ := List.mem_map.mp hc
    have := digitChar_vis d (Nat.lt_trans (h d hd) (by decide))
    exact ⟨this.1, this.2.1⟩

/-- what the host makes of a line of the firmware, with the text `body` behind the time -/
theorem hostLine_body (h : Host) (now : Nat) (body : List Nat) (hb : body ≠ [])
    (hv : ∀ ch ∈ body, ch = 32 ∨ (32 < ch ∧ ch < 127)) (hf : ∀ ch, body.head? = some ch → 32 < ch)
    (hl : ∀ ch, body.getLast? = some ch → 32 < ch) :
    hostLine h (utoa16 (now % 65536) ++ 58 :: 32 :: body ++ [13, 10]) =
      match pySplit [] body with
      | [name, arg] =>
        (match hostElem name arg h.vals with
        | none => h
        | some v => putLine ((now % 65536 : Nat) : Int) { h with vals := v })
      | _ => h := by
  obtain ⟨t1, t2, t3⟩ := utoa16_vis now
  generalize ht : utoa16 (now % 65536) = t at t1 t2 t3
  have vis : ∀ ch ∈ body, 32 < ch → pySpace ch = false := fun ch hc h => by
    rcases hv ch hc with rfl | hh
    · omega
    · exact vis_space hh
  have hfil : (t ++ 58 :: 32 :: body ++ [13, 10]).filter (· < 128) = t ++ 58 :: 32 :: body ++ [13, 10] := by
    rw [List.filter_eq_self]
    intro ch hc
    simp only [decide_eq_true_eq]
    simp only [List.mem_append, List.mem_cons, List.not_mem_nil, or_false] at hc
    rcases hc with (hc | hc | hc | hc) | hc | hc
    · have := t2 ch hc; omega
    · omega
    · omega
    · rcases hv ch hc with rfl | hh
      · omega
      · omega
    · omega
    · omega
  have hstrip : pyStrip (t ++ 58 :: 32 :: body ++ [13, 10]) = t ++ 58 :: 32 :: body := by
    refine strip_word (by simp) (fun ch hc => ?_) (fun ch hc => ?_) (by decide)
    · cases t with
      | nil => exact absurd rfl t1
      | cons a t =>
        cases hc
        exact vis_space (t2 _ (by simp))
    · rw [List.getLast?_append, List.getLast?_cons_cons, List.getLast?_cons_of_ne_nil hb] at hc
      cases hg : body.getLast? with
      | none => rw [List.getLast?_eq_none_iff] at hg; exact absurd hg hb
      | some x =>
        rw [hg] at hc
        cases hc
        exact vis _ (List.mem_of_getLast? hg) (hl _ hg)
  have hstrip2 : pyStrip (32 :: body) = body := by
    unfold pyStrip
    rw [List.dropWhile_cons_of_pos (by decide)]
    show pyStrip body = body
    have := strip_word (s := body) (e := []) hb (fun ch hc => vis ch (List.mem_of_head? hc) (hf ch hc))
      (fun ch hc => vis ch (List.mem_of_getLast? hc) (hl ch hc)) (by simp)
    rwa [List.append_nil] at this
  have htake : (t ++ 58 :: 32 :: body).takeWhile (· ≠ 58) = t := by
    rw [List.takeWhile_append_of_pos (by intro x hx; simp only [decide_eq_true_eq]; rintro rfl; exact t3 hx)]
    simp
  have hdrop : (t ++ 58 :: 32 :: body).dropWhile (· ≠ 58) = 58 :: 32 :: body := by
    rw [List.dropWhile_append_of_pos (by intro x hx; simp only [decide_eq_true_eq]; rintro rfl; exact t3 hx)]
    simp
  unfold hostLine
  simp only [hfil, hstrip]
  rw [if_neg (by simp), if_neg ?ne, if_neg (by simp), htake, hdrop, ← ht, pyInt_time]
  case ne =>
    intro e
    have : 58 ∈ ([115, 116] : List Nat) := by rw [← e]; simp
    revert this
    decide
  simp only [List.drop_one, List.tail_cons, hstrip2]
  rfl

end Verif
