import Verif.Proofs.Host
import Mathlib.Tactic.NormNum
import Mathlib.Tactic.Ring
/-
C82: the tool on the host reads back what the firmware reports.
-/
namespace Verif.Props
open Spec

/-- the operations on the debug interface, one after the other (the oldest first) -/
def debugRun (u : Uart) : List DebugOp → Option Uart
  | [] => some u
  | .enable on :: ops => debugRun (uartEnable u on) ops
  | .value n v t :: ops => (printInt t u (some n) none v).bind fun u => debugRun u ops
  | .term n m v t :: ops => (printInt t u (some n) (some m) v).bind fun u => debugRun u ops

/-! ### what is printed -/

theorem print_ok (t : Nat) (u : Uart) (n : List Nat) (p : Option (List Nat)) {v : Int} (hv : S32 v) :
    printInt t u (some n) p v = some { u with out := u.out ++ (if u.enabled = true then
      utoa16 (t % 65536) ++ 58 :: 32 :: (n ++ (p.elim [] fun p => 32 :: p) ++ 32 :: ltoa10 v) ++ [13, 10] else []) } := by
  have hn : (ltoa10 v).length + 1 ≤ 12 := by have := ltoa10_len hv; omega
  have ht : (utoa16 (t % 65536)).length + 1 ≤ 5 := by have := utoa16_len t; omega
  unfold printInt printStr3 printTimestamp
  simp only [if_pos hn, if_pos ht]
  cases hu : u.enabled with
  | false => cases u; simp_all
  | true => cases p <;> simp [hu]

/-! ### what is read -/

private theorem read_line (h : Host) (l rest : List Nat) : ∀ line : List Nat, 10 ∉ l →
    hostRead h line (l ++ 10 :: rest) = hostRead (hostLine h (line ++ l ++ [10])) [] rest := by
  induction l with
  | nil =>
    intro line _
    rw [List.nil_append, List.append_nil]
    show (if 10 = 10 then _ else _) = _
    rw [if_pos rfl]
  | cons ch l ih =>
    intro line h10
    rw [List.cons_append]
    show (if ch = 10 then _ else hostRead h (line ++ [ch]) (l ++ 10 :: rest)) = _
    rw [if_neg (fun e => h10 (by simp [e])), ih _ (fun e => h10 (by simp [e])), List.append_assoc line [ch] l,
      List.singleton_append]

/-- the variables of the tool after the operations -/
private def valsOf (hist : List DebugOp) : Vals where
  currentRealR := lastValue [99, 114, 49] hist * (1 / 640)
  currentUsedR := lastValue [99, 114, 50] hist * (1 / 640)
  currentRState := lastValue [114, 115] hist * 1
  currentY := lastValue [99, 121] hist * (1 / 640)
  tempR := lastValue [116, 114] hist * (1 / 64)
  tempY1 := lastValue [116, 121, 49] hist * (1 / 64)
  tempY2 := lastValue [116, 121, 50] hist * (1 / 640)
  measCurr := lastValue [109, 99] hist * 1
  filtCurr := lastValue [102, 99] hist * 1
  measTemp := lastValue [109, 116] hist * 1
  boostMode := lastValue [116, 98] hist * 1

private theorem st_line (h : Host) : hostLine h [115, 116, 13, 10] = hostReset := by
  unfold hostLine
  have h1 : pyStrip (([115, 116, 13, 10] : List Nat).filter (· < 128)) = [115, 116] := by decide
  simp only [h1]
  rfl

private theorem crlf_line (h : Host) : hostLine h [13, 10] = h := by
  unfold hostLine
  have h1 : pyStrip (([13, 10] : List Nat).filter (· < 128)) = [] := by decide
  simp only [h1]
  rfl

private theorem elem_known {n arg : List Nat} {v : Int} {t : Nat} {hist : List DebugOp}
    (hn : n ∈ columns.map Prod.fst) (hv : pyInt 10 arg = some v) (hon : debugOn hist = true) :
    hostElem n arg (valsOf hist) = some (valsOf (.value n v t :: hist)) := by
  have hp : parseInt arg = (v : Rat) := by unfold parseInt; rw [hv]; rfl
  have hf : parseFixpt arg = (v : Rat) * (1 / 64) := by
    unfold parseFixpt
    rw [hp, Rat.div_def, Rat.div_def, Rat.one_mul]
  have hf' : parseFixpt arg / 10 = (v : Rat) * (1 / 640) := by
    rw [hf]
    ring
  have hl : ∀ m : List Nat, lastValue m (.value n v t :: hist) = if n = m then v else lastValue m hist := by
    intro m
    show (if n = m ∧ debugOn hist = true then _ else _) = _
    simp only [hon, and_true]
  simp only [columns, List.map_cons, List.map_nil, List.mem_cons, List.not_mem_nil, or_false] at hn
  rcases hn with rfl | rfl | rfl | rfl | rfl | rfl | rfl | rfl | rfl | rfl | rfl <;>
    (unfold hostElem valsOf; first | (simp [hl, hp, hf']; done) | (simp [hl, hp, hf]; done))

private theorem vals_off {n : List Nat} {v : Int} {t : Nat} {hist : List DebugOp} (hon : debugOn hist = false) :
    valsOf (.value n v t :: hist) = valsOf hist := by
  have hl : ∀ m : List Nat, lastValue m (.value n v t :: hist) = lastValue m hist := by
    intro m
    show (if n = m ∧ debugOn hist = true then _ else _) = _
    rw [hon, if_neg (by simp)]
  unfold valsOf
  simp only [hl]

theorem body_ok {n : List Nat} {p : List Nat} {v : Int} (hn : Name n) (hp : p = [] ∨ ∃ m, Name m ∧ p = 32 :: m) :
    (n ++ p ++ 32 :: ltoa10 v) ≠ [] ∧ (∀ ch ∈ n ++ p ++ 32 :: ltoa10 v, ch = 32 ∨ (32 < ch ∧ ch < 127)) ∧
    (∀ ch, (n ++ p ++ 32 :: ltoa10 v).head? = some ch → 32 < ch) ∧
    (∀ ch, (n ++ p ++ 32 :: ltoa10 v).getLast? = some ch → 32 < ch) := by
  obtain ⟨l1, l2⟩ := ltoa10_vis v
  refine ⟨by simp, fun ch hc => ?_, fun ch hc => ?_, fun ch hc => ?_⟩
  · rcases List.mem_append.mp hc with hc | hc
    · rcases List.mem_append.mp hc with hc | hc
      · exact Or.inr (hn.2 ch hc)
      · rcases hp with rfl | ⟨m, hm, rfl⟩
        · cases hc
        · rcases List.mem_cons.mp hc with hc | hc
          · exact Or.inl hc
          · exact Or.inr (hm.2 ch hc)
    · rcases List.mem_cons.mp hc with hc | hc
      · exact Or.inl hc
      · exact Or.inr (l2 ch hc)
  · cases n with
    | nil => exact absurd rfl hn.1
    | cons a n =>
      cases hc
      exact (hn.2 _ (by simp)).1
  · rw [List.getLast?_append, List.getLast?_cons_of_ne_nil l1] at hc
    cases hg : (ltoa10 v).getLast? with
    | none => rw [List.getLast?_eq_none_iff] at hg; exact absurd hg l1
    | some x =>
      rw [hg] at hc
      cases hc
      exact (l2 _ (List.mem_of_getLast? hg)).1

private theorem no_lf {t : Nat} {body : List Nat} (hb : ∀ ch ∈ body, ch = 32 ∨ (32 < ch ∧ ch < 127)) :
    10 ∉ utoa16 (t % 65536) ++ 58 :: 32 :: body ++ [13] := by
  intro h
  simp only [List.mem_append, List.mem_cons, List.not_mem_nil, or_false] at h
  rcases h with (h | h | h | h) | h
  · have := (utoa16_vis t).2.1 10 h; omega
  · omega
  · omega
  · have := hb 10 h; omega
  · omega

private theorem read_report (h : Host) (t : Nat) (body rest : List Nat)
    (hb : ∀ ch ∈ body, ch = 32 ∨ (32 < ch ∧ ch < 127)) :
    hostRead h [] (utoa16 (t % 65536) ++ 58 :: 32 :: body ++ [13, 10] ++ rest) =
      hostRead (hostLine h (utoa16 (t % 65536) ++ 58 :: 32 :: body ++ [13, 10])) [] rest := by
  have := read_line h (utoa16 (t % 65536) ++ 58 :: 32 :: body ++ [13]) rest [] (no_lf hb)
  simpa using this

theorem known_name {n : List Nat} (hn : n ∈ columns.map Prod.fst) : Name n := by
  simp only [columns, List.map_cons, List.map_nil, List.mem_cons, List.not_mem_nil, or_false] at hn
  unfold Name
  rcases hn with rfl | rfl | rfl | rfl | rfl | rfl | rfl | rfl | rfl | rfl | rfl <;> decide

private theorem run_ok (ops : List DebugOp) : ∀ (hist : List DebugOp) (u : Uart) (h : Host), (∀ o ∈ ops, o.Valid) →
    u.enabled = debugOn hist → h = ⟨valsOf hist, table hist⟩ →
    ∃ u' text, debugRun u ops = some u' ∧ u'.out = u.out ++ text ∧ u'.enabled = debugOn (ops.reverse ++ hist) ∧
      ∀ rest, hostRead h [] (text ++ rest) =
        hostRead ⟨valsOf (ops.reverse ++ hist), table (ops.reverse ++ hist)⟩ [] rest := by
  induction ops with
  | nil =>
    intro hist u h _ hu hh
    exact ⟨u, [], rfl, by simp, hu, fun rest => by rw [hh]; rfl⟩
  | cons o ops ih =>
    intro hist u h hval hu hh
    have hv := hval o (by simp)
    have ih := ih (o :: hist)
    rw [List.reverse_cons, List.append_assoc, List.singleton_append]
    -- one operation: the text it transmits, and what the tool makes of it
    have key : ∀ (u1 : Uart) (t1 : List Nat), debugRun u (o :: ops) = debugRun u1 ops → u1.out = u.out ++ t1 →
        u1.enabled = debugOn (o :: hist) →
        (∀ rest, hostRead h [] (t1 ++ rest) = hostRead ⟨valsOf (o :: hist), table (o :: hist)⟩ [] rest) →
        ∃ u' text, debugRun u (o :: ops) = some u' ∧ u'.out = u.out ++ text ∧
          u'.enabled = debugOn (ops.reverse ++ o :: hist) ∧ ∀ rest, hostRead h [] (text ++ rest) =
            hostRead ⟨valsOf (ops.reverse ++ o :: hist), table (ops.reverse ++ o :: hist)⟩ [] rest := by
      intro u1 t1 e1 e2 e3 e4
      obtain ⟨u', t2, k1, k2, k3, k4⟩ := ih u1 _ (fun x hx => hval x (by simp [hx])) e3 rfl
      refine ⟨u', t1 ++ t2, e1.trans k1, by rw [k2, e2, List.append_assoc], k3, fun rest => ?_⟩
      rw [List.append_assoc, e4, k4]
    cases o with
    | enable on =>
      cases on with
      | false =>
        refine key (uartEnable u false) [] rfl (by rw [List.append_nil]; rfl) rfl fun rest => ?_
        rw [hh]
        rfl
      | true =>
        refine key (uartEnable u true) [13, 10, 115, 116, 13, 10] rfl rfl rfl fun rest => ?_
        have e1 := read_line h [13] ([115, 116, 13, 10] ++ rest) [] (by decide)
        have e2 := read_line h [115, 116, 13] rest [] (by decide)
        show hostRead h [] ([13] ++ 10 :: ([115, 116, 13, 10] ++ rest)) = _
        rw [e1]
        show hostRead (hostLine h [13, 10]) [] ([115, 116, 13] ++ 10 :: rest) = _
        rw [crlf_line, e2]
        show hostRead (hostLine h [115, 116, 13, 10]) [] rest = _
        rw [st_line]
        congr 1
        unfold valsOf hostReset
        simp [lastValue, table]
    | value n v t =>
      obtain ⟨h1, h2, h3, h4⟩ := hv
      have hs : S32 v := ⟨h2, h3⟩
      have ht : t % 65536 = t := Nat.mod_eq_of_lt h4
      have hp := print_ok t u n none hs
      refine key _ _ ((congrArg (fun x : Option Uart => x.bind fun u => debugRun u ops) hp).trans rfl) rfl hu fun rest => ?_
      cases hon : debugOn hist with
      | false =>
        rw [hu, hon, if_neg (by decide), List.nil_append, hh, vals_off hon]
        congr 2
        show _ = if debugOn hist = true then _ else _
        rw [hon, if_neg (by decide)]
      | true =>
        obtain ⟨b1, b2, b3, b4⟩ := body_ok (v := v) (known_name h1) (p := []) (Or.inl rfl)
        rw [hu, hon, if_pos rfl]
        show hostRead h [] (utoa16 (t % 65536) ++ 58 :: 32 :: (n ++ [] ++ 32 :: ltoa10 v) ++ [13, 10] ++ rest) = _
        rw [read_report h t _ rest b2, hostLine_body h t _ b1 b2 b3 b4, List.append_nil,
          split_two (known_name h1).2 (ltoa10_vis v).2 (known_name h1).1 (ltoa10_vis v).1, hh]
        simp only [elem_known (t := t) h1 (pyInt_value hs) hon]
        congr 1
        have htab : table (.value n v t :: hist) = table hist ++ [(t : Rat) :: columns.map fun col =>
            (lastValue col.1 (.value n v t :: hist) : Rat) * col.2] := by
          show (if debugOn hist = true then _ else _) = _
          rw [hon, if_pos rfl]
        rw [htab, ht]
        rfl
    | term n m v t =>
      obtain ⟨h1, h2, h3, h4, h5⟩ := hv
      have hs : S32 v := ⟨h3, h4⟩
      have hp := print_ok t u n (some m) hs
      refine key _ _ ((congrArg (fun x : Option Uart => x.bind fun u => debugRun u ops) hp).trans rfl) rfl hu fun rest => ?_
      have hsame : (⟨valsOf (.term n m v t :: hist), table (.term n m v t :: hist)⟩ : Host) = h := by
        rw [hh]
        rfl
      rw [hsame]
      cases hon : debugOn hist with
      | false => rw [hu, hon, if_neg (by decide), List.nil_append]
      | true =>
        obtain ⟨b1, b2, b3, b4⟩ := body_ok (v := v) h1 (p := 32 :: m) (Or.inr ⟨m, h2, rfl⟩)
        rw [hu, hon, if_pos rfl]
        show hostRead h [] (utoa16 (t % 65536) ++ 58 :: 32 :: (n ++ 32 :: m ++ 32 :: ltoa10 v) ++ [13, 10] ++ rest) = _
        rw [read_report h t _ rest b2, hostLine_body h t _ b1 b2 b3 b4,
          split_three h1.2 h2.2 (ltoa10_vis v).2 h1.1 h2.1 (ltoa10_vis v).1]

/-- Whatever is reported, the firmware transmits it without overrunning its text buffers, and the table which the tool
    makes of what was transmitted has a row for every value printed since debugging was switched on last, with the time
    and the latest value of every column, in amperes and degrees. -/
theorem C82_table (ops : List DebugOp) (hv : ∀ o ∈ ops, o.Valid) :
    ∃ u, debugRun ⟨false, []⟩ ops = some u ∧ u.enabled = debugOn ops.reverse ∧
      (hostRead hostReset [] u.out).outLines = table ops.reverse := by
  obtain ⟨u, text, k1, k2, k3, k4⟩ := run_ok ops [] ⟨false, []⟩ hostReset hv rfl
    (by unfold valsOf hostReset; simp [lastValue, table])
  rw [List.append_nil] at k3 k4
  refine ⟨u, k1, k3, ?_⟩
  have := k4 []
  rw [List.append_nil] at this
  rw [k2, List.nil_append, this]
  rfl

/-- Whatever the tool has received before (for example the second half of a line): when debugging is switched on, it
    starts with an empty table. -/
theorem C82_start (h : Host) (line garbage rest : List Nat) (u : Uart) :
    ∃ text, (uartEnable u true).out = u.out ++ text ∧
      hostRead h line (garbage ++ text ++ rest) = hostRead hostReset [] rest := by
  refine ⟨[13, 10, 115, 116, 13, 10], rfl, ?_⟩
  rw [List.append_assoc]
  induction garbage generalizing h line with
  | nil =>
    rw [List.nil_append]
    have e1 := read_line h [13] ([115, 116, 13, 10] ++ rest) line (by decide)
    show hostRead h line ([13] ++ 10 :: ([115, 116, 13, 10] ++ rest)) = _
    rw [e1]
    generalize hostLine h (line ++ [13] ++ [10]) = h'
    have e2 := read_line h' [115, 116, 13] rest [] (by decide)
    show hostRead h' [] ([115, 116, 13] ++ 10 :: rest) = _
    rw [e2]
    show hostRead (hostLine h' [115, 116, 13, 10]) [] rest = _
    rw [st_line]
  | cons ch g ih =>
    rw [List.cons_append]
    show (if ch = 10 then hostRead (hostLine h (line ++ [ch])) [] (g ++ _) else hostRead h (line ++ [ch]) (g ++ _)) = _
    split
    · exact ih _ _
    · exact ih _ _

/-! ### examples -/

/-- "ty1", "rs", and a term of the current controller -/
private def session : List DebugOp :=
  [.enable true, .value [116, 121, 49] (-1920) 43981, .term [112, 105, 100, 45, 99] [101] 12 43982, .enable false,
    .value [114, 115] 2 43983, .enable true, .value [114, 115] 1 7, .value [99, 121] 1280 16]

example : (∀ o ∈ session, o.Valid) ∧ table session.reverse =
    [[7, 0, 0, 1, 0, 0, 0, 0, 0, 0, 0, 0], [16, 0, 0, 1, 2, 0, 0, 0, 0, 0, 0, 0]] := by
  refine ⟨?_, by simp [session, table, debugOn, columns, lastValue]; norm_num⟩
  intro o ho
  simp only [session, List.mem_cons, List.not_mem_nil, or_false] at ho
  rcases ho with rfl | rfl | rfl | rfl | rfl | rfl | rfl | rfl <;>
    simp [DebugOp.Valid, Name, columns]

end Verif.Props
