import Verif.Proofs.SimUart
import Verif.Props.Host
/-
C92: what the simulator shows of the reports of the firmware.
-/
namespace Verif.Props
open Spec

/-! ### the ring -/

/-- The ring of the simulated UART: when the bytes transmitted since the simulator emptied it last are taken out, the
    simulator gets them in order if they are fewer than 4096; of more it gets only the last ones, as many as the
    remainder of their number modulo 4096.  Afterwards the ring is empty. -/
theorem C92_ring (u : SimUart) (bs : List Nat) (h : u.read = u.write) (hr : u.read < 4096) :
    ∃ u', simUartGet (bs.foldl simUartPut u) 4096 = (bs.drop (bs.length / 4096 * 4096), u') ∧
      u'.read = u'.write ∧ u'.read < 4096 := by
  have hget : ∀ i (hi : i < bs.length), bs.getD i 0 = bs[i] := fun i hi => by
    rw [List.getD_eq_getElem?_getD, List.getElem?_eq_getElem hi]; rfl
  obtain ⟨k1, k2, k3⟩ := putAll_spec bs u 0 (fun i => bs.getD i 0) u.read hr (by rw [← h]; omega)
    (fun i hi => by omega) (fun i hi => by rw [Nat.zero_add]; exact hget i hi)
  rw [Nat.zero_add] at k1 k3
  generalize hg : bs.foldl simUartPut u = g at *
  obtain ⟨g1, g2⟩ := getAll_spec 4096 g (bs.length % 4096) (by rw [k2]; exact hr) (by rw [k1, k2]; omega)
    (Nat.mod_lt _ (by decide)) (Nat.le_of_lt (Nat.mod_lt _ (by decide)))
  refine ⟨{ g with read := g.write }, Prod.ext ?_ g2, rfl, by show g.write < 4096; rw [k1]; omega⟩
  rw [g1]
  show _ = bs.drop (bs.length / 4096 * 4096)
  apply List.ext_getElem
  · rw [List.length_map, List.length_range, List.length_drop]
    omega
  · intro j h1 h2
    rw [List.length_map, List.length_range] at h1
    rw [List.getElem_map, List.getElem_range, List.getElem_drop, k2]
    have := k3 (bs.length / 4096 * 4096 + j) (by omega) (by omega)
    rw [show (u.read + (bs.length / 4096 * 4096 + j)) % 4096 = (u.read + j) % 4096 by omega] at this
    rw [this]
    exact hget _ _

/-- exactly 4096 bytes: all are lost -/
theorem C92_ring_lost (u : SimUart) (bs : List Nat) (h : u.read = u.write) (hr : u.read < 4096)
    (hl : bs.length = 4096) : (simUartGet (bs.foldl simUartPut u) 4096).1 = [] := by
  obtain ⟨u', e, -⟩ := C92_ring u bs h hr
  rw [e, hl]
  show bs.drop 4096 = []
  rw [List.drop_eq_nil_iff]
  omega

example : (simUartGet ([115, 116, 13].foldl simUartPut ⟨fun _ => 0, 4095, 4095⟩) 4096).1 = [115, 116, 13] := by
  decide +kernel

/-! ### lines -/

/-- what the reader makes of a line which was transmitted -/
def handled (v : SimVals) (line : List Nat) : SimVals := simLine v (pyStrip (line.filter (· < 128)))

private theorem run_line (r : SimReader) (data : List Nat) :
    (data = [] ∧ simRun r data = r) ∨
    (data ≠ [] ∧ (∀ a b, r.uartbuf ++ data ≠ a ++ 13 :: 10 :: b) ∧ simRun r data = ⟨r.uartbuf ++ data, r.vals⟩) ∨
    (data ≠ [] ∧ ∃ l rest, OneLine l ∧ r.uartbuf ++ data = l ++ 13 :: 10 :: rest ∧
      simRun r data = ⟨rest, handled r.vals l⟩) := by
  cases data with
  | nil => exact Or.inl ⟨rfl, rfl⟩
  | cons d data =>
    right
    cases hc : cutLine (r.uartbuf ++ d :: data) with
    | none =>
      left
      refine ⟨by simp, (cutLine_none _).mp hc, ?_⟩
      unfold simRun simGetLine
      simp only [hc]
      rfl
    | some p =>
      right
      obtain ⟨l, rest⟩ := p
      obtain ⟨k1, k2⟩ := cutLine_some _ _ _ hc
      refine ⟨by simp, l, rest, k2, k1, ?_⟩
      unfold simRun simGetLine handled
      simp only [hc]
      cases l with
      | nil => rfl
      | cons a l => rfl

/-- Whatever is transmitted during the passes of the main loop: the reader handles the lines in the order in which they
    were transmitted and loses none; it handles at most one line for each pass in which something was transmitted, and
    exactly one if each of these passes ended a line. -/
theorem C92_lines (chunks : List (List Nat)) (r : SimReader) :
    ∃ ls, (∀ l ∈ ls, OneLine l) ∧ r.uartbuf ++ chunks.flatten = transmitted ls ++ (chunks.foldl simRun r).uartbuf ∧
      (chunks.foldl simRun r).vals = ls.foldl handled r.vals ∧
      ls.length ≤ (chunks.filter (· ≠ [])).length ∧
      ((∀ d ∈ chunks, d = [] ∨ ∃ a b, d = a ++ 13 :: 10 :: b) → ls.length = (chunks.filter (· ≠ [])).length) := by
  induction chunks generalizing r with
  | nil => exact ⟨[], by simp, by simp [transmitted], rfl, by simp, by simp⟩
  | cons d chunks ih =>
    rw [List.foldl_cons]
    obtain ⟨ls, k1, k2, k3, k4, k5⟩ := ih (simRun r d)
    rcases run_line r d with ⟨rfl, e⟩ | ⟨hd, hn, e⟩ | ⟨hd, l, rest, hl, hb, e⟩
    · rw [e] at k2 k3 ⊢
      refine ⟨ls, k1, by simpa using k2, k3, by simpa using k4, fun h => ?_⟩
      rw [k5 (fun x hx => h x (by simp [hx]))]
      simp
    · have hf : ((d :: chunks).filter (· ≠ [])).length = (chunks.filter (· ≠ [])).length + 1 := by simp [hd]
      rw [e] at k2 k3 ⊢
      refine ⟨ls, k1, by rw [List.flatten_cons, ← List.append_assoc]; exact k2, k3, by rw [hf]; omega, fun h => ?_⟩
      rcases h d (by simp) with h | ⟨a, b, h⟩
      · exact absurd h hd
      · exact absurd (by rw [h, List.append_assoc]) (hn (r.uartbuf ++ a) b)
    · have hf : ((d :: chunks).filter (· ≠ [])).length = (chunks.filter (· ≠ [])).length + 1 := by simp [hd]
      rw [e] at k2 k3 ⊢
      refine ⟨l :: ls, ?_, ?_, k3, by rw [hf, List.length_cons]; omega, fun h => ?_⟩
      · intro x hx
        rcases List.mem_cons.mp hx with rfl | hx
        · exact hl
        · exact k1 x hx
      · rw [List.flatten_cons, ← List.append_assoc, hb, transmitted_cons, List.append_assoc, List.append_assoc,
          List.cons_append, List.cons_append, List.cons_append, List.cons_append, k2]
      · rw [hf, List.length_cons, k5 (fun x hx => h x (by simp [hx]))]

/-- While nothing is transmitted, nothing is handled, however many lines are waiting. -/
theorem C92_silent (r : SimReader) : simRun r [] = r := rfl

/-- If every pass of the main loop transmits two lines, then after `n` passes `n` lines are waiting: what is shown is
    ever older. -/
theorem C92_lag (n : Nat) (a b : List Nat) (v : SimVals) (ha : OneLine a) (hb : OneLine b) :
    ∃ ls, ls.length = n ∧ ((List.replicate n (transmitted [a, b])).foldl simRun ⟨[], v⟩).uartbuf = transmitted ls := by
  obtain ⟨ls, k1, k2, -, -, k5⟩ := C92_lines (List.replicate n (transmitted [a, b])) ⟨[], v⟩
  have hne : transmitted [a, b] ≠ [] := by simp [transmitted]
  have hlen := k5 (fun d hd => by
    rw [List.mem_replicate] at hd
    rw [hd.2]
    exact Or.inr ⟨a, transmitted [b], transmitted_cons a [b]⟩)
  rw [List.filter_replicate] at hlen
  rw [if_pos (by simpa using hne), List.length_replicate] at hlen
  have hall : (List.replicate n (transmitted [a, b])).flatten = transmitted (List.replicate n [a, b]).flatten := by
    clear k1 k2 k5 hlen ls
    induction n with
    | zero => rfl
    | succ n ih => rw [List.replicate_succ, List.replicate_succ, List.flatten_cons, List.flatten_cons, ih, transmitted_append]
  have hlen2 : ((List.replicate n [a, b]).flatten).length = 2 * n := by simp [List.length_flatten]; omega
  obtain ⟨more, m1, m2⟩ := lines_unique ls (List.replicate n [a, b]).flatten _ [] k1 (fun l hl => by
      obtain ⟨x, hx, hl⟩ := List.mem_flatten.mp hl
      rw [(List.mem_replicate.mp hx).2] at hl
      simp only [List.mem_cons, List.not_mem_nil, or_false] at hl
      rcases hl with rfl | rfl <;> assumption)
    (by rw [← k2, List.append_nil, List.nil_append, hall]) (by rw [hlen2]; omega)
  refine ⟨more, ?_, by rw [m2, List.append_nil]⟩
  have := congrArg List.length m1
  rw [List.length_append] at this
  omega

/-! ### values -/

/-- what the firmware transmits for the operations (the oldest first) -/
def simTransmit : List DebugOp → Option (List Nat)
  | [] => some []
  | .enable _ :: ops => (simTransmit ops).map (simEnable ++ ·)
  | .value n v t :: ops => (simPrintInt t n none v).bind fun a => (simTransmit ops).map (a ++ ·)
  | .term n m v t :: ops => (simPrintInt t n (some m) v).bind fun a => (simTransmit ops).map (a ++ ·)

/-- the variables of the simulator in the order of the table -/
def simValues (v : SimVals) : List Rat :=
  [v.currentRealR, v.currentUsedR, v.currentRState, v.currentY, v.tempR, v.tempY1, v.tempY2, v.measCurr, v.filtCurr,
    v.measTemp, v.boostMode, v.pidTempE, v.pidTempP, v.pidTempI, v.pidTempD, v.pidTempPrevE, v.pidCurrE, v.pidCurrP,
    v.pidCurrI, v.pidCurrD, v.pidCurrPrevE]

/-- the variables after the operations (the newest first) -/
private def valsAt (hist : List DebugOp) : SimVals where
  currentRealR := lastReport ([99, 114, 49], []) hist * (1 / 640)
  currentUsedR := lastReport ([99, 114, 50], []) hist * (1 / 640)
  currentRState := lastReport ([114, 115], []) hist * 1
  currentY := lastReport ([99, 121], []) hist * (1 / 640)
  tempR := lastReport ([116, 114], []) hist * (1 / 64)
  tempY1 := lastReport ([116, 121, 49], []) hist * (1 / 64)
  tempY2 := lastReport ([116, 121, 50], []) hist * (1 / 640)
  measCurr := lastReport ([109, 99], []) hist * 1
  filtCurr := lastReport ([102, 99], []) hist * 1
  measTemp := lastReport ([109, 116], []) hist * 1
  boostMode := lastReport ([116, 98], []) hist * 1
  pidTempE := lastReport ([112, 105, 100, 45, 116], [101]) hist * (1 / 64)
  pidTempP := lastReport ([112, 105, 100, 45, 116], [112]) hist * (1 / 64)
  pidTempI := lastReport ([112, 105, 100, 45, 116], [105]) hist * (1 / 64)
  pidTempD := lastReport ([112, 105, 100, 45, 116], [100]) hist * (1 / 64)
  pidTempPrevE := lastReport ([112, 105, 100, 45, 116], [112, 101]) hist * (1 / 64)
  pidCurrE := lastReport ([112, 105, 100, 45, 99], [101]) hist * (1 / 64)
  pidCurrP := lastReport ([112, 105, 100, 45, 99], [112]) hist * (1 / 64)
  pidCurrI := lastReport ([112, 105, 100, 45, 99], [105]) hist * (1 / 64)
  pidCurrD := lastReport ([112, 105, 100, 45, 99], [100]) hist * (1 / 64)
  pidCurrPrevE := lastReport ([112, 105, 100, 45, 99], [112, 101]) hist * (1 / 64)

private theorem valsAt_list (hist : List DebugOp) : simValues (valsAt hist) = shown hist := rfl

private theorem names_eq : simColumns.map Prod.fst =
    [([99, 114, 49], []), ([99, 114, 50], []), ([114, 115], []), ([99, 121], []), ([116, 114], []), ([116, 121, 49], []),
     ([116, 121, 50], []), ([109, 99], []), ([102, 99], []), ([109, 116], []), ([116, 98], []),
     ([112, 105, 100, 45, 116], [101]), ([112, 105, 100, 45, 116], [112]), ([112, 105, 100, 45, 116], [105]),
     ([112, 105, 100, 45, 116], [100]), ([112, 105, 100, 45, 116], [112, 101]),
     ([112, 105, 100, 45, 99], [101]), ([112, 105, 100, 45, 99], [112]), ([112, 105, 100, 45, 99], [105]),
     ([112, 105, 100, 45, 99], [100]), ([112, 105, 100, 45, 99], [112, 101])] := rfl

private theorem parse_ok {arg : List Nat} {v : Int} (hv : pyInt 10 arg = some v) : parseInt arg = (v : Rat) ∧
    parseFixpt arg = (v : Rat) * (1 / 64) ∧ parseFixpt arg / 10 = (v : Rat) * (1 / 640) := by
  have hp : parseInt arg = (v : Rat) := by unfold parseInt; rw [hv]; rfl
  have hf : parseFixpt arg = (v : Rat) * (1 / 64) := by
    unfold parseFixpt
    rw [hp, Rat.div_def, Rat.div_def, Rat.one_mul]
  exact ⟨hp, hf, by rw [hf]; ring⟩

private theorem value_name {n : List Nat} (hn : (n, []) ∈ simColumns.map Prod.fst) : n ∈ columns.map Prod.fst := by
  rw [names_eq] at hn
  simp only [List.mem_cons, Prod.mk.injEq, List.not_mem_nil, or_false, and_true, reduceCtorEq, and_false] at hn
  simpa [columns] using hn

private theorem elem_value {n arg : List Nat} {v : Int} {t : Nat} {hist : List DebugOp}
    (hn : (n, []) ∈ simColumns.map Prod.fst) (hv : pyInt 10 arg = some v) :
    simElem (valsAt hist) n arg none = valsAt (.value n v t :: hist) := by
  obtain ⟨hp, hf, hf'⟩ := parse_ok hv
  have hl : ∀ m : List Nat × List Nat, lastReport m (.value n v t :: hist) =
    if (n, []) = m then v else lastReport m hist := fun m => rfl
  have hn := value_name hn
  simp only [columns, List.map_cons, List.map_nil, List.mem_cons, List.not_mem_nil, or_false] at hn
  rcases hn with rfl | rfl | rfl | rfl | rfl | rfl | rfl | rfl | rfl | rfl | rfl <;>
    (unfold simElem valsAt; first | (simp [hl, hp, hf']; done) | (simp [hl, hp, hf]; done))

private theorem term_names {n m : List Nat} (hn : (n, m) ∈ simColumns.map Prod.fst) (hm : m ≠ []) :
    (n = [112, 105, 100, 45, 116] ∨ n = [112, 105, 100, 45, 99]) ∧
      (m = [101] ∨ m = [112] ∨ m = [105] ∨ m = [100] ∨ m = [112, 101]) := by
  rw [names_eq] at hn
  simp only [List.mem_cons, Prod.mk.injEq, List.not_mem_nil, or_false] at hn
  simp only [hm, and_false, false_or] at hn
  rcases hn with h | h | h | h | h | h | h | h | h | h <;> (rw [h.1, h.2]; decide)

private theorem elem_term {n m arg : List Nat} {v : Int} {t : Nat} {hist : List DebugOp}
    (hn : (n, m) ∈ simColumns.map Prod.fst) (hm : m ≠ []) (hv : pyInt 10 arg = some v) :
    simElem (valsAt hist) n m (some arg) = valsAt (.term n m v t :: hist) := by
  obtain ⟨-, hf, -⟩ := parse_ok hv
  have hl : ∀ k : List Nat × List Nat, lastReport k (.term n m v t :: hist) =
    if (n, m) = k then v else lastReport k hist := fun k => rfl
  obtain ⟨h1, h2⟩ := term_names hn hm
  rcases h1 with rfl | rfl <;> rcases h2 with rfl | rfl | rfl | rfl | rfl <;>
    (unfold simElem valsAt; simp [hl, hf])

/-- the text of a report without its end -/
private def reportLine (t : Nat) (n p : List Nat) (v : Int) : List Nat :=
  hostUtoa16 (t % 65536) ++ 58 :: 32 :: (n ++ p ++ 32 :: ltoa10 v)

private theorem sim_print (t : Nat) (n : List Nat) (m : Option (List Nat)) {v : Int} (hv : S32 v) :
    simPrintInt t n m v = some (reportLine t n (m.elim [] fun s => 32 :: s) v ++ [13, 10]) := by
  have hn : (ltoa10 v).length + 1 ≤ 12 := by have := ltoa10_len hv; omega
  have ht : (hostUtoa16 (t % 65536)).length + 1 ≤ 9 := by have := (hostUtoa_ok t).2.2.2.1; omega
  unfold simPrintInt reportLine
  simp only
  rw [if_pos ⟨ht, hn⟩]

private theorem one_line {l : List Nat} (h : 13 ∉ l) : OneLine l := by
  intro a b e
  have h1 := congrArg (List.count 13) e
  have h2 := congrArg List.getLast? e
  rw [List.count_append, List.count_append, List.count_eq_zero_of_not_mem h, List.count_cons_self,
    List.count_cons_self, List.count_nil] at h1
  rw [List.getLast?_append, List.getLast?_append] at h2
  rw [List.count_cons_of_ne (by decide)] at h1
  have h3 : b.count 13 = 0 := by omega
  rw [List.count_eq_zero] at h3
  rw [List.getLast?_cons_cons] at h2
  cases hb : (10 :: b).getLast? with
  | none => rw [List.getLast?_eq_none_iff] at hb; cases hb
  | some x =>
    rw [hb] at h2
    have hx : x = 13 := by simpa using h2.symm
    subst hx
    have := List.mem_of_getLast? hb
    rcases List.mem_cons.mp this with k | k
    · cases k
    · exact h3 k

private theorem report_line (t : Nat) {n p : List Nat} (v : Int) (hn : Name n)
    (hp : p = [] ∨ ∃ m, Name m ∧ p = 32 :: m) : OneLine (reportLine t n p v) := by
  obtain ⟨-, b2, -, -⟩ := body_ok (v := v) hn hp
  refine one_line fun h => ?_
  unfold reportLine at h
  rcases List.mem_append.mp h with h | h
  · have := (hostUtoa_ok t).2.1 13 h
    omega
  · rcases List.mem_cons.mp h with h | h
    · omega
    · rcases List.mem_cons.mp h with h | h
      · omega
      · have := b2 13 h
        omega

private theorem term_name {n m : List Nat} (hn : (n, m) ∈ simColumns.map Prod.fst) (hm : m ≠ []) : Name n ∧ Name m := by
  obtain ⟨h1, h2⟩ := term_names hn hm
  unfold Name
  rcases h1 with rfl | rfl <;> rcases h2 with rfl | rfl | rfl | rfl | rfl <;> decide

/-- the lines of an operation -/
private def opLines : DebugOp → List (List Nat)
  | .enable _ => [[], [115, 116]]
  | .value n v t => [reportLine t n [] v]
  | .term n m v t => [reportLine t n (32 :: m) v]

private theorem opLines_ok (o : DebugOp) (h : o.Known) (ops : List DebugOp) :
    simTransmit (o :: ops) = (simTransmit ops).map (transmitted (opLines o) ++ ·) ∧ ∀ l ∈ opLines o, OneLine l := by
  cases o with
  | enable on =>
    refine ⟨rfl, fun l hl => ?_⟩
    simp only [opLines, List.mem_cons, List.not_mem_nil, or_false] at hl
    rcases hl with rfl | rfl <;> exact one_line (by decide)
  | value n v t =>
    obtain ⟨h1, h2, h3, h4⟩ := h
    have hs : S32 v := ⟨h2, h3⟩
    refine ⟨?_, fun l hl => ?_⟩
    · show (simPrintInt t n none v).bind _ = _
      rw [sim_print t n none hs, Option.bind_some]
      simp [transmitted, opLines]
    · rw [List.mem_singleton.mp hl]
      exact report_line t v (known_name (value_name h1)) (Or.inl rfl)
  | term n m v t =>
    obtain ⟨h1, hm, h2, h3, h4⟩ := h
    have hs : S32 v := ⟨h2, h3⟩
    refine ⟨?_, fun l hl => ?_⟩
    · show (simPrintInt t n (some m) v).bind _ = _
      rw [sim_print t n (some m) hs, Option.bind_some]
      simp [transmitted, opLines]
    · rw [List.mem_singleton.mp hl]
      exact report_line t v (term_name h1 hm).1 (Or.inr ⟨m, (term_name h1 hm).2, rfl⟩)

private theorem handled_nil (v : SimVals) : handled v [] = v := rfl

/-- the reader with some of the lines of an operation -/
private theorem opLines_handled (o : DebugOp) (h : o.Known) (hist : List DebugOp) :
    (opLines o).foldl handled (valsAt hist) = valsAt (o :: hist) := by
  cases o with
  | enable on =>
    show handled (handled (valsAt hist) []) [115, 116] = _
    have h1 : pyStrip (([115, 116] : List Nat).filter (· < 128)) = [115, 116] := by decide
    unfold handled simLine
    rw [h1, if_neg (by simp), if_pos rfl]
    unfold valsAt simReset
    simp [lastReport]
  | value n v t =>
    obtain ⟨h1, h2, h3, h4⟩ := h
    obtain ⟨b1, b2, b3, b4⟩ := body_ok (v := v) (known_name (value_name h1)) (p := []) (Or.inl rfl)
    show handled (valsAt hist) (reportLine t n [] v) = _
    unfold handled reportLine
    rw [simLine_body _ t _ b1 b2 b3 b4, List.append_nil, split_two (known_name (value_name h1)).2 (ltoa10_vis v).2
      (known_name (value_name h1)).1 (ltoa10_vis v).1]
    exact elem_value h1 (pyInt_value ⟨h2, h3⟩)
  | term n m v t =>
    obtain ⟨h1, hm, h2, h3, h4⟩ := h
    obtain ⟨k1, k2⟩ := term_name h1 hm
    obtain ⟨b1, b2, b3, b4⟩ := body_ok (v := v) k1 (p := 32 :: m) (Or.inr ⟨m, k2, rfl⟩)
    show handled (valsAt hist) (reportLine t n (32 :: m) v) = _
    unfold handled reportLine
    rw [simLine_body _ t _ b1 b2 b3 b4, split_three k1.2 k2.2 (ltoa10_vis v).2 k1.1 k2.1 (ltoa10_vis v).1]
    exact elem_term h1 hm (pyInt_value ⟨h2, h3⟩)

private theorem prefix_ok (ops : List DebugOp) : ∀ hist, (∀ o ∈ ops, o.Known) →
    ∃ ls, simTransmit ops = some (transmitted ls) ∧ (∀ l ∈ ls, OneLine l) ∧
      (ls.foldl handled (valsAt hist) = valsAt (ops.reverse ++ hist)) ∧
      ∀ k, ∃ done rest, ops = done ++ rest ∧
        (ls.take k).foldl handled (valsAt hist) = valsAt (done.reverse ++ hist) := by
  induction ops with
  | nil =>
    intro hist _
    exact ⟨[], rfl, by simp, rfl, fun k => ⟨[], [], rfl, by simp⟩⟩
  | cons o ops ih =>
    intro hist hk
    have ho := hk o (by simp)
    obtain ⟨ls, k1, k2, k3, k4⟩ := ih (o :: hist) (fun x hx => hk x (by simp [hx]))
    obtain ⟨e1, e2⟩ := opLines_ok o ho ops
    have e3 := opLines_handled o ho hist
    refine ⟨opLines o ++ ls, ?_, ?_, ?_, fun k => ?_⟩
    · rw [e1, k1, Option.map_some, transmitted_append]
    · intro l hl
      rcases List.mem_append.mp hl with hl | hl
      · exact e2 l hl
      · exact k2 l hl
    · rw [List.foldl_append, e3, k3]
      simp
    · by_cases h : (opLines o).length ≤ k
      · obtain ⟨done, rest, d1, d2⟩ := k4 (k - (opLines o).length)
        refine ⟨o :: done, rest, by rw [d1]; rfl, ?_⟩
        rw [List.take_append, List.take_of_length_le h, List.foldl_append, e3, d2]
        simp
      · refine ⟨[], o :: ops, rfl, ?_⟩
        rw [List.take_append_of_le_length (by omega)]
        cases o with
        | enable on =>
          match k with
          | 0 => rfl
          | 1 => rfl
          | k + 2 => simp [opLines] at h
        | value n v t =>
          match k with
          | 0 => rfl
          | k + 1 => simp [opLines] at h
        | term n m v t =>
          match k with
          | 0 => rfl
          | k + 1 => simp [opLines] at h

/-- Whatever the firmware reports, and however what it transmits falls into the passes of the main loop: no buffer
    overruns, and the variables of the simulator are what the reports up to some moment tell, in amperes and degrees. -/
theorem C92_values (ops : List DebugOp) (hk : ∀ o ∈ ops, o.Known) :
    ∃ text, simTransmit ops = some text ∧ ∀ chunks : List (List Nat), chunks.flatten = text →
      ∃ done rest, ops = done ++ rest ∧
        simValues (chunks.foldl simRun ⟨[], simReset⟩).vals = shown done.reverse := by
  obtain ⟨ls, k1, k2, k3, k4⟩ := prefix_ok ops [] hk
  have h0 : valsAt [] = simReset := by
    unfold valsAt simReset
    simp [lastReport]
  refine ⟨_, k1, fun chunks hc => ?_⟩
  obtain ⟨ms, m1, m2, m3, -, -⟩ := C92_lines chunks ⟨[], simReset⟩
  rw [List.nil_append, hc] at m2
  have hms : ms = ls.take ms.length := by
    rcases Nat.le_total ms.length ls.length with h | h
    · obtain ⟨more, r1, -⟩ := lines_unique ms ls _ [] m1 k2 (by rw [← m2, List.append_nil]) h
      rw [r1, List.take_left]
    · obtain ⟨more, r1, r2⟩ := lines_unique ls ms [] _ k2 m1 (by rw [← m2, List.append_nil]) h
      cases more with
      | nil => rw [r1, List.append_nil, List.take_length]
      | cons a more =>
        have := congrArg List.length r2
        rw [transmitted_cons] at this
        simp at this
  obtain ⟨done, rest, d1, d2⟩ := k4 ms.length
  refine ⟨done, rest, d1, ?_⟩
  rw [m3, hms]
  show simValues ((ls.take ms.length).foldl handled simReset) = _
  rw [← h0, d2, valsAt_list, List.append_nil]

/-- If the passes of the main loop transmit at most one line each, the variables show all reports. -/
theorem C92_up_to_date (passes : List (List DebugOp)) (hk : ∀ p ∈ passes, ∀ o ∈ p, o.Known)
    (h1 : ∀ p ∈ passes, p.length ≤ 1 ∧ ∀ on, DebugOp.enable on ∉ p) :
    ∃ chunks, List.Forall₂ (fun p c => simTransmit p = some c) passes chunks ∧
      simValues (chunks.foldl simRun ⟨[], simReset⟩).vals = shown passes.flatten.reverse := by
  have key : ∀ (passes : List (List DebugOp)) (hist : List DebugOp), (∀ p ∈ passes, ∀ o ∈ p, o.Known) →
      (∀ p ∈ passes, p.length ≤ 1 ∧ ∀ on, DebugOp.enable on ∉ p) →
      ∃ chunks, List.Forall₂ (fun p c => simTransmit p = some c) passes chunks ∧
        chunks.foldl simRun ⟨[], valsAt hist⟩ = ⟨[], valsAt (passes.flatten.reverse ++ hist)⟩ := by
    intro passes
    induction passes with
    | nil => intro hist _ _; exact ⟨[], .nil, rfl⟩
    | cons p passes ih =>
      intro hist hk h1
      have hk' := fun q hq => hk q (List.mem_cons_of_mem _ hq)
      have h1' := fun q hq => h1 q (List.mem_cons_of_mem _ hq)
      obtain ⟨hlen, hen⟩ := h1 p (by simp)
      match p, hlen, hen with
      | [], _, _ =>
        obtain ⟨cs, c1, c2⟩ := ih hist hk' h1'
        exact ⟨[] :: cs, .cons rfl c1, c2⟩
      | [o], _, hen =>
        have ho := hk [o] (by simp) o (by simp)
        obtain ⟨cs, c1, c2⟩ := ih (o :: hist) hk' h1'
        obtain ⟨e1, e2⟩ := opLines_ok o ho []
        have e3 := opLines_handled o ho hist
        have hone : ∃ l, opLines o = [l] := by
          cases o with
          | enable on => exact absurd (by simp) (hen on)
          | value n v t => exact ⟨_, rfl⟩
          | term n m v t => exact ⟨_, rfl⟩
        obtain ⟨l, hl⟩ := hone
        rw [hl] at e1 e2 e3
        refine ⟨transmitted [l] :: cs, .cons (by rw [e1]; simp [simTransmit]) c1, ?_⟩
        rw [List.foldl_cons]
        have hrun : simRun ⟨[], valsAt hist⟩ (transmitted [l]) = ⟨[], valsAt (o :: hist)⟩ := by
          have hcut : cutLine (transmitted [l]) = some (l, []) := by
            rw [transmitted_cons]
            exact cutLine_line l [] (e2 l (by simp))
          rcases run_line ⟨[], valsAt hist⟩ (transmitted [l]) with ⟨h, -⟩ | ⟨-, h, -⟩ | ⟨-, l', rest, hl', hb, e⟩
          · simp [transmitted] at h
          · exact absurd (by rw [List.nil_append, transmitted_cons]) (h l (transmitted []))
          · have hc' := cutLine_line l' rest hl'
            rw [← hb, List.nil_append, hcut] at hc'
            cases hc'
            rw [e]
            exact congrArg _ e3
        rw [hrun, c2]
        simp
  obtain ⟨cs, c1, c2⟩ := key passes [] hk h1
  have h0 : valsAt [] = simReset := by
    unfold valsAt simReset
    simp [lastReport]
  refine ⟨cs, c1, ?_⟩
  rw [← h0, c2, valsAt_list, List.append_nil]

/-! ### examples -/

/-- "ty1" in one pass, a term of the current controller in the next but one -/
private def quiet : List (List DebugOp) :=
  [[.value [116, 121, 49] (-1920) 43981], [], [.term [112, 105, 100, 45, 99] [101] 96 43982]]

example : (∀ p ∈ quiet, ∀ o ∈ p, o.Known) ∧ (∀ p ∈ quiet, p.length ≤ 1 ∧ ∀ on, DebugOp.enable on ∉ p) ∧
    shown quiet.flatten.reverse = [0, 0, 0, 0, 0, -30, 0, 0, 0, 0, 0, 0, 0, 0, 0, 0, 3 / 2, 0, 0, 0, 0] := by
  refine ⟨?_, ?_, ?_⟩
  · intro p hp o ho
    simp only [quiet, List.mem_cons, List.not_mem_nil, or_false] at hp
    rcases hp with rfl | rfl | rfl
    · rw [List.mem_singleton.mp ho]; simp [DebugOp.Known, names_eq]
    · cases ho
    · rw [List.mem_singleton.mp ho]; simp [DebugOp.Known, names_eq]
  · intro p hp
    simp only [quiet, List.mem_cons, List.not_mem_nil, or_false] at hp
    rcases hp with rfl | rfl | rfl <;> simp
  · simp [quiet, shown, simColumns, columns, lastReport]
    norm_num

/-- two reports in one pass: only the first one is shown -/
example : ∃ c, simTransmit [.value [114, 115] 1 7, .value [114, 115] 2 7] = some c ∧
    (simRun ⟨[], simReset⟩ c).vals.currentRState = 1 := by
  refine ⟨[55, 58, 32, 114, 115, 32, 49, 13, 10, 55, 58, 32, 114, 115, 32, 50, 13, 10], by decide +kernel, ?_⟩
  decide +kernel

/-- the hypotheses of `C92_lag` -/
example : OneLine [55, 58, 32, 114, 115, 32, 49] ∧ OneLine [55, 58, 32, 114, 115, 32, 50] :=
  ⟨one_line (by decide), one_line (by decide)⟩

end Verif.Props
