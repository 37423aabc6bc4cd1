import Verif.Spec.Text
import Verif.Model.Menu
import Verif.Proofs.Fixpt
import Verif.Proofs.Arith
import Verif.Proofs.Pid
import Verif.Props.Fixpt
/-
Composing and showing the display text.
-/
namespace Verif
open Spec

theorem digitLoop_nat (b : TextBuf) (off k n : Nat) :
    digitLoop b off (k + 1) (n : Int) = (do
      let b ← bufPut b (off + k) (48 + n % 10)
      if k = 0 then return (b, 0)
      else if n / 10 = 0 then return (b, k)
      else digitLoop b off k ((n / 10 : Nat) : Int)) := by
  have h1 : (48 + (n : Int).tmod 10).toNat = 48 + n % 10 := by
    have : (n : Int).tmod 10 = ((n % 10 : Nat) : Int) := rfl
    rw [this]; omega
  have h2 : (n : Int).tdiv 10 = ((n / 10 : Nat) : Int) := rfl
  have h3 : (((n / 10 : Nat) : Int) = 0) ↔ n / 10 = 0 := by omega
  simp only [digitLoop, h1, h2, h3]

/-- the three characters of a number -99..999, right aligned -/
def chars3 (v : Int) : List Nat :=
  if v < 0 then
    (if v.natAbs < 10 then [32, 45, 48 + v.natAbs] else [45, 48 + v.natAbs / 10, 48 + v.natAbs % 10])
  else if v.natAbs < 10 then [32, 32, 48 + v.natAbs]
  else if v.natAbs < 100 then [32, 48 + v.natAbs / 10, 48 + v.natAbs % 10]
  else [48 + v.natAbs / 100, 48 + v.natAbs / 10 % 10, 48 + v.natAbs % 10]

theorem intToAscii3 (b0 b1 b2 b3 b4 b5 : Option Nat) {v lo hi w : Int} (hv : cClamp v lo hi = w)
    (hw : -99 ≤ w ∧ w ≤ 999) :
    ∃ x y z, chars3 w = [x, y, z] ∧
      intToAscii [b0, b1, b2, b3, b4, b5] 0 2 v lo hi 32 =
        some [some x, some y, some z, some 0, b4, b5] := by
  unfold intToAscii
  simp only [hv]
  have hck : (if w < 0 then ck16 (-w) else some w) = some (w.natAbs : Int) := by
    split
    · rw [ck16_eq (by unfold S16; omega)]; congr 1; omega
    · congr 1; omega
  unfold chars3
  have hn : w.natAbs ≤ 999 := by omega
  by_cases hneg : w < 0
  · have hn2 : w.natAbs ≤ 99 := by omega
    simp only [hneg, if_true] at hck ⊢
    rw [hck]
    simp only [decide_true, Option.bind_eq_bind, Option.bind_some]
    generalize w.natAbs = n at *
    by_cases h1 : n < 10
    · have e1 : n / 10 = 0 := by omega
      have e2 : n % 10 = n := by omega
      refine ⟨32, 45, 48 + n, by rw [if_pos h1], ?_⟩
      simp [bufPut, digitLoop_nat, fillLeft, e1, e2]
    · have e1 : n / 10 ≠ 0 := by omega
      have e2 : n / 10 / 10 = 0 := by omega
      have e3 : n / 10 % 10 = n / 10 := by omega
      refine ⟨45, 48 + n / 10, 48 + n % 10, by rw [if_neg h1], ?_⟩
      simp only [digitLoop_nat, e1, e2, e3]
      simp [bufPut, fillLeft]
  · simp only [hneg, if_false] at hck ⊢
    rw [hck]
    simp only [decide_false, Option.bind_eq_bind, Option.bind_some]
    generalize w.natAbs = n at *
    by_cases h1 : n < 10
    · have e1 : n / 10 = 0 := by omega
      have e2 : n % 10 = n := by omega
      refine ⟨32, 32, 48 + n, by rw [if_pos h1], ?_⟩
      simp [bufPut, digitLoop_nat, fillLeft, e1, e2]
    · by_cases h2 : n < 100
      · have e1 : n / 10 ≠ 0 := by omega
        have e2 : n / 10 / 10 = 0 := by omega
        have e3 : n / 10 % 10 = n / 10 := by omega
        refine ⟨32, 48 + n / 10, 48 + n % 10, by rw [if_neg h1, if_pos h2], ?_⟩
        simp only [digitLoop_nat, e1, e2, e3]
        simp [bufPut, fillLeft]
      · have e1 : n / 10 ≠ 0 := by omega
        have e2 : n / 10 / 10 ≠ 0 := by omega
        have e3 : n / 10 / 10 % 10 = n / 100 := by omega
        refine ⟨48 + n / 100, 48 + n / 10 % 10, 48 + n % 10, by rw [if_neg h1, if_neg h2], ?_⟩
        simp only [digitLoop_nat, e1, e2, e3]
        simp [bufPut, fillLeft]

theorem readNumber_chars3 {v : Int} (h : -99 ≤ v ∧ v ≤ 999) : readNumber (chars3 v) = some v := by
  have hd : ∀ a, a < 10 → (¬ 48 + a = 32) ∧ (¬ 48 + a = 45) ∧ (48 ≤ 48 + a ∧ 48 + a ≤ 57) := by omega
  have hn : v.natAbs ≤ 999 := by omega
  unfold chars3
  by_cases hneg : v < 0
  · rw [if_pos hneg]
    have hv : v = -(v.natAbs : Int) := by omega
    generalize v.natAbs = n at *
    subst hv
    by_cases h1 : n < 10
    · rw [if_pos h1]
      obtain ⟨a1, a2, a3⟩ := hd _ h1
      simp [readNumber, readDigits, a3]
    · rw [if_neg h1]
      obtain ⟨a1, a2, a3⟩ := hd (n / 10) (by omega)
      obtain ⟨b1, b2, b3⟩ := hd (n % 10) (by omega)
      simp [readNumber, readDigits, a3.2, b3.2]
      omega
  · rw [if_neg hneg]
    have hv : v = (v.natAbs : Int) := by omega
    generalize v.natAbs = n at *
    subst hv
    by_cases h1 : n < 10
    · rw [if_pos h1]
      obtain ⟨a1, a2, a3⟩ := hd _ h1
      simp [readNumber, readDigits, a1, a2, a3]
    · rw [if_neg h1]
      by_cases h2 : n < 100
      · rw [if_pos h2]
        obtain ⟨a1, a2, a3⟩ := hd (n / 10) (by omega)
        obtain ⟨b1, b2, b3⟩ := hd (n % 10) (by omega)
        simp [readNumber, readDigits, a1, a2, a3.2, b3.2]
        omega
      · rw [if_neg h2]
        obtain ⟨a1, a2, a3⟩ := hd (n / 100) (by omega)
        obtain ⟨b1, b2, b3⟩ := hd (n % 10) (by omega)
        obtain ⟨c1, c2, c3⟩ := hd (n / 10 % 10) (by omega)
        simp [readNumber, readDigits, a1, a2, a3.2, b3.2, c3.2]
        omega

theorem readDigits_pad2 {n : Nat} (h : n < 100) :
    readDigits [48 + n / 10, 48 + n % 10] = some n := by
  have a3 : 48 + n / 10 ≤ 57 := by omega
  have b3 : 48 + n % 10 ≤ 57 := by omega
  simp [readDigits, a3, b3]
  omega

theorem readDigits_pad3 {n : Nat} (h : n < 1000) :
    readDigits [48 + n / 100, 48 + n / 10 % 10, 48 + n % 10] = some n := by
  have a3 : 48 + n / 100 ≤ 57 := by omega
  have b3 : 48 + n % 10 ≤ 57 := by omega
  have c3 : 48 + n / 10 % 10 ≤ 57 := by omega
  simp [readDigits, a3, b3, c3]
  omega

/-- the two characters of a number 0..99, right aligned -/
def chars2 (n : Nat) : List Nat :=
  if n < 10 then [32, 48 + n] else [48 + n / 10, 48 + n % 10]

theorem readNumber_chars2 {n : Nat} (h : n < 100) : readNumber (chars2 n) = some (n : Int) := by
  have := readNumber_chars3 (v := n) (by omega)
  unfold chars3 at this
  have hn : ¬ ((n : Int) < 0) := by omega
  have ha : (n : Int).natAbs = n := by omega
  rw [if_neg hn, ha] at this
  unfold chars2
  by_cases h1 : n < 10
  · rw [if_pos h1] at this ⊢
    simpa [readNumber] using this
  · rw [if_neg h1] at this ⊢
    rw [if_pos h] at this
    simpa [readNumber] using this

theorem cClamp_in {v lo hi : Int} (h : lo ≤ v ∧ v ≤ hi) : cClamp v lo hi = v := by
  unfold cClamp cMax cMin; split_ifs <;> omega

theorem intToAscii2 (b0 b1 b2 b3 b4 b5 : Option Nat) {n : Nat} (h : n < 100) :
    ∃ x y, chars2 n = [x, y] ∧
      intToAscii [b0, b1, b2, b3, b4, b5] 0 1 (n : Int) 0 99 32 =
        some [some x, some y, some 0, b3, b4, b5] := by
  unfold intToAscii chars2
  rw [cClamp_in (by omega)]
  have hneg : ¬ ((n : Int) < 0) := by omega
  simp only [hneg, decide_false, if_false, Option.bind_eq_bind, Option.bind_some]
  by_cases h1 : n < 10
  · have e1 : n / 10 = 0 := by omega
    have e2 : n % 10 = n := by omega
    refine ⟨32, 48 + n, by rw [if_pos h1], ?_⟩
    simp [bufPut, digitLoop_nat, fillLeft, e1, e2]
  · have e1 : n / 10 ≠ 0 := by omega
    have e3 : n / 10 % 10 = n / 10 := by omega
    refine ⟨48 + n / 10, 48 + n % 10, by rw [if_neg h1], ?_⟩
    simp only [digitLoop_nat, e1, e3]
    simp [bufPut, fillLeft]

theorem intToAscii1 (b0 b1 b2 b3 b4 b5 : Option Nat) {n : Nat} (h : n < 10) :
    intToAscii [b0, b1, b2, b3, b4, b5] 0 0 (n : Int) 0 9 32 =
        some [some (48 + n), some 0, b2, b3, b4, b5] := by
  unfold intToAscii
  rw [cClamp_in (by omega)]
  have hneg : ¬ ((n : Int) < 0) := by omega
  have e2 : n % 10 = n := by omega
  simp only [hneg, decide_false, if_false, Option.bind_eq_bind, Option.bind_some, digitLoop_nat, e2]
  simp [bufPut, fillLeft]

theorem intToAsciiFract2 (b0 b1 b2 b3 b4 b5 : Option Nat) {n : Nat} (h : n < 100) :
    intToAscii [b0, b1, b2, b3, b4, b5] 3 1 (n : Int) 0 99 48 =
        some [b0, b1, b2, some (48 + n / 10), some (48 + n % 10), some 0] := by
  unfold intToAscii
  rw [cClamp_in (by omega)]
  have hneg : ¬ ((n : Int) < 0) := by omega
  simp only [hneg, decide_false, if_false, Option.bind_eq_bind, Option.bind_some]
  by_cases h1 : n < 10
  · have e1 : n / 10 = 0 := by omega
    have e2 : n % 10 = n := by omega
    simp [bufPut, digitLoop_nat, fillLeft, e1, e2]
  · have e1 : n / 10 ≠ 0 := by omega
    have e3 : n / 10 % 10 = n / 10 := by omega
    simp only [digitLoop_nat, e1, e3]
    simp [bufPut, fillLeft]

theorem intToAsciiFract3 (b0 b1 b2 b3 b4 b5 : Option Nat) {n : Nat} (h : n < 1000) :
    intToAscii [b0, b1, b2, b3, b4, b5] 2 2 (n : Int) 0 999 48 =
        some [b0, b1, some (48 + n / 100), some (48 + n / 10 % 10), some (48 + n % 10), some 0] := by
  unfold intToAscii
  rw [cClamp_in (by omega)]
  have hneg : ¬ ((n : Int) < 0) := by omega
  simp only [hneg, decide_false, if_false, Option.bind_eq_bind, Option.bind_some]
  by_cases h1 : n < 10
  · have e1 : n / 10 = 0 := by omega
    have e2 : n % 10 = n := by omega
    have e3 : n / 100 = 0 := by omega
    simp [bufPut, digitLoop_nat, fillLeft, e1, e2, e3]
  · by_cases h2 : n < 100
    · have e1 : n / 10 ≠ 0 := by omega
      have e2 : n / 10 / 10 = 0 := by omega
      have e3 : n / 100 = 0 := by omega
      simp only [digitLoop_nat, e1, e2, e3]
      simp [bufPut, fillLeft]
    · have e1 : n / 10 ≠ 0 := by omega
      have e2 : n / 10 / 10 ≠ 0 := by omega
      have e3 : n / 10 / 10 % 10 = n / 100 := by omega
      simp only [digitLoop_nat, e1, e2, e3]
      simp [bufPut, fillLeft]

/-- the nearest integer of a fixed-point value, as computed -/
theorem fixptToInt_small {p : Int} (h : -2097119 ≤ p ∧ p ≤ 2097119) :
    ∃ n, fixptToInt p = some n ∧ NearestAway p 64 n ∧ toS16 n = n := by
  obtain ⟨n, e, hn⟩ := Props.C05_to_int p (by unfold S24; omega)
  refine ⟨n, e, hn, ?_⟩
  unfold NearestAway at hn
  unfold toS16
  omega

/-- a temperature and a unit of one or two characters -/
theorem menuPutTemp_eq (b0 b1 b2 b3 b4 b5 : Option Nat) {p n : Int} (hn : fixptToInt p = some n)
    (h16 : toS16 n = n) (sym : List Nat) (hs : sym.length = 1 ∨ sym.length = 2) :
    ∃ rest, menuPutTemp [b0, b1, b2, b3, b4, b5] p sym =
      some ((chars3 (cClamp n (-99) 999) ++ sym).map some ++ some 0 :: rest) ∧ rest.length ≤ 1 := by
  obtain ⟨x, y, z, e1, e2⟩ := intToAscii3 b0 b1 b2 b3 b4 b5 (v := n) (lo := -99) (hi := 999) rfl
    (cClamp_range (by decide))
  unfold menuPutTemp
  simp only [hn, h16, e2, e1, Option.bind_eq_bind, Option.bind_some]
  rcases hs with h | h
  · match sym, h with
    | [a], _ => exact ⟨[b5], by simp [putStr, bufPut], by simp⟩
  · match sym, h with
    | [a, b], _ => exact ⟨[], by simp [putStr, bufPut], by simp⟩

/-- a factor with two decimals -/
theorem menuPutFixpt2_eq (b0 b1 b2 b3 b4 b5 : Option Nat) {p : Int} (hp : 0 ≤ p ∧ p ≤ 6336) :
    ∃ i f : Nat, fixptGetIntPart p = some (i : Int) ∧ fixptGetDecFract p 2 = some (f : Int) ∧
      i < 100 ∧ f < 100 ∧
      menuPutFixpt [b0, b1, b2, b3, b4, b5] p 2 =
        some ((chars2 i ++ 46 :: [48 + f / 10, 48 + f % 10]).map some ++ [some 0]) := by
  obtain ⟨i, f, e1, e2, h1, h2, -⟩ := Props.C06_dec_fract p (by unfold S24; omega) (by omega) 2 (by decide)
  have hi : i = p / 64 := by
    unfold fixptGetIntPart at e1
    rw [if_pos (by omega)] at e1
    exact (Option.some.inj e1).symm
  obtain ⟨i', rfl⟩ : ∃ i' : Nat, i = i' := ⟨i.toNat, by omega⟩
  obtain ⟨f', rfl⟩ : ∃ f' : Nat, f = f' := ⟨f.toNat, by omega⟩
  have hi' : i' < 100 := by omega
  have hf' : f' < 100 := by omega
  refine ⟨i', f', e1, e2, hi', hf', ?_⟩
  obtain ⟨x, y, c1, c2⟩ := intToAscii2 b0 b1 b2 b3 b4 b5 hi'
  unfold menuPutFixpt
  have h16 : toS16 (cClamp (i' : Int) 0 99) = i' := by
    rw [cClamp_in (by omega)]; unfold toS16; omega
  have h16' : toS16 (f' : Int) = f' := by unfold toS16; omega
  simp only [if_true, e1, e2, Option.bind_eq_bind, Option.bind_some, h16, h16', c2, c1]
  simp only [bufPut, List.length_cons, List.length_nil, Option.bind_some, List.set_cons_succ,
    List.set_cons_zero]
  rw [if_pos (by decide)]
  simp only [Option.bind_some, intToAsciiFract2 _ _ _ _ _ _ hf']
  rfl

/-- a factor with three decimals -/
theorem menuPutFixpt3_eq (b0 b1 b2 b3 b4 b5 : Option Nat) {p : Int} (hp : 0 ≤ p ∧ p ≤ 576) :
    ∃ i f : Nat, fixptGetIntPart p = some (i : Int) ∧ fixptGetDecFract p 3 = some (f : Int) ∧
      i < 10 ∧ f < 1000 ∧
      menuPutFixpt [b0, b1, b2, b3, b4, b5] p 3 =
        some (([48 + i] ++ 46 :: [48 + f / 100, 48 + f / 10 % 10, 48 + f % 10]).map some ++ [some 0]) := by
  obtain ⟨i, f, e1, e2, h1, h2, -⟩ := Props.C06_dec_fract p (by unfold S24; omega) (by omega) 3 (by decide)
  have hi : i = p / 64 := by
    unfold fixptGetIntPart at e1
    rw [if_pos (by omega)] at e1
    exact (Option.some.inj e1).symm
  obtain ⟨i', rfl⟩ : ∃ i' : Nat, i = i' := ⟨i.toNat, by omega⟩
  obtain ⟨f', rfl⟩ : ∃ f' : Nat, f = f' := ⟨f.toNat, by omega⟩
  have hi' : i' < 10 := by omega
  have hf' : f' < 1000 := by omega
  refine ⟨i', f', e1, e2, hi', hf', ?_⟩
  unfold menuPutFixpt
  have h16 : toS16 (cClamp (i' : Int) 0 9) = i' := by
    rw [cClamp_in (by omega)]; unfold toS16; omega
  have h16' : toS16 (f' : Int) = f' := by unfold toS16; omega
  have h32 : ¬ (3 = 2) := by decide
  simp only [if_neg h32, e1, e2, Option.bind_eq_bind, Option.bind_some, h16, h16',
    intToAscii1 b0 b1 b2 b3 b4 b5 hi']
  simp only [bufPut, List.length_cons, List.length_nil, Option.bind_some, List.set_cons_succ,
    List.set_cons_zero]
  rw [if_pos (by decide)]
  simp only [Option.bind_some, intToAsciiFract3 _ _ _ _ _ _ hf']
  rfl

/-! ### showing a text -/

/-- `layout` on bytes -/
def layoutB : List (BitVec 8) → List (BitVec 8 × Bool)
  | [] => []
  | [ch] => [(ch, false)]
  | ch :: ch' :: cs =>
    if ch' = 46#8 then (ch, true) :: layoutB cs else (ch, false) :: layoutB (ch' :: cs)

/-- the byte given to the 7-segment code for one digit -/
def glyphByte (force on : Bool) : Option (BitVec 8 × Bool) → BitVec 8
  | none => 0x20
  | some (ch, dp) => if force then (if on then ch ||| 0x80 else ch &&& 0x7F) else
      (if dp then ch ||| 0x80 else ch)

theorem nextGlyph_nil (g : DispDigit) (rest : List (Option (BitVec 8))) :
    nextGlyph g (some 0 :: rest) = some (0x20, some 0 :: rest) := rfl

/-- one digit of a text -/
theorem nextGlyph_cons (g : DispDigit) {ch : BitVec 8} {cs : List (BitVec 8)}
    (rest : List (Option (BitVec 8))) (hc : ch ≠ 0) :
    ∃ p ps, layoutB (ch :: cs) = p :: layoutB ps ∧ (∀ x ∈ ps, x ∈ ch :: cs) ∧
      nextGlyph g ((ch :: cs).map some ++ some 0 :: rest) =
        some (glyphByte g.dpForce g.dpOn (some p), ps.map some ++ some 0 :: rest) := by
  have hc' : ¬ ch = 0#8 := hc
  have k1 : (ch ||| 128#8) &&& 127#8 = ch &&& 127#8 := by clear hc hc'; revert ch; decide
  have k2 : ch ||| 128#8 ||| 128#8 = ch ||| 128#8 := by clear hc hc' k1; revert ch; decide
  unfold nextGlyph
  cases cs with
  | nil =>
    refine ⟨(ch, false), [], rfl, by simp, ?_⟩
    simp [hc', glyphByte]
  | cons c1 cs =>
    by_cases h1 : c1 = 46#8
    · refine ⟨(ch, true), cs, by simp [layoutB, h1], by intro x hx; simp [hx], ?_⟩
      subst h1
      cases g.dpForce <;> cases g.dpOn <;> simp [hc', glyphByte, k1, k2]
    · refine ⟨(ch, false), c1 :: cs, by simp [layoutB, h1], by intro x hx; simp at hx ⊢; tauto, ?_⟩
      cases g.dpForce <;> cases g.dpOn <;> simp [hc', glyphByte, h1]

/-- the segments lit for a byte -/
def lit (i : Nat) (h : i < 4) (ch : BitVec 8) : BitVec 8 :=
  ioMaskOf digitIomaps[i].segment ((charMask ch).getD 0)

theorem ssegDigitSet_eq {d : SsegDigit} {i : Nat} (h : i < 4) (hio : d.iomap = some digitIomaps[i])
    (ch : BitVec 8) : ssegDigitSet d ch = some { d with enSet := lit i h ch } := by
  have hm : ∃ m, charMask ch = some m := by
    have : (charMask ch).isSome = true := by revert ch; decide
    exact Option.isSome_iff_exists.mp this
  obtain ⟨m, hm⟩ := hm
  unfold ssegDigitSet lit
  simp only [hio, hm, Option.bind_eq_bind, Option.bind_some, pure, Option.getD_some]

/-- a digit after a character has been put on it -/
def shownDigit (g : DispDigit) (j : Nat) (h : j < 4) (o : Option (BitVec 8 × Bool)) : DispDigit :=
  { g with sseg := { g.sseg with enSet := lit j h (glyphByte g.dpForce g.dpOn o) } }

/-- showing a text from digit `i` on -/
theorem showFrom_eq (n : Nat) : ∀ (i : Nat) (d : Display) (txt : List (BitVec 8))
    (rest : List (Option (BitVec 8))), i + n = 4 → (∀ ch ∈ txt, ch ≠ 0) →
    (∀ j (h : j < 4), d.digit[j].sseg.iomap = some digitIomaps[j]) →
    ∃ dg, showFrom d (txt.map some ++ some 0 :: rest) n i = some { d with digit := dg } ∧
      ∀ j (h : j < 4), dg[j] = if j < i then d.digit[j] else
        shownDigit d.digit[j] j h (layoutB txt)[j - i]? := by
  induction n with
  | zero =>
    intro i d txt rest hi _ _
    exact ⟨d.digit, rfl, fun j h => by rw [if_pos (by omega)]⟩
  | succ n ih =>
    intro i d txt rest hi ht hio
    have hi4 : i < 4 := by omega
    have step : ∃ g ps, (∀ ch ∈ ps, ch ≠ 0) ∧
        nextGlyph d.digit[i] (txt.map some ++ some 0 :: rest) =
          some (glyphByte d.digit[i].dpForce d.digit[i].dpOn g, ps.map some ++ some 0 :: rest) ∧
        (layoutB txt)[0]? = g ∧ ∀ k, (layoutB txt)[k + 1]? = (layoutB ps)[k]? := by
      cases txt with
      | nil => exact ⟨none, [], by simp, rfl, rfl, fun k => rfl⟩
      | cons ch cs =>
        obtain ⟨p, ps, e1, e2, e3⟩ := nextGlyph_cons d.digit[i] (cs := cs) rest (ht ch (by simp))
        exact ⟨some p, ps, fun x hx => ht x (e2 x hx), e3, by rw [e1]; rfl, fun k => by rw [e1]; rfl⟩
    obtain ⟨g, ps, hps, eg, l0, lk⟩ := step
    have hset := ssegDigitSet_eq hi4 (hio i hi4) (glyphByte d.digit[i].dpForce d.digit[i].dpOn g)
    generalize hd1 : ({ d with digit := d.digit.set i (shownDigit d.digit[i] i hi4 g) } :
      Display) = d1
    have hdig : ∀ j (h : j < 4), d1.digit[j] = if j = i then (shownDigit d.digit[i] i hi4 g)
        else d.digit[j] := by
      intro j h
      rw [← hd1]
      by_cases e : j = i
      · subst e; simp
      · rw [if_neg e]; exact Vector.getElem_set_ne hi4 h (Ne.symm e)
    obtain ⟨dg, e, hdg⟩ := ih (i + 1) d1 ps rest (by omega) hps (by
      intro j h
      rw [hdig j h]
      split
      · rename_i e; subst e; exact hio j h
      · exact hio j h)
    refine ⟨dg, ?_, ?_⟩
    · rw [showFrom, dif_pos hi4, eg]
      simp only [Option.bind_eq_bind, Option.bind_some, hset]
      refine (congrArg (fun x => showFrom x (ps.map some ++ some 0 :: rest) n (i + 1)) hd1).trans ?_
      rw [e, ← hd1]
    · intro j h
      rw [hdg j h, hdig j h]
      by_cases h1 : j < i
      · rw [if_pos (by omega), if_neg (by omega), if_pos h1]
      · rw [if_neg h1]
        by_cases h2 : j = i
        · subst h2
          rw [if_pos (by omega), if_pos rfl, Nat.sub_self, l0]
        · rw [if_neg (by omega), if_neg h2]
          have : j - i = (j - (i + 1)) + 1 := by omega
          rw [this, lk]

theorem displayShow_eq (d : Display) (txt : List (BitVec 8)) (rest : List (Option (BitVec 8)))
    (ht : ∀ ch ∈ txt, ch ≠ 0) (hio : ∀ j (h : j < 4), d.digit[j].sseg.iomap = some digitIomaps[j]) :
    ∃ dg, displayShow d (txt.map some ++ some 0 :: rest) = some { d with digit := dg } ∧
      ∀ j (h : j < 4), dg[j] = shownDigit d.digit[j] j h (layoutB txt)[j]? :=
  showFrom_eq 4 0 d txt rest rfl ht hio

/-- a C string in the text buffer, as bytes -/
theorem HoldsText.bytes {b : TextBuf} {txt : List Nat} (h : HoldsText b txt) :
    ∃ rest, b.map (Option.map (BitVec.ofNat 8)) =
      (txt.map (BitVec.ofNat 8)).map some ++ some 0 :: rest ∧
      ∀ ch ∈ txt.map (BitVec.ofNat 8), ch ≠ 0 := by
  obtain ⟨h1, rest, rfl⟩ := h
  refine ⟨rest.map (Option.map (BitVec.ofNat 8)), by simp, ?_⟩
  intro ch hch
  obtain ⟨x, hx, rfl⟩ := List.mem_map.mp hch
  have := h1 x hx
  intro hh
  have := congrArg BitVec.toNat hh
  simp at this
  omega

theorem layout_bytes (txt : List Nat) (h : ∀ ch ∈ txt, ch < 256) :
    layoutB (txt.map (BitVec.ofNat 8)) = (layout txt).map fun p => (BitVec.ofNat 8 p.1, p.2) := by
  induction txt using layout.induct with
  | case1 => rfl
  | case2 ch => rfl
  | case3 ch cs ih =>
    simp only [List.map_cons, layoutB, layout, if_true]
    rw [ih (fun x hx => h x (by simp [hx]))]
  | case4 ch ch' cs hne ih =>
    have : ¬ BitVec.ofNat 8 ch' = 46#8 := by
      intro hh
      have h2 := congrArg BitVec.toNat hh
      have h3 := h ch' (by simp)
      simp at h2
      omega
    simp only [List.map_cons, layoutB, layout, if_neg hne, if_neg this]
    have := ih (fun x hx => h x (by simp at hx ⊢; tauto))
    rw [List.map_cons] at this
    rw [this]

end Verif
