import Verif.Proofs.Shown
/-
Composing texts for arbitrary values, and the size of the buffer.
-/
namespace Verif
open Spec

/-- the buffer keeps its size -/
def SameLen (n : Nat) (o : Option TextBuf) : Prop := Post o fun b => b.length = n

variable {n : Nat} {b : TextBuf}

theorem SameLen.bufPut (h : b.length = n) (i ch : Nat) : SameLen n (bufPut b i ch) := by
  unfold Verif.bufPut
  split
  · exact Post.pure (by rw [List.length_set]; exact h)
  · exact Post.none

theorem SameLen.fillLeft (k : Nat) : ∀ {b : TextBuf}, b.length = n → ∀ off f, SameLen n (fillLeft b off f k) := by
  induction k with
  | zero => intro b h off f; exact Post.pure h
  | succ k ih =>
    intro b h off f
    exact Post.bind (SameLen.bufPut h _ _) fun b1 h1 => ih h1 off f

theorem SameLen.digitLoop (k : Nat) : ∀ {b : TextBuf}, b.length = n → ∀ off v,
    Post (digitLoop b off k v) fun x => x.1.length = n := by
  induction k with
  | zero => intro b h off v; exact Post.none
  | succ k ih =>
    intro b h off v
    unfold Verif.digitLoop
    refine Post.bind (SameLen.bufPut h _ _) fun b1 h1 => ?_
    split
    · exact Post.pure h1
    · split
      · exact Post.pure h1
      · exact ih h1 off _

theorem SameLen.intToAscii (h : b.length = n) (off align : Nat) (v lo hi : Int) (f : Nat) :
    SameLen n (intToAscii b off align v lo hi f) := by
  unfold Verif.intToAscii
  have tail : ∀ w : Int, SameLen n (do
      let b ← Verif.bufPut b (off + align + 1) 0
      let x ← Verif.digitLoop b off (align + 1) w
      if cClamp v lo hi < 0 ∧ x.2 > 0 then do
        let b ← Verif.bufPut x.1 (off + x.2 - 1) 45
        Verif.fillLeft b off f (x.2 - 1)
      else Verif.fillLeft x.1 off f x.2) := by
    intro w
    refine Post.bind (SameLen.bufPut h _ _) fun b1 h1 => Post.bind (SameLen.digitLoop _ h1 _ _) fun x hx => ?_
    split
    · exact Post.bind (SameLen.bufPut hx _ _) fun b3 h3 => SameLen.fillLeft _ h3 _ _
    · exact SameLen.fillLeft _ hx _ _
  simp only []
  split
  · exact Post.bindAny fun w => tail w
  · exact Post.bindAny fun w => tail w

theorem SameLen.putStr (l : List Nat) : ∀ {b : TextBuf}, b.length = n → ∀ off, SameLen n (putStr b off l) := by
  induction l with
  | nil => intro b h off; exact SameLen.bufPut h _ _
  | cons x l ih =>
    intro b h off
    exact Post.bind (SameLen.bufPut h _ _) fun b1 h1 => ih h1 _

theorem SameLen.menuPutTemp (h : b.length = n) (v : Int) (sym : List Nat) : SameLen n (menuPutTemp b v sym) := by
  unfold Verif.menuPutTemp
  exact Post.bindAny fun i => Post.bind (SameLen.intToAscii h _ _ _ _ _ _) fun b1 h1 => SameLen.putStr _ h1 _

theorem SameLen.menuPutFixpt (h : b.length = n) (v : Int) (d : Nat) : SameLen n (menuPutFixpt b v d) := by
  unfold Verif.menuPutFixpt
  simp only []
  refine Post.bindAny fun i => Post.bindAny fun f => Post.bind (SameLen.intToAscii h _ _ _ _ _ _) fun b1 h1 =>
    Post.bind (SameLen.bufPut h1 _ _) fun b2 h2 => SameLen.intToAscii h2 _ _ _ _ _ _

theorem menuText_length {c : Conf} {s : Sys} : Post (menuText c s) fun x => x.1.length = 6 := by
  unfold menuText
  refine Post.bind (SameLen.bufPut (n := 6) rfl _ _) fun b h => ?_
  simp only []
  have one : ∀ {o : Option TextBuf} (heat : Bool), SameLen 6 o →
      Post (o.bind fun b => pure (b, heat)) fun x : TextBuf × Bool => x.1.length = 6 :=
    fun heat h1 => Post.bind h1 fun b1 h2 => Post.pure h2
  split
  · split
    · exact Post.bind (SameLen.putStr _ h _) fun b1 h1 => one _ (SameLen.bufPut h1 _ _)
    · exact one _ (SameLen.menuPutTemp h _ _)
  · exact Post.bindAny fun v => one _ (SameLen.menuPutTemp h _ _)
  · exact Post.bindAny fun v => one _ (SameLen.menuPutTemp h _ _)
  all_goals
    split
    · exact Post.pure h
    · first
        | exact one _ (SameLen.putStr _ h _)
        | exact one _ (SameLen.menuPutTemp h _ _)
        | exact Post.bindAny fun k => one _ (SameLen.menuPutFixpt h _ _)

/-- any buffer of 6 cells -/
theorem six {b : TextBuf} (h : b.length = 6) : ∃ b0 b1 b2 b3 b4 b5, b = [b0, b1, b2, b3, b4, b5] :=
  match b, h with
  | [b0, b1, b2, b3, b4, b5], _ => ⟨b0, b1, b2, b3, b4, b5, rfl⟩

/-- `menu_put_temp` for any value -/
theorem menuPutTemp_any (b0 b1 b2 b3 b4 b5 : Option Nat) {p n m : Int} (hn : fixptToInt p = some n)
    (h16 : toS16 n = m) (sym : List Nat) (hs : sym.length = 1 ∨ sym.length = 2) :
    ∃ rest, menuPutTemp [b0, b1, b2, b3, b4, b5] p sym =
      some ((chars3 (cClamp m (-99) 999) ++ sym).map some ++ some 0 :: rest) := by
  obtain ⟨x, y, z, e1, e2⟩ := intToAscii3 b0 b1 b2 b3 b4 b5 (v := m) (lo := -99) (hi := 999) rfl
    (cClamp_range (by decide))
  unfold menuPutTemp
  simp only [hn, h16, e2, e1, Option.bind_eq_bind, Option.bind_some]
  rcases hs with h | h
  · match sym, h with
    | [a], _ => exact ⟨[b5], by simp [putStr, bufPut]⟩
  · match sym, h with
    | [a, b], _ => exact ⟨[], by simp [putStr, bufPut]⟩

theorem holds_temp {m : Int} {sym : List Nat} (hb : ∀ ch ∈ sym, 0 < ch ∧ ch < 256) (rest : List (Option Nat)) :
    HoldsText ((chars3 (cClamp m (-99) 999) ++ sym).map some ++ some 0 :: rest) (chars3 (cClamp m (-99) 999) ++ sym) := by
  refine ⟨?_, rest, rfl⟩
  intro ch hch
  rcases List.mem_append.mp hch with h | h
  · exact chars3_byte (cClamp_range (by decide)) ch h
  · exact hb ch h

set_option maxRecDepth 100000 in
/-- the decimals of every value -/
theorem decFract_any {p : Int} (hp : S24 p) {d : Nat} (hd : d = 2 ∨ d = 3) :
    ∃ i f, fixptGetIntPart p = some i ∧ fixptGetDecFract p d = some f ∧ 0 ≤ f ∧ f < 10 ^ d := by
  by_cases hm : p = -8388608
  · subst hm
    rcases hd with rfl | rfl
    · exact ⟨-131072, 98, by decide, by decide, by decide, by decide⟩
    · exact ⟨-131072, 984, by decide, by decide, by decide, by decide⟩
  · obtain ⟨i, f, e1, e2, h1, h2, -⟩ := Props.C06_dec_fract p hp hm d (by omega)
    exact ⟨i, f, e1, e2, h1, h2⟩

/-- `menu_put_fixpt` for any value -/
theorem menuPutFixpt_any (b0 b1 b2 b3 b4 b5 : Option Nat) {p : Int} (hp : S24 p) {d : Nat} (hd : d = 2 ∨ d = 3) :
    ∃ txt : List Nat, menuPutFixpt [b0, b1, b2, b3, b4, b5] p d = some (txt.map some ++ [some 0]) ∧
      (∀ ch ∈ txt, 0 < ch ∧ ch < 256) ∧ txt.length = 5 := by
  obtain ⟨i, f, e1, e2, h1, h2⟩ := decFract_any hp hd
  obtain ⟨f', rfl⟩ : ∃ f' : Nat, f = f' := ⟨f.toNat, by omega⟩
  have h32 : ¬ (3 = 2) := by decide
  rcases hd with rfl | rfl
  · have hf' : f' < 100 := by norm_num at h2; omega
    have hr : 0 ≤ cClamp i 0 99 ∧ cClamp i 0 99 ≤ 99 := cClamp_range (by decide)
    obtain ⟨j, hj⟩ : ∃ j : Nat, cClamp i 0 99 = j := ⟨(cClamp i 0 99).toNat, by omega⟩
    have hj' : j < 100 := by omega
    have h16 : toS16 (cClamp i 0 99) = j := by rw [hj]; unfold toS16; omega
    have h16' : toS16 (f' : Int) = f' := by unfold toS16; omega
    obtain ⟨x, y, c1, c2⟩ := intToAscii2 b0 b1 b2 b3 b4 b5 hj'
    refine ⟨[x, y, 46, 48 + f' / 10, 48 + f' % 10], ?_, ?_, rfl⟩
    · unfold menuPutFixpt
      simp only [if_true, e1, e2, Option.bind_eq_bind, Option.bind_some, h16, h16', c2]
      simp only [bufPut, List.length_cons, List.length_nil, Option.bind_some, List.set_cons_succ,
        List.set_cons_zero]
      rw [if_pos (by decide)]
      simp only [Option.bind_some, intToAsciiFract2 _ _ _ _ _ _ hf']
      rfl
    · intro ch hch
      have hb := chars2_byte hj'
      rw [c1] at hb
      simp only [List.mem_cons, List.not_mem_nil, or_false] at hch hb
      rcases hch with h | h | h | h | h
      · exact hb ch (Or.inl h)
      · exact hb ch (Or.inr h)
      all_goals omega
  · have hf' : f' < 1000 := by norm_num at h2; omega
    have hr : 0 ≤ cClamp i 0 9 ∧ cClamp i 0 9 ≤ 9 := cClamp_range (by decide)
    obtain ⟨j, hj⟩ : ∃ j : Nat, cClamp i 0 9 = j := ⟨(cClamp i 0 9).toNat, by omega⟩
    have hj' : j < 10 := by omega
    have h16 : toS16 (cClamp i 0 9) = j := by rw [hj]; unfold toS16; omega
    have h16' : toS16 (f' : Int) = f' := by unfold toS16; omega
    refine ⟨[48 + j, 46, 48 + f' / 100, 48 + f' / 10 % 10, 48 + f' % 10], ?_, ?_, rfl⟩
    · unfold menuPutFixpt
      simp only [if_neg h32, e1, e2, Option.bind_eq_bind, Option.bind_some, h16, h16',
        intToAscii1 b0 b1 b2 b3 b4 b5 hj']
      simp only [bufPut, List.length_cons, List.length_nil, Option.bind_some, List.set_cons_succ,
        List.set_cons_zero]
      rw [if_pos (by decide)]
      simp only [Option.bind_some, intToAsciiFract3 _ _ _ _ _ _ hf']
      rfl
    · intro ch hch
      simp only [List.mem_cons, List.not_mem_nil, or_false] at hch
      omega

/-- `menu_put_fixpt` shows every factor that fits -/
theorem menuPutFixpt_factor (b0 b1 b2 b3 b4 b5 : Option Nat) {p : Int} {d : Nat} (hd : d = 2 ∨ d = 3)
    (hp : 0 ≤ p ∧ p < 64 * 10 ^ (4 - d)) :
    ∃ txt : List Nat, menuPutFixpt [b0, b1, b2, b3, b4, b5] p d = some (txt.map some ++ [some 0]) ∧ FactorText p d txt := by
  have hbig : p < 64 * 100 := by
    rcases hd with rfl | rfl
    · norm_num at hp; omega
    · norm_num at hp; omega
  obtain ⟨i, f, e1, e2, h1, h2, h3⟩ := Props.C06_dec_fract p (by unfold S24; omega) (by omega) d (by omega)
  have hi : i = p / 64 := by
    unfold fixptGetIntPart at e1
    rw [if_pos (by omega)] at e1
    exact (Option.some.inj e1).symm
  obtain ⟨f', rfl⟩ : ∃ f' : Nat, f = f' := ⟨f.toNat, by omega⟩
  obtain ⟨i', rfl⟩ : ∃ i' : Nat, i = i' := ⟨i.toNat, by omega⟩
  have hna : ((i' : Int).natAbs : Int) = p / 64 := by omega
  have hva : (p.natAbs : Int) = p := by omega
  rw [hna, hva] at h3
  have h32 : ¬ (3 = 2) := by decide
  rcases hd with rfl | rfl
  · have hf' : f' < 100 := by norm_num at h2; omega
    have hi' : i' < 100 := by omega
    have h16 : toS16 (cClamp (i' : Int) 0 99) = i' := by rw [cClamp_in (by omega)]; unfold toS16; omega
    have h16' : toS16 (f' : Int) = f' := by unfold toS16; omega
    obtain ⟨x, y, c1, c2⟩ := intToAscii2 b0 b1 b2 b3 b4 b5 hi'
    refine ⟨[x, y] ++ 46 :: [48 + f' / 10, 48 + f' % 10], ?_, [x, y], _, f', rfl, ?_, rfl, readDigits_pad2 hf', ?_, rfl⟩
    · unfold menuPutFixpt
      simp only [if_true, e1, e2, Option.bind_eq_bind, Option.bind_some, h16, h16', c2]
      simp only [bufPut, List.length_cons, List.length_nil, Option.bind_some, List.set_cons_succ,
        List.set_cons_zero]
      rw [if_pos (by decide)]
      simp only [Option.bind_some, intToAsciiFract2 _ _ _ _ _ _ hf']
      rfl
    · rw [← c1, readNumber_chars2 hi', hi]
    · norm_num at h3 ⊢; omega
  · have hf' : f' < 1000 := by norm_num at h2; omega
    have hi' : i' < 10 := by norm_num at hp; omega
    have h16 : toS16 (cClamp (i' : Int) 0 9) = i' := by rw [cClamp_in (by omega)]; unfold toS16; omega
    have h16' : toS16 (f' : Int) = f' := by unfold toS16; omega
    refine ⟨[48 + i'] ++ 46 :: [48 + f' / 100, 48 + f' / 10 % 10, 48 + f' % 10], ?_, [48 + i'], _, f', rfl, ?_, rfl,
      readDigits_pad3 hf', ?_, rfl⟩
    · unfold menuPutFixpt
      simp only [if_neg h32, e1, e2, Option.bind_eq_bind, Option.bind_some, h16, h16',
        intToAscii1 b0 b1 b2 b3 b4 b5 hi']
      simp only [bufPut, List.length_cons, List.length_nil, Option.bind_some, List.set_cons_succ,
        List.set_cons_zero]
      rw [if_pos (by decide)]
      simp only [Option.bind_some, intToAsciiFract3 _ _ _ _ _ _ hf']
      rfl
    · have := readNumber_chars2 (n := i') (by omega)
      unfold chars2 at this
      rw [if_pos hi'] at this
      rw [← hi, ← this]
      rfl
    · norm_num at h3 ⊢; omega

end Verif
