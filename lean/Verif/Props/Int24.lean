import Verif.Model.Int24
import Verif.Spec.Int24
import Verif.Proofs.Arith
import Mathlib.Tactic.Positivity
/-
Property C90: the 24-bit types of the host.
-/
namespace Verif.Props
open Verif.Spec

/-- the operator of the class for an operator -/
def opOf : Arith → Op24
  | .add => .add
  | .sub => .sub
  | .mul => .mul
  | .div => .div

/-- the comparison of the class for a comparison -/
def cmpOf : Rel → Cmp24
  | .lt => .lt
  | .eq => .eq
  | .ne => .ne
  | .gt => .gt

private theorem i24Of_wraps (x : Int) : WrapsS 8388608 x (i24Of x) := by
  unfold WrapsS i24Of toS32 toU32
  simp only
  split <;> omega

private theorem u24Of_wraps (x : Int) : Wraps 16777216 x (u24Of x) := by
  unfold Wraps u24Of toU32
  omega

private theorem i24Of_toS24 (x : Int) : i24Of x = toS24 x := by
  have h := i24Of_wraps x
  unfold WrapsS at h
  unfold toS24
  omega

private theorem i24Of_id {x : Int} (h : S24 x) : i24Of x = x := by
  rw [i24Of_toS24]; unfold toS24; unfold S24 at h; omega

private theorem u24Of_toU24 (x : Int) : u24Of x = toU24 x := by
  unfold u24Of toU24 toU32; omega

private theorem ck32_in {x : Int} (h : S32 x) : ck32 x = some x := by
  unfold ck32 ckRange; unfold S32 at h; rw [if_pos h]

/-- Conversion: any integer becomes the value of the type which is equal to it modulo 2^24. -/
theorem C90_convert (x : Int) : WrapsS 8388608 x (i24Of x) ∧ Wraps 16777216 x (u24Of x) :=
  ⟨i24Of_wraps x, u24Of_wraps x⟩

example : i24Of 12345678 = -4431538 ∧ u24Of (-1) = 16777215 := by decide

/-- Signed arithmetic: where the target has a result, the host has the same one. -/
theorem C90_signed (op : Arith) (a o r : Int) (ho : S24 o) (h : Result 8388608 op a o r) :
    i24Op (opOf op) a o = some r ∧ i24OpAuto (opOf op) a o = some r := by
  have key : i24Op (opOf op) a o = some r := by
    obtain ⟨h0, rfl, h1, h2⟩ := h
    have hr : S24 (exact op a o) := ⟨h1, by omega⟩
    have hr' : S32 (exact op a o) := by unfold S32; omega
    cases op
    · exact (congrArg (Option.map i24Of) (ck32_in hr')).trans (congrArg some (i24Of_id hr))
    · exact (congrArg (Option.map i24Of) (ck32_in hr')).trans (congrArg some (i24Of_id hr))
    · exact (congrArg (Option.map i24Of) (ck32_in hr')).trans (congrArg some (i24Of_id hr))
    · show Option.map i24Of (if o = 0 then none else ck32 (a.tdiv o)) = _
      rw [if_neg (h0 rfl)]
      exact (congrArg (Option.map i24Of) (ck32_in hr')).trans (congrArg some (i24Of_id hr))
  refine ⟨key, ?_⟩
  unfold i24OpAuto
  rw [i24Of_id ho]
  exact key

example : Result 8388608 .div (-8388608) 7 (-1198372) ∧ S24 (-8388608) := by
  constructor
  · exact ⟨fun _ => by decide, by decide, by decide, by decide⟩
  · decide

/-- Unsigned arithmetic: the host computes modulo 2^24 as the target does; an operand of a signed type is converted
    first. -/
theorem C90_unsigned (op : Arith) (a o b : Int) (ha : 0 ≤ a ∧ a < 16777216) (hb : Wraps 16777216 o b)
    (h0 : op = .div → b ≠ 0) :
    ∃ r, u24OpAuto (opOf op) a o = some r ∧ Wraps 16777216 (exact op a b) r := by
  have e : u24Of o = b := by
    have := u24Of_wraps o
    unfold Wraps at this hb
    omega
  unfold u24OpAuto
  rw [e]
  cases op
  · refine ⟨_, rfl, ?_⟩
    show Wraps _ (a + b) _
    unfold Wraps u24Of toU32
    omega
  · refine ⟨_, rfl, ?_⟩
    show Wraps _ (a - b) _
    unfold Wraps u24Of toU32
    omega
  · refine ⟨_, rfl, ?_⟩
    show Wraps _ (a * b) _
    generalize a * b = c
    unfold Wraps u24Of toU32
    omega
  · refine ⟨u24Of (a / b), ?_, ?_⟩
    · show Option.map u24Of (if b = 0 then none else some (a / b)) = _
      rw [if_neg (h0 rfl)]; rfl
    · show Wraps _ (a.tdiv b) _
      rw [Int.tdiv_eq_ediv_of_nonneg ha.1]
      exact u24Of_wraps _

example : ∃ r, u24OpAuto .mul 16777215 (-1) = some r ∧ r = 1 := ⟨_, rfl, by decide⟩

/-- Comparisons: with an operand of at most 24 bits the host decides as the target does. -/
theorem C90_compare (op : Rel) (a o : Int) :
    (S24 o → (i24CmpAuto (cmpOf op) a o = true ↔ holds op a o)) ∧
    (∀ b, Wraps 16777216 o b → (u24CmpAuto (cmpOf op) a o = true ↔ holds op a b)) := by
  constructor
  · intro ho
    unfold i24CmpAuto
    rw [i24Of_id ho]
    cases op <;> simp [cmpOf, hostCmp, holds]
  · intro b hb
    have e : u24Of o = b := by
      have := u24Of_wraps o
      unfold Wraps at this hb
      omega
    unfold u24CmpAuto
    rw [e]
    cases op <;> simp [cmpOf, hostCmp, holds]

example : i24CmpAuto .lt (-1) 0 = true ∧ u24CmpAuto .lt 16777215 0 = false := by decide

/-- the operation on single bits -/
def bitOf : Op24 → Option (Bool → Bool → Bool)
  | .and => some and
  | .or => some or
  | .xor => some xor
  | _ => none

private theorem toU24_toS32 (n : Nat) : (toU24 (toS32 (n : Int))).toNat = n % 2 ^ 24 := by
  unfold toU24 toS32; omega

private theorem bit_low {m n : Nat} (h : n = m % 2 ^ 24) (i : Nat) (hi : i < 24) :
    n.testBit i = m.testBit i := by
  rw [h, Nat.testBit_mod_two_pow, decide_eq_true hi, Bool.true_and]

private theorem bits_i (f : Bool → Bool → Bool) (g : Nat → Nat → Nat)
    (hg : ∀ x y i, (g x y).testBit i = f (x.testBit i) (y.testBit i)) (a o : Int) (i : Nat) (hi : i < 24) :
    (toU24 (i24Of (toS32 (g (toU32 a).toNat (toU32 (i24Of o)).toNat : Nat)))).toNat.testBit i =
      f ((toU24 a).toNat.testBit i) ((toU24 o).toNat.testBit i) := by
  rw [bit_low (m := g (toU32 a).toNat (toU32 (i24Of o)).toNat) ?_ i hi, hg,
    bit_low (n := (toU24 a).toNat) (m := (toU32 a).toNat) ?_ i hi,
    bit_low (n := (toU24 o).toNat) (m := (toU32 (i24Of o)).toNat) ?_ i hi]
  · rw [i24Of_toS24]; unfold toU24 toU32 toS24; omega
  · unfold toU24 toU32; omega
  · rw [i24Of_toS24]; unfold toU24 toS24 toS32; omega

private theorem bits_u (f : Bool → Bool → Bool) (g : Nat → Nat → Nat)
    (hg : ∀ x y i, (g x y).testBit i = f (x.testBit i) (y.testBit i)) (a o : Int) (i : Nat) (hi : i < 24) :
    (u24Of (g a.toNat (u24Of o).toNat : Nat)).toNat.testBit i = f (a.toNat.testBit i) ((toU24 o).toNat.testBit i) := by
  rw [bit_low (m := g a.toNat (u24Of o).toNat) ?_ i hi, hg, u24Of_toU24 o]
  rw [u24Of_toU24]; unfold toU24; omega

/-- The bitwise operators act on each of the 24 bits. -/
theorem C90_bits (op : Op24) (f : Bool → Bool → Bool) (a o : Int) (hf : bitOf op = some f) :
    (∃ r, i24OpAuto op a o = some r ∧ S24 r ∧
      ∀ i < 24, (toU24 r).toNat.testBit i = f ((toU24 a).toNat.testBit i) ((toU24 o).toNat.testBit i)) ∧
    (0 ≤ a → a < 16777216 → ∃ r, u24OpAuto op a o = some r ∧ 0 ≤ r ∧ r < 16777216 ∧
      ∀ i < 24, r.toNat.testBit i = f (a.toNat.testBit i) ((toU24 o).toNat.testBit i)) := by
  have hs : ∀ x, S24 (i24Of x) := fun x => by
    have := i24Of_wraps x
    unfold WrapsS at this
    unfold S24
    omega
  have hu : ∀ x, 0 ≤ u24Of x ∧ u24Of x < 16777216 := fun x => ⟨(u24Of_wraps x).1, (u24Of_wraps x).2.1⟩
  cases op <;> simp only [bitOf, Option.some.injEq, reduceCtorEq] at hf <;> subst hf
  · exact ⟨⟨_, rfl, hs _, bits_i _ _ Nat.testBit_and a o⟩,
      fun _ _ => ⟨_, rfl, (hu _).1, (hu _).2, bits_u _ _ Nat.testBit_and a o⟩⟩
  · exact ⟨⟨_, rfl, hs _, bits_i _ _ Nat.testBit_or a o⟩,
      fun _ _ => ⟨_, rfl, (hu _).1, (hu _).2, bits_u _ _ Nat.testBit_or a o⟩⟩
  · exact ⟨⟨_, rfl, hs _, bits_i _ _ Nat.testBit_xor a o⟩,
      fun _ _ => ⟨_, rfl, (hu _).1, (hu _).2, bits_u _ _ Nat.testBit_xor a o⟩⟩

example : i24OpAuto .and (-77) 63 = some 51 ∧ u24OpAuto .xor 5 (-1) = some 16777210 := by decide

/-- Overflow: where a sum or a difference has no result on the target, the host goes on with the value modulo 2^24. -/
theorem C90_overflow (a o : Int) (ha : S24 a) (ho : S24 o) :
    ∃ r d, i24Op .add a o = some r ∧ WrapsS 8388608 (a + o) r ∧ i24Op .sub a o = some d ∧ WrapsS 8388608 (a - o) d := by
  unfold S24 at ha ho
  have h1 : ck32 (a + o) = some (a + o) := ck32_in ⟨by omega, by omega⟩
  have h2 : ck32 (a - o) = some (a - o) := ck32_in ⟨by omega, by omega⟩
  exact ⟨i24Of (a + o), i24Of (a - o), congrArg (Option.map i24Of) h1, i24Of_wraps _,
    congrArg (Option.map i24Of) h2, i24Of_wraps _⟩

example : i24Op .add 8388607 1 = some (-8388608) ∧ ¬ ∃ r, Result 8388608 .add 8388607 1 r := by
  refine ⟨by decide, ?_⟩
  rintro ⟨r, -, h, -, h2⟩
  simp only [exact] at h
  omega

/-- An operand of 32 bits on the right is cut to 24 bits first; the target computes and compares with all its bits. -/
theorem C90_wide (op : Op24) (rel : Cmp24) (a o : Int) :
    ∃ b, WrapsS 8388608 o b ∧ i24OpAuto op a o = i24Op op a b ∧ i24CmpAuto rel a o = hostCmp rel a b :=
  ⟨_, i24Of_wraps o, rfl, rfl⟩

/-- So the host does not compute what the target does with such an operand. -/
theorem C90_wide_false :
    (holds .lt 0 8388608 ∧ i24CmpAuto .lt 0 8388608 = false) ∧
    (Result 2147483648 .add 1 16777216 16777217 ∧ i24OpAuto .add 1 16777216 = some 1) ∧
    (Result 2147483648 .div 1 16777216 0 ∧ i24OpAuto .div 1 16777216 = none) := by
  refine ⟨⟨(by decide : (0 : Int) < 8388608), by decide⟩, ⟨⟨fun _ => by decide, by decide, by decide, by decide⟩, by decide⟩,
    ⟨⟨fun _ => by decide, by decide, by decide, by decide⟩, by decide⟩⟩

private theorem hostNeg_eq {a : Int} (ha : S24 a) : hostNeg a = fixptNeg a := by
  unfold hostNeg fixptNeg
  rw [show HOST_FIXPT_MAX = FIXPT_MAX from by decide, show HOST_FIXPT_MIN = FIXPT_MIN from by decide]
  split
  · rfl
  · rename_i h
    have e : FIXPT_MIN = -8388607 := by decide
    rw [e] at h
    unfold S24 at ha
    have h1 : ck32 (-a) = some (-a) := ck32_in ⟨by omega, by omega⟩
    have h2 : ck24 (-a) = some (-a) := by unfold ck24 ckRange; rw [if_pos ⟨by omega, by omega⟩]
    rw [h1, h2]
    exact congrArg some (i24Of_id ⟨by omega, by omega⟩)

private theorem hostAbs_eq {a : Int} (ha : S24 a) : hostAbs a = fixptAbs a := by
  unfold hostAbs fixptAbs hostCmp
  rw [show i24Of 0 = 0 from by decide, hostNeg_eq ha]
  simp only [decide_eq_true_eq]

private theorem and63 {x : Int} : i24OpAuto .and x 63 = some (x % 64) := by
  have h1 : i24OpAuto .and x 63 = some (i24Of (toS32 ((toU32 x).toNat &&& (toU32 (i24Of 63)).toNat : Nat))) := rfl
  have h2 : (((toU32 x).toNat % 2 ^ 6 : Nat) : Int) = x % 64 := by unfold toU32; omega
  rw [h1, show (toU32 (i24Of 63)).toNat = 2 ^ 6 - 1 from by decide, Nat.and_two_pow_sub_one_eq_mod, h2,
    show toS32 (x % 64) = x % 64 from by unfold toS32; omega, i24Of_id ⟨by omega, by omega⟩]

private theorem hostDec_eq {a : Int} (ha : S24 a) (n : Nat) : hostDecFract a n = fixptGetDecFract a n := by
  have h : ∀ x : Int, toU32 (x % 64) = x % 64 := fun x => by unfold toU32; omega
  unfold hostDecFract fixptGetDecFract
  simp only [hostAbs_eq ha, and63, h, Option.bind_eq_bind, Option.bind_some]

/-- The functions of fixpt.c which act on the 24-bit types: the host gives what the target gives. -/
theorem C90_functions (a lo hi : Int) (n : Nat) :
    hostDeflate a = fixptDeflate a ∧ hostClamp a lo hi = fixptClamp a lo hi ∧
    (S24 a → hostNeg a = fixptNeg a ∧ hostAbs a = fixptAbs a ∧ hostDecFract a n = fixptGetDecFract a n) := by
  refine ⟨?_, ?_, fun ha => ⟨hostNeg_eq ha, hostAbs_eq ha, hostDec_eq ha n⟩⟩
  · unfold hostDeflate fixptDeflate
    rw [show HOST_FIXPT_MAX = FIXPT_MAX from by decide, show HOST_FIXPT_MIN = FIXPT_MIN from by decide, i24Of_toS24]
  · unfold hostClamp fixptClamp hostCmp
    simp only [decide_eq_true_eq]

example : hostDecFract (-8388600) 3 = some 875 ∧ hostAbs (-8388608) = some 8388607 := by decide +kernel

/-- The same for the filter of 16-bit values. -/
theorem C90_filter (buf inp : Int) (shift : Nat) (hb : 0 ≤ buf ∧ buf < 16777216) :
    hostLpU16Run buf inp shift = some (lpU16Run buf inp shift) := by
  have hle : ∀ x : Int, 0 ≤ x → 0 ≤ x / 2 ^ shift ∧ x / 2 ^ shift ≤ x := fun x hx =>
    ⟨Int.ediv_nonneg hx (by positivity), Int.ediv_le_self _ hx⟩
  have e1 : u24OpAuto .sub buf (buf / 2 ^ shift) = some (toU24 (buf - buf / 2 ^ shift)) := by
    have := hle buf hb.1
    show some (u24Of (toU32 (buf - u24Of (buf / 2 ^ shift)))) = _
    congr 1
    generalize buf / 2 ^ shift = q at *
    unfold u24Of toU32 toU24
    omega
  have e2 : ∀ b, u24OpAuto .add b inp = some (toU24 (b + inp)) := fun b => by
    show some (u24Of (toU32 (b + u24Of inp))) = _
    congr 1
    unfold u24Of toU32 toU24
    omega
  unfold hostLpU16Run lpU16Run
  simp only [Option.bind_eq_bind, Option.bind_some, e1, e2, Option.pure_def]
  have h3 : ∀ x, 0 ≤ toU24 x ∧ toU24 x < 16777216 := fun x => by unfold toU24; omega
  have h4 := h3 (toU24 (buf - buf / 2 ^ shift) + inp)
  generalize toU24 (toU24 (buf - buf / 2 ^ shift) + inp) = b at *
  have h5 := hle b h4.1
  have e3 : u24Of (b / 2 ^ shift) = b / 2 ^ shift := by
    generalize b / 2 ^ shift = q at *
    unfold u24Of toU32
    omega
  rw [e3, show u24Of 65535 = 65535 from by decide]
  unfold cMin hostCmp
  simp only [decide_eq_true_eq]

example : hostLpU16Run 16777000 65535 4 = some (15793973, 65535) := by decide

end Verif.Props
