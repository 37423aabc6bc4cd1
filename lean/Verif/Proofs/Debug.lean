import Verif.Model.Debug
import Verif.Spec.Debug
import Verif.Proofs.Safe
/-
Lemmas about the number conversions of the debug interface.
-/
namespace Verif
open Spec

theorem digitsOf_ne {b : Nat} : ∀ fuel x, 0 < fuel → digitsOf b fuel x ≠ [] := by
  intro fuel x h
  cases fuel with
  | zero => omega
  | succ n =>
    unfold digitsOf
    split <;> simp

theorem digitsOf_lt {b : Nat} (hb : 0 < b) : ∀ fuel x, ∀ d ∈ digitsOf b fuel x, d < b := by
  intro fuel
  induction fuel with
  | zero => intro x d hd; cases hd
  | succ n ih =>
    intro x d hd
    unfold digitsOf at hd
    split at hd
    · rw [List.mem_singleton.mp hd]; assumption
    · rcases List.mem_append.mp hd with h | h
      · exact ih _ d h
      · rw [List.mem_singleton.mp h]; exact Nat.mod_lt _ hb

theorem digitsOf_val {b : Nat} (hb : 1 < b) : ∀ fuel x, x < b ^ fuel →
    (digitsOf b fuel x).foldl (fun a d => b * a + d) 0 = x := by
  intro fuel
  induction fuel with
  | zero => intro x hx; simp at hx; subst hx; rfl
  | succ n ih =>
    intro x hx
    unfold digitsOf
    split
    · simp
    · rw [List.foldl_append, ih _ (Nat.div_lt_of_lt_mul (by rwa [Nat.pow_succ, Nat.mul_comm] at hx))]
      exact Nat.div_add_mod x b

theorem digitsOf_len {b : Nat} (hb : 1 < b) : ∀ fuel k x, 0 < k → x < b ^ k → (digitsOf b fuel x).length ≤ k := by
  intro fuel
  induction fuel with
  | zero => intro k x _ _; exact Nat.zero_le _
  | succ n ih =>
    intro k x hk hx
    unfold digitsOf
    split
    · exact hk
    · rename_i h
      rw [List.length_append, List.length_singleton]
      match k, hk with
      | 1, _ => rw [Nat.pow_one] at hx; omega
      | k + 2, _ =>
        have := ih (k + 1) (x / b) (by omega) (Nat.div_lt_of_lt_mul (by rwa [Nat.pow_succ, Nat.mul_comm] at hx))
        omega

theorem readDigits_digits (l : List Nat) (hl : l ≠ []) (hd : ∀ d ∈ l, d < 10) :
    readDigits (l.map digitChar) = some (l.foldl (fun a d => 10 * a + d) 0) := by
  have key : ∀ (l : List Nat) (a : Nat), (∀ d ∈ l, d < 10) → (l.map digitChar).foldl (fun acc ch =>
      match acc with
      | none => none
      | some v => if 48 ≤ ch ∧ ch ≤ 57 then some (10 * v + (ch - 48)) else none) (some a) =
      some (l.foldl (fun a d => 10 * a + d) a) := by
    intro l
    induction l with
    | nil => intro a _; rfl
    | cons d l ih =>
      intro a h
      have h0 := h d (by simp)
      have h1 : 48 ≤ digitChar d ∧ digitChar d ≤ 57 := by unfold digitChar; rw [if_pos h0]; omega
      have h2 : digitChar d - 48 = d := by unfold digitChar; rw [if_pos h0]; omega
      rw [List.map_cons, List.foldl_cons, List.foldl_cons]
      simp only [if_pos h1, h2]
      exact ih _ fun x hx => h x (by simp [hx])
  cases l with
  | nil => exact absurd rfl hl
  | cons d l => exact key (d :: l) 0 hd

theorem hexDigit_digitChar : ∀ d < 16, hexDigit (digitChar d) = some d := by decide

theorem readHex_digits (l : List Nat) (hl : l ≠ []) (hd : ∀ d ∈ l, d < 16) :
    readHex (l.map digitChar) = some (l.foldl (fun a d => 16 * a + d) 0) := by
  have key : ∀ (l : List Nat) (a : Nat), (∀ d ∈ l, d < 16) → (l.map digitChar).foldl (fun (acc : Option Nat) ch =>
      acc.bind fun v => (hexDigit ch).map fun d => 16 * v + d) (some a) =
      some (l.foldl (fun a d => 16 * a + d) a) := by
    intro l
    induction l with
    | nil => intro a _; rfl
    | cons d l ih =>
      intro a h
      rw [List.map_cons, List.foldl_cons, List.foldl_cons, Option.bind_some, hexDigit_digitChar d (h d (by simp)),
        Option.map_some]
      exact ih _ fun x hx => h x (by simp [hx])
  cases l with
  | nil => exact absurd rfl hl
  | cons d l => exact key (d :: l) 0 hd

theorem utoa16_reads (now : Nat) : readHex (utoa16 (now % 65536)) = some (now % 65536) := by
  have h : now % 65536 < 65536 := Nat.mod_lt _ (by decide)
  unfold utoa16
  rw [readHex_digits _ (digitsOf_ne _ _ (by decide)) (digitsOf_lt (by decide) _ _),
    digitsOf_val (by decide) _ _ (Nat.lt_trans h (by decide))]

theorem utoa16_len (now : Nat) : (utoa16 (now % 65536)).length ≤ 4 := by
  unfold utoa16
  rw [List.length_map]
  exact digitsOf_len (by decide) _ 4 _ (by decide) (Nat.mod_lt _ (by decide))

theorem ltoa10_reads {v : Int} (hv : S32 v) : readSigned (ltoa10 v) = some v := by
  have hn : v.natAbs < 10 ^ 20 := by
    have : v.natAbs ≤ 2147483648 := by unfold S32 at hv; omega
    exact Nat.lt_of_le_of_lt this (by decide)
  have hr : readDigits ((digitsOf 10 20 v.natAbs).map digitChar) = some v.natAbs := by
    rw [readDigits_digits _ (digitsOf_ne _ _ (by decide)) (digitsOf_lt (by decide) _ _), digitsOf_val (by decide) _ _ hn]
  unfold ltoa10
  by_cases h : v < 0
  · rw [if_pos h]
    unfold readSigned
    simp only [List.cons_append, List.nil_append, if_true, hr, Option.map_some]
    exact congrArg some (by omega : -(v.natAbs : Int) = v)
  · rw [if_neg h, List.nil_append]
    match hm : (digitsOf 10 20 v.natAbs).map digitChar with
    | [] => rw [List.map_eq_nil_iff] at hm; exact absurd hm (digitsOf_ne _ _ (by decide))
    | ch :: cs =>
      rw [hm] at hr
      have hc : ch ≠ 45 := by
        obtain ⟨d, -, hd⟩ := List.mem_map.mp (show ch ∈ (digitsOf 10 20 v.natAbs).map digitChar by rw [hm]; simp)
        rw [← hd]
        unfold digitChar
        split <;> omega
      unfold readSigned
      simp only [if_neg hc, hr, Option.map_some]
      congr 1
      show (v.natAbs : Int) = v
      omega

theorem ltoa10_len {v : Int} (hv : S32 v) : (ltoa10 v).length ≤ 11 := by
  have hn : v.natAbs < 10 ^ 10 := by
    have : v.natAbs ≤ 2147483648 := by unfold S32 at hv; omega
    exact Nat.lt_of_le_of_lt this (by decide)
  have := digitsOf_len (b := 10) (by decide) 20 10 _ (by decide) hn
  unfold ltoa10
  rw [List.length_append, List.length_map]
  split <;> simp only [List.length_singleton, List.length_nil] <;> omega

end Verif
