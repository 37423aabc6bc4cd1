import Verif.Spec.Display
import Verif.Proofs.InvText
import Verif.Proofs.Ramp
/-
Texts and segments in terms of the specification.
-/
namespace Verif
open Spec

/-- the bit of a segment in a mask, sseg.h:7-18 -/
def segIdx : Seg → Nat
  | .a => 0 | .b => 1 | .c => 2 | .d => 3 | .e => 4 | .f => 5 | .g => 6 | .dp => 7

set_option maxRecDepth 100000 in
theorem ioMask_big (m : BitVec 8) (x : Seg) : (ioMaskOf bigDigit m).getLsbD (segPin false x) = m.getLsbD (segIdx x) := by
  cases x <;> revert m <;> decide

set_option maxRecDepth 100000 in
theorem ioMask_small (m : BitVec 8) (x : Seg) : (ioMaskOf smallDigit m).getLsbD (segPin true x) = m.getLsbD (segIdx x) := by
  cases x <;> revert m <;> decide

theorem ioMask_bit (j : Nat) (h : j < 4) (m : BitVec 8) (x : Seg) :
    (ioMaskOf digitIomaps[j].segment m).getLsbD (segPin (j = 3) x) = m.getLsbD (segIdx x) := by
  have : j = 0 ∨ j = 1 ∨ j = 2 ∨ j = 3 := by omega
  rcases this with rfl | rfl | rfl | rfl
  · exact ioMask_big m x
  · exact ioMask_big m x
  · exact ioMask_big m x
  · exact ioMask_small m x

set_option maxRecDepth 100000 in
/-- every segment of every character -/
theorem charMask_bit (b : BitVec 8) (x : Seg) :
    ((charMask b).getD 0).getLsbD (segIdx x) = if x = .dp then b.getLsbD 7 else decide (x ∈ shape (b.toNat % 128)) := by
  cases x <;> revert b <;> decide

theorem lit_bit (j : Nat) (h : j < 4) (b : BitVec 8) (x : Seg) :
    (lit j h b).getLsbD (segPin (j = 3) x) = if x = .dp then b.getLsbD 7 else decide (x ∈ shape (b.toNat % 128)) := by
  unfold lit
  rw [ioMask_bit, charMask_bit]

theorem or80 (b : BitVec 8) : (b ||| 0x80).getLsbD 7 = true ∧ (b ||| 0x80).toNat % 128 = b.toNat % 128 := by
  revert b; decide

theorem and7F (b : BitVec 8) : (b &&& 0x7F).getLsbD 7 = false ∧ (b &&& 0x7F).toNat % 128 = b.toNat % 128 := by
  revert b; decide

theorem bit7 (b : BitVec 8) : b.getLsbD 7 = decide (128 ≤ b.toNat) := by
  revert b; decide

/-- every segment of every character on every digit -/
theorem lit_glyph (j : Nat) (h : j < 4) (g : DispDigit) (o : Option (Nat × Bool)) (x : Seg)
    (ho : ∀ ch dp, o = some (ch, dp) → ch < 256) :
    (lit j h (glyphByte g.dpForce g.dpOn (o.map fun p => (BitVec.ofNat 8 p.1, p.2)))).getLsbD (segPin (j = 3) x) =
      wanted (forced g) o x := by
  rw [lit_bit]
  cases o with
  | none => cases x <;> first | rfl | exact (if_pos rfl).trans (show (0x20#8).getLsbD 7 = false by decide)
  | some p =>
    obtain ⟨ch, dp⟩ := p
    have hc := ho ch dp rfl
    have hn : (BitVec.ofNat 8 ch).toNat = ch := by rw [BitVec.toNat_ofNat]; omega
    simp only [Option.map_some, wanted, glyphByte, forced]
    cases g.dpForce <;> cases g.dpOn <;> cases dp <;>
      simp only [Bool.false_eq_true, if_false, if_true, or80, and7F, hn, bit7 (BitVec.ofNat 8 ch), Option.getD_none, Option.getD_some,
        Bool.true_or, Bool.false_or]

theorem clamp_minmax {n lo hi : Int} (h : lo ≤ hi) : cClamp n lo hi = max lo (min hi n) := by
  unfold cClamp cMax cMin
  split_ifs <;> omega

theorem chars3_length (v : Int) : (chars3 v).length = 3 := by
  unfold chars3
  split_ifs <;> rfl

theorem chars2_length (n : Nat) : (chars2 n).length = 2 := by
  unfold chars2
  split_ifs <;> rfl

theorem TempText.of {v n : Int} (h : NearestAway v 64 n) (unit : List Nat) :
    TempText v unit (chars3 (cClamp n (-99) 999) ++ unit) := by
  refine ⟨n, _, h, chars3_length _, ?_, rfl⟩
  rw [readNumber_chars3 (cClamp_range (by decide)), clamp_minmax (by decide)]

/-- the text composed for a screen is the one that belongs there -/
theorem Shows.screenText {c : Conf} {s : Sys} {txt : List Nat} (hi : Inv c s) (h : Shows c s txt) : ScreenText s txt := by
  obtain ⟨hk, hkp, hki, hkd⟩ := getK_ok hi
  have fact : ∀ (v : Int) (d i f : Nat), (d = 2 ∨ d = 3) → 0 ≤ v → v ≤ 6336 → fixptGetIntPart v = some (i : Int) →
      fixptGetDecFract v d = some (f : Int) →
      (i : Int) = v / 64 ∧ 2 * (64 * (f : Int) - v % 64 * 10 ^ d).natAbs ≤ 64 := by
    intro v d i f hd h0 h1 e1 e2
    obtain ⟨i', f', e1', e2', g1, g2, g3⟩ := Props.C06_dec_fract v (by unfold S24; omega) (by omega) d (by omega)
    rw [e1] at e1'
    rw [e2] at e2'
    cases e1'
    cases e2'
    have hi : (i : Int) = v / 64 := by
      unfold fixptGetIntPart at e1
      rw [if_pos (by omega)] at e1
      exact (Option.some.inj e1).symm
    refine ⟨hi, ?_⟩
    have hna : ((i : Int).natAbs : Int) = v / 64 := by omega
    have hva : (v.natAbs : Int) = v := by omega
    rw [hna, hva] at g3
    rcases hd with rfl | rfl
    · norm_num at g3 ⊢; omega
    · norm_num at g3 ⊢; omega
  unfold ScreenText
  unfold Shows at h
  cases hst : s.menu.state <;> simp only [hst] at h ⊢
  · by_cases he : s.menu.dispErr = 0
    · rw [if_neg (by simpa using he)] at h
      rw [if_pos he]
      obtain ⟨n, hn, rfl⟩ := h
      have : tempSymbol c s = unitOf s.ct.idle s.ct.boost := by
        unfold tempSymbol unitOf
        have := hi.ct.boost
        by_cases hb : c.boost = true
        · simp only [hb, true_and]
          rfl
        · have hb : c.boost = false := by simpa using hb
          have : s.ct.boost = 0 := by
            have : c.nrBoost = 1 := by unfold Conf.nrBoost; rw [hb]; rfl
            omega
          rw [hb, this]
          rfl
      rw [this]
      exact TempText.of hn _
    · rw [if_pos he] at h
      rw [if_neg he]
      exact h
  · obtain ⟨v, n, hv, hn, rfl⟩ := h
    refine ⟨v, hv, TempText.of hn _⟩
  · obtain ⟨v, n, hv, hn, rfl⟩ := h
    refine ⟨v, hv, TempText.of hn _⟩
  · obtain ⟨n, hn, rfl⟩ := h
    exact TempText.of hn _
  · exact h
  · exact h
  · obtain ⟨n, hn, rfl⟩ := h
    exact TempText.of hn _
  · exact h
  · obtain ⟨i, f, k, e, hi, hf, e1, e2, rfl⟩ := h
    rw [hk] at e
    cases e
    obtain ⟨g1, g2⟩ := fact _ 2 i f (by decide) hkp.1 hkp.2 e1 e2
    refine ⟨_, hk, chars2 i, _, f, chars2_length i, ?_, rfl, readDigits_pad2 hf, g2, rfl⟩
    rw [readNumber_chars2 hi, g1]
  · exact h
  · obtain ⟨i, f, k, e, hi, hf, e1, e2, rfl⟩ := h
    rw [hk] at e
    cases e
    obtain ⟨g1, g2⟩ := fact _ 3 i f (by decide) hki.1 (by omega) e1 e2
    refine ⟨_, hk, [48 + i], _, f, rfl, ?_, rfl, readDigits_pad3 hf, g2, rfl⟩
    have := readNumber_chars2 (n := i) (by omega)
    unfold chars2 at this
    rw [if_pos hi] at this
    rw [← g1, ← this]
    rfl
  · exact h
  · obtain ⟨i, f, k, e, hi, hf, e1, e2, rfl⟩ := h
    rw [hk] at e
    cases e
    obtain ⟨g1, g2⟩ := fact _ 2 i f (by decide) hkd.1 hkd.2 e1 e2
    refine ⟨_, hk, chars2 i, _, f, chars2_length i, ?_, rfl, readDigits_pad2 hf, g2, rfl⟩
    rw [readNumber_chars2 hi, g1]

theorem layout_mem {txt : List Nat} {p : Nat × Bool} (h : p ∈ layout txt) : p.1 ∈ txt := by
  induction txt using layout.induct with
  | case1 => cases h
  | case2 ch => simp only [layout, List.mem_singleton] at h; rw [h]; simp
  | case3 ch cs ih =>
    simp only [layout, if_true, List.mem_cons] at h
    rcases h with rfl | h
    · simp
    · simp [ih h]
  | case4 ch ch' cs hne ih =>
    simp only [layout, if_neg hne, List.mem_cons] at h
    rcases h with rfl | h
    · simp
    · have := ih h
      simp only [List.mem_cons] at this
      simp [this]

/-- which screens show the heating indicator -/
theorem menuText_heat {c : Conf} {s : Sys} (hi : Inv c s) {heat : Bool} (e0 : (menuText c s).map Prod.snd = some heat) :
    heat = ShowsHeating s := by
  have hsc := hi.menu.screen
  obtain ⟨⟨b, h⟩, e, rfl⟩ := Option.map_eq_some_iff.mp e0
  clear e0
  unfold menuText at e
  obtain ⟨b0, -, e⟩ := Option.bind_eq_some_iff.mp e
  show h = _
  unfold ShowsHeating
  cases hst : s.menu.state <;> simp only [hst, ScreenExists] at e hsc ⊢
  · split at e
    · rename_i he
      obtain ⟨b1, -, e⟩ := Option.bind_eq_some_iff.mp e
      obtain ⟨b2, -, e⟩ := Option.bind_eq_some_iff.mp e
      cases e
      simpa using he
    · rename_i he
      obtain ⟨b1, -, e⟩ := Option.bind_eq_some_iff.mp e
      cases e
      simpa using he
  · obtain ⟨b1, -, e⟩ := Option.bind_eq_some_iff.mp e
    obtain ⟨b2, -, e⟩ := Option.bind_eq_some_iff.mp e
    cases e
    rfl
  · obtain ⟨b1, -, e⟩ := Option.bind_eq_some_iff.mp e
    obtain ⟨b2, -, e⟩ := Option.bind_eq_some_iff.mp e
    cases e
    rfl
  all_goals
    simp only [hsc, Bool.not_true, Bool.false_eq_true, if_false] at e
    obtain ⟨b1, -, e⟩ := Option.bind_eq_some_iff.mp e
    first
      | (cases e; rfl)
      | (obtain ⟨b2, -, e⟩ := Option.bind_eq_some_iff.mp e; cases e; rfl)

/-- no decimal point but the third one is forced -/
def NoForce (d : Display) : Prop := ∀ j (h : j < 4), j ≠ 2 → d.digit[j].dpForce = false

/-- the display update in terms of the specification -/
theorem menuUpdateDisplay_shows {c : Conf} {s s' : Sys} (hi : Inv c s) (hf : NoForce s.disp)
    (e : menuUpdateDisplay c s = some s') :
    ∃ txt dg, ScreenText s txt ∧ s' = { s with disp := { s.disp with digit := dg } } ∧ NoForce s'.disp ∧
      DisplayShows s'.disp txt (ShowsHeating s && s.menu.dispHeating) := by
  obtain ⟨-, txt, dg, h1, h2, rfl, ⟨heat, h3, h4, h5⟩, h6, h7⟩ := (Inv.menuUpdateDisplay hi).elim e
  have hn : NoForce { s.disp with digit := dg } := fun j hj hne => (h6 j hj hne).trans (hf j hj hne)
  refine ⟨txt, dg, h1.screenText hi, rfl, hn, ?_⟩
  intro j hj x
  show dg[j].sseg.enSet.getLsbD _ = wanted _ _ x
  rw [h7 j hj, List.getElem?_map, lit_glyph j hj dg[j] _ x]
  · congr 1
    by_cases h : j = 2
    · subst h
      rw [if_pos rfl, ← menuText_heat hi h3]
      unfold forced
      rw [if_pos h4, h5]
    · rw [if_neg h]
      unfold forced
      have := hn j hj h
      change dg[j].dpForce = false at this
      rw [this]
      rfl
  · intro ch dp hh
    exact (h2 ch (layout_mem (List.mem_of_getElem? hh))).2

end Verif
