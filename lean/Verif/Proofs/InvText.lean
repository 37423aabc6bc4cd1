import Verif.Proofs.InvMenu
import Verif.Proofs.InvDisp
import Verif.Proofs.Text
/-
The menu's text in a state that satisfies the invariant, and the display update.
-/
namespace Verif
open Spec

/-- the text `txt` belongs on the display in state `s` -/
def Shows (c : Conf) (s : Sys) (txt : List Nat) : Prop :=
  match s.menu.state with
  | .curtemp =>
    if s.menu.dispErr ≠ 0 then txt = str "Err" ++ [48 + s.menu.dispErr]
    else ∃ n, NearestAway s.ct.feedback 64 n ∧ txt = chars3 (cClamp n (-99) 999) ++ tempSymbol c s
  | .selpreset | .chgpreset => ∃ v n, s.set.cache.presetsGet = some v ∧ NearestAway v 64 n ∧
      txt = chars3 (cClamp n (-99) 999) ++ [49 + s.set.cache.active, 46]
  | .idletemp => ∃ n, NearestAway s.set.cache.idleSp 64 n ∧ txt = chars3 (cClamp n (-99) 999) ++ str "L"
  | .debug => txt = str "DBG"
  | .adjPre => txt = str "ADJC."
  | .adj => ∃ n, NearestAway s.set.cache.adj 64 n ∧ txt = chars3 (cClamp n (-99) 999) ++ str "C."
  | .kpPre => txt = str " P"
  | .kiPre => txt = str " I"
  | .kdPre => txt = str " D"
  | .kp => ∃ (i f : Nat) (k : PidK), s.set.cache.k[s.ct.boost]? = some k ∧ i < 100 ∧ f < 100 ∧
      fixptGetIntPart k.kp = some (i : Int) ∧
      fixptGetDecFract k.kp 2 = some (f : Int) ∧ txt = chars2 i ++ 46 :: [48 + f / 10, 48 + f % 10]
  | .ki => ∃ (i f : Nat) (k : PidK), s.set.cache.k[s.ct.boost]? = some k ∧ i < 10 ∧ f < 1000 ∧
      fixptGetIntPart k.ki = some (i : Int) ∧ fixptGetDecFract k.ki 3 = some (f : Int) ∧
      txt = [48 + i] ++ 46 :: [48 + f / 100, 48 + f / 10 % 10, 48 + f % 10]
  | .kd => ∃ (i f : Nat) (k : PidK), s.set.cache.k[s.ct.boost]? = some k ∧ i < 100 ∧ f < 100 ∧
      fixptGetIntPart k.kd = some (i : Int) ∧
      fixptGetDecFract k.kd 2 = some (f : Int) ∧ txt = chars2 i ++ 46 :: [48 + f / 10, 48 + f % 10]

theorem chars3_byte {v : Int} (h : -99 ≤ v ∧ v ≤ 999) : ∀ ch ∈ chars3 v, 0 < ch ∧ ch < 256 := by
  unfold chars3
  have hn : v.natAbs ≤ 999 := by omega
  intro ch
  split_ifs <;> simp only [List.mem_cons, List.not_mem_nil, or_false] <;> omega

theorem chars2_byte {n : Nat} (h : n < 100) : ∀ ch ∈ chars2 n, 0 < ch ∧ ch < 256 := by
  unfold chars2
  intro ch
  split_ifs <;> simp only [List.mem_cons, List.not_mem_nil, or_false] <;> omega

/-- a temperature text in the buffer -/
theorem putTemp_ok (b0 b1 b2 b3 b4 b5 : Option Nat) {p : Int} (hp : -32000 ≤ p ∧ p ≤ 32000)
    {sym : List Nat} (hs : sym.length = 1 ∨ sym.length = 2) (hb : ∀ ch ∈ sym, 0 < ch ∧ ch < 256) :
    ∃ b n, menuPutTemp [b0, b1, b2, b3, b4, b5] p sym = some b ∧ NearestAway p 64 n ∧
      HoldsText b (chars3 (cClamp n (-99) 999) ++ sym) := by
  obtain ⟨n, e1, e2, e3⟩ := fixptToInt_small (p := p) (by omega)
  obtain ⟨rest, e, -⟩ := menuPutTemp_eq b0 b1 b2 b3 b4 b5 e1 e3 sym hs
  refine ⟨_, n, e, e2, ?_, rest, rfl⟩
  intro ch hch
  rcases List.mem_append.mp hch with h | h
  · exact chars3_byte (cClamp_range (by decide)) ch h
  · exact hb ch h

theorem tempSymbol_ok (c : Conf) (s : Sys) :
    (tempSymbol c s).length = 2 ∧ ∀ ch ∈ tempSymbol c s, 0 < ch ∧ ch < 256 := by
  unfold tempSymbol
  split_ifs <;> decide

theorem getK_ok {c : Conf} {s : Sys} (h : Inv c s) :
    s.set.cache.k[s.ct.boost]? = some s.ct.pid.k ∧
    (0 ≤ s.ct.pid.k.kp ∧ s.ct.pid.k.kp ≤ 6336) ∧ (0 ≤ s.ct.pid.k.ki ∧ s.ct.pid.k.ki ≤ 576) ∧
    (0 ≤ s.ct.pid.k.kd ∧ s.ct.pid.k.kd ≤ 6336) := by
  have hk := h.ct.k
  refine ⟨hk, ?_⟩
  obtain ⟨h3, e⟩ := Vector.getElem?_eq_some_iff.mp hk
  have := h.set.lim.k _ h3 h.ct.boost
  rw [e] at this
  omega

theorem menuText_ok {c : Conf} {s : Sys} (h : Inv c s) :
    ∃ b heat txt, menuText c s = some (b, heat) ∧ HoldsText b txt ∧ Shows c s txt := by
  have hf : bufPut TextBuf.fresh 0 0 = some [some 0, none, none, none, none, none] := by decide
  have hsc := h.menu.screen
  have herr := h.menu.err
  obtain ⟨hk, hkp, hki, hkd⟩ := getK_ok h
  unfold menuText Shows
  simp only [hf, Option.bind_eq_bind, Option.bind_some]
  have lit : ∀ {l : List Nat} {b : TextBuf}, putStr [some 0, none, none, none, none, none] 0 l = some b →
      ∀ (heat : Bool) (Q : List Nat → Prop), HoldsText b l → Q l →
      ∃ b' heat' txt, ((putStr [some 0, none, none, none, none, none] 0 l).bind fun b => pure (b, heat)) =
        some (b', heat') ∧ HoldsText b' txt ∧ Q txt := by
    intro l b e heat Q h1 h2
    exact ⟨b, heat, l, by rw [e]; rfl, h1, h2⟩
  cases hst : s.menu.state <;> simp only [hst, ScreenExists] at hsc
  · -- curtemp
    by_cases he : s.menu.dispErr ≠ 0
    · simp only [if_pos he]
      have e1 : putStr [some 0, none, none, none, none, none] 0 (str "Err ") =
        some [some 69, some 114, some 114, some 32, some 0, none] := by decide
      have e2 : (48 + s.menu.dispErr) % 256 = 48 + s.menu.dispErr := by omega
      simp only [e1, e2, Option.bind_some, bufPut, List.length_cons, List.length_nil]
      refine ⟨_, _, _, rfl, ⟨?_, [none], ?_⟩, rfl⟩
      · intro ch hch
        rcases List.mem_append.mp hch with h' | h'
        · clear hch; revert ch; decide
        · simp only [List.mem_singleton] at h'; omega
      · rfl
    · simp only [if_neg he]
      obtain ⟨b, n, e, hn, ht⟩ := putTemp_ok (some 0) none none none none none (p := s.ct.feedback)
        (by have := h.ct.fb; omega) (Or.inr (tempSymbol_ok c s).1) (tempSymbol_ok c s).2
      exact ⟨b, true, _, by rw [e]; rfl, ht, n, hn, rfl⟩
  all_goals try
    (obtain ⟨v, e1, hv, -⟩ := wanted_ok h.set.lim false
     have hact := h.set.lim.active
     have e2 : (49 + s.set.cache.active) % 256 = 49 + s.set.cache.active := by omega
     obtain ⟨b, n, e, hn, ht⟩ := putTemp_ok (some 0) none none none none none (p := v)
        (by omega) (sym := [49 + s.set.cache.active, 46]) (Or.inr rfl)
        (by intro ch hch; simp only [List.mem_cons, List.not_mem_nil, or_false] at hch; omega)
     simp only [e1, e2, Option.bind_some]
     exact ⟨b, true, _, by rw [e]; rfl, ht, v, n, rfl, hn, rfl⟩)
  · -- idletemp
    simp only [hsc, Bool.not_true, Bool.false_eq_true, if_false]
    have := h.set.lim.idleSp
    obtain ⟨b, n, e, hn, ht⟩ := putTemp_ok (some 0) none none none none none (p := s.set.cache.idleSp)
      (by omega) (sym := str "L") (Or.inl rfl) (by decide)
    exact ⟨b, true, _, by rw [e]; rfl, ht, n, hn, rfl⟩
  · -- debug
    simp only [hsc, Bool.not_true, Bool.false_eq_true, if_false]
    exact lit (b := [some 68, some 66, some 71, some 0, none, none]) (by decide) true (fun t => t = str "DBG")
      ⟨by decide, [none, none], rfl⟩ rfl
  · -- adjPre
    simp only [hsc, Bool.not_true, Bool.false_eq_true, if_false]
    exact lit (b := [some 65, some 68, some 74, some 67, some 46, some 0]) (by decide) false
      (fun t => t = str "ADJC.") ⟨by decide, [], rfl⟩ rfl
  · -- adj
    simp only [hsc, Bool.not_true, Bool.false_eq_true, if_false]
    have ha : measureAdjustGet c s = s.set.cache.adj := by
      unfold measureAdjustGet
      rw [if_pos hsc, h.meas.adj1, if_pos hsc]
    have := h.set.lim.adj
    obtain ⟨b, n, e, hn, ht⟩ := putTemp_ok (some 0) none none none none none (p := s.set.cache.adj)
      (by omega) (sym := str "C.") (Or.inr rfl) (by decide)
    rw [ha]
    exact ⟨b, false, _, by rw [e]; rfl, ht, n, hn, rfl⟩
  · simp only [hsc, Bool.not_true, Bool.false_eq_true, if_false]
    exact lit (b := [some 32, some 80, some 0, none, none, none]) (by decide) false
      (fun t => t = str " P") ⟨by decide, [none, none, none], rfl⟩ rfl
  · -- kp
    simp only [hsc, Bool.not_true, Bool.false_eq_true, if_false, hk, Option.map_some, Option.bind_some]
    obtain ⟨i, f, e1, e2, hi, hf, e⟩ := menuPutFixpt2_eq (some 0) none none none none none hkp
    refine ⟨_, false, _, by rw [e]; rfl, ⟨?_, [], rfl⟩, i, f, _, rfl, hi, hf, e1, e2, rfl⟩
    intro ch hch
    rcases List.mem_append.mp hch with h' | h'
    · exact chars2_byte hi ch h'
    · simp only [List.mem_cons, List.not_mem_nil, or_false] at h'; omega
  · simp only [hsc, Bool.not_true, Bool.false_eq_true, if_false]
    exact lit (b := [some 32, some 73, some 0, none, none, none]) (by decide) false
      (fun t => t = str " I") ⟨by decide, [none, none, none], rfl⟩ rfl
  · -- ki
    simp only [hsc, Bool.not_true, Bool.false_eq_true, if_false, hk, Option.map_some, Option.bind_some]
    obtain ⟨i, f, e1, e2, hi, hf, e⟩ := menuPutFixpt3_eq (some 0) none none none none none hki
    refine ⟨_, false, _, by rw [e]; rfl, ⟨?_, [], rfl⟩, i, f, _, rfl, hi, hf, e1, e2, rfl⟩
    intro ch hch
    simp only [List.mem_cons, List.not_mem_nil, or_false, List.singleton_append] at hch; omega
  · simp only [hsc, Bool.not_true, Bool.false_eq_true, if_false]
    exact lit (b := [some 32, some 68, some 0, none, none, none]) (by decide) false
      (fun t => t = str " D") ⟨by decide, [none, none, none], rfl⟩ rfl
  · -- kd
    simp only [hsc, Bool.not_true, Bool.false_eq_true, if_false, hk, Option.map_some, Option.bind_some]
    obtain ⟨i, f, e1, e2, hi, hf, e⟩ := menuPutFixpt2_eq (some 0) none none none none none hkd
    refine ⟨_, false, _, by rw [e]; rfl, ⟨?_, [], rfl⟩, i, f, _, rfl, hi, hf, e1, e2, rfl⟩
    intro ch hch
    rcases List.mem_append.mp hch with h' | h'
    · exact chars2_byte hi ch h'
    · simp only [List.mem_cons, List.not_mem_nil, or_false] at h'; omega

/-- the display update puts the text on the display -/
theorem Inv.menuUpdateDisplay {c : Conf} {s : Sys} (h : Inv c s) :
    Safe (menuUpdateDisplay c s) fun s' => Inv c s' ∧ ∃ txt dg, Shows c s txt ∧
      (∀ ch ∈ txt, 0 < ch ∧ ch < 256) ∧
      s' = { s with disp := { s.disp with digit := dg } } ∧
      (∃ heat, (menuText c s).map Prod.snd = some heat ∧ dg[2].dpForce = true ∧
        dg[2].dpOn = (heat && s.menu.dispHeating)) ∧
      (∀ j (hj : j < 4), j ≠ 2 → dg[j].dpForce = s.disp.digit[j].dpForce) ∧
      ∀ j (hj : j < 4), dg[j].sseg.enSet = lit j hj (glyphByte dg[j].dpForce dg[j].dpOn
        ((layout txt).map fun p => (BitVec.ofNat 8 p.1, p.2))[j]?) := by
  obtain ⟨b, heat, txt, e, ht, hs⟩ := menuText_ok h
  obtain ⟨d1, e1, h1⟩ := h.disp.forceDp true (if heat then s.menu.dispHeating else false)
  have hd1 : ∃ dg1, d1 = { s.disp with digit := dg1 } ∧ dg1[2].dpForce = true ∧
      dg1[2].dpOn = (heat && s.menu.dispHeating) ∧
      (∀ j (hj : j < 4), j ≠ 2 → dg1[j].dpForce = s.disp.digit[j].dpForce) := by
    unfold displayForceDp at e1
    rw [dif_pos (by decide)] at e1
    refine ⟨_, (Option.some.inj e1).symm, ?_, ?_, ?_⟩
    · rw [Vector.getElem_set_self]
    · rw [Vector.getElem_set_self]
      cases heat <;> rfl
    · intro j hj hne
      rw [Vector.getElem_set_ne _ _ (Ne.symm hne)]
  obtain ⟨dg1, rfl, f1, f2, f3⟩ := hd1
  obtain ⟨rest, eb, hb⟩ := HoldsText.bytes ht
  obtain ⟨dg, e2, hdg⟩ := displayShow_eq { s.disp with digit := dg1 } (txt.map (BitVec.ofNat 8)) rest hb
    (fun j hj => (h1.io j hj).1)
  have hly := layout_bytes txt (fun ch hch => (ht.1 ch hch).2)
  unfold Verif.menuUpdateDisplay
  simp only [e, e1, eb, e2, Option.bind_eq_bind, Option.bind_some]
  refine Safe.pure ⟨{ h with disp := { h1 with io := ?_ } }, txt, dg, hs, ht.1, rfl,
    ⟨heat, by rw [Option.map_some], ?_, ?_⟩, ?_, ?_⟩
  · intro j hj
    rw [hdg j hj]
    exact h1.io j hj
  · rw [hdg 2 (by decide)]
    exact f1
  · rw [hdg 2 (by decide)]
    exact f2
  · intro j hj hne
    rw [hdg j hj]
    exact f3 j hj hne
  · intro j hj
    rw [hdg j hj, hly]
    rfl

end Verif
