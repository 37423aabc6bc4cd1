import Verif.Proofs.Lasting
import Verif.Spec.Settings
/-
Helper lemmas for C96: the settings in builds without the EEPROM ring.
-/
namespace Verif
open Spec

attribute [local irreducible] img

/-- the single place of the settings, the writer and the record of what was stored -/
structure OneInv (h : Hist) : Prop where
  wf : h.st.cache.Wf
  swf : h.saved.Wf
  byte : ∀ a, h.st.eeprom a < 256
  idle : storing h.st = false → h.writing = none ∧ ∀ o, o < 64 → h.st.eeprom o = img h.saved o
  busy : storing h.st = true → h.writing = some h.st.cache ∧ h.st.eeOff ≤ 64 ∧
    (h.st.eerie = true ↔ h.st.eeOff < 64) ∧
    (∀ a d, h.st.prog = some (a, d) → a + 1 = h.st.eeOff ∧ d = img h.st.cache a) ∧
    (∀ o, o < h.st.eeOff → (h.st.prog = none ∨ o + 1 < h.st.eeOff) → h.st.eeprom o = img h.st.cache o) ∧
    ∀ o, o < 64 → h.st.eeOff ≤ o → h.st.eeprom o = img h.saved o

theorem nrEe_one {c : Conf} (hc : c.eering = false) : c.nrEe = 1 := by
  unfold Conf.nrEe
  rw [if_neg (by rw [hc]; decide)]

theorem wslot_one {c : Conf} (hc : c.eering = false) (s : SettingsSt) : wslot c s = 0 := by
  unfold wslot
  rw [if_neg (by rw [hc]; decide)]

/-- what is loaded without the ring -/
theorem init_one {c : Conf} (hc : c.eering = false) {ee : Nat → Nat} (hb : ∀ a, ee a < 256) :
    ∃ st, settingsInit c ee = some st ∧ st.cache.Wf ∧ (∀ o, o < 64 → img st.cache o = ee o) ∧ st.eeprom = ee ∧
      storing st = false := by
  have hr : ∀ o, o < 64 → eeReadByte c ee (0 * 64 + o) = ee o := by
    intro o ho
    unfold eeReadByte
    rw [nrEe_slot (by rw [nrEe_one hc]; decide) ho, Nat.zero_mul, Nat.zero_add]
  have e : settingsInit c ee = some
      { storeTimer := 0, storeRequest := false, cache := eeReadSettings c ee 0, eeIndex := 0, eeOff := 0,
        eerie := false, eeprom := ee, prog := none } := by
    unfold settingsInit eeFind
    rw [if_neg (by rw [hc]; decide)]
    simp only [hc, Option.bind_eq_bind, Option.bind_some, Bool.false_eq_true, if_false]
    rfl
  have hlt : ∀ o, o < 64 → eeReadByte c ee (0 * 64 + o) < 256 := fun o ho => by rw [hr o ho]; exact hb o
  refine ⟨_, e, ofBytes_wf hlt, fun o ho => ?_, rfl, rfl⟩
  show img (Settings.ofBytes fun o => eeReadByte c ee (0 * 64 + o)) o = _
  rw [img_ofBytes hlt ho, hr o ho]

theorem powerFail_lt {s : SettingsSt} (hb : ∀ a, s.eeprom a < 256) {v : Nat} (hv : v < 256) (a : Nat) :
    powerFail s v a < 256 := by
  unfold powerFail
  cases s.prog with
  | none => exact hb a
  | some p =>
    show (if a = p.1 then v else s.eeprom a) < 256
    split
    · exact hv
    · exact hb a

/-- after a boot -/
theorem OneInv.boot {c : Conf} (hc : c.eering = false) {ee : Nat → Nat} (hb : ∀ a, ee a < 256) {st : SettingsSt}
    (e : settingsInit c ee = some st) : OneInv { st, saved := st.cache, writing := none } := by
  obtain ⟨st', e1, h1, h2, h3, h4⟩ := init_one hc hb
  rw [e] at e1
  cases e1
  exact ⟨h1, h1, fun a => by rw [h3]; exact hb a, fun _ => ⟨rfl, fun o ho => by rw [h3, h2 o ho]⟩,
    fun hx => by rw [h4] at hx; cases hx⟩

/-- the store has finished, or goes on -/
theorem OneInv.settle {h : Hist} (hi : OneInv h) (hst : storing h.st = true) {s : SettingsSt}
    (hca : s.cache = h.st.cache) (hb : ∀ a, s.eeprom a < 256) (hoff : s.eeOff ≤ 64)
    (hie : s.eerie = true ↔ s.eeOff < 64)
    (hpg : ∀ a d, s.prog = some (a, d) → a + 1 = s.eeOff ∧ d = img s.cache a)
    (hby : ∀ o, o < s.eeOff → (s.prog = none ∨ o + 1 < s.eeOff) → s.eeprom o = img s.cache o)
    (hold : ∀ o, o < 64 → s.eeOff ≤ o → s.eeprom o = img h.saved o) : OneInv (settle h s) := by
  obtain ⟨hw, -⟩ := hi.busy hst
  unfold Spec.settle
  by_cases hs : storing s = true
  · rw [if_pos hs]
    exact ⟨by rw [hca]; exact hi.wf, hi.swf, hb, fun hx => (by rw [hs] at hx; cases hx),
      fun _ => ⟨by rw [hca]; exact hw, hoff, hie, hpg, hby, hold⟩⟩
  · have hs' : storing s = false := by simpa using hs
    rw [if_neg hs, hw]
    refine ⟨by rw [hca]; exact hi.wf, hi.wf, hb, fun _ => ⟨rfl, fun o ho => ?_⟩, fun hx => absurd hx hs⟩
    have hp : s.prog = none := by
      simp only [storing, Bool.or_eq_false_iff, Option.isSome_eq_false_iff, Option.isNone_iff_eq_none] at hs'
      exact hs'.2
    have he : ¬ s.eerie = true := by
      simp only [storing, Bool.or_eq_false_iff] at hs'
      rw [hs'.1]; decide
    have : ¬ s.eeOff < 64 := fun hx => he (hie.mpr hx)
    rw [hby o (by omega) (Or.inl hp), hca]
    rfl

theorem OneInv.step {c : Conf} (hc : c.eering = false) {h h' : Hist} (hi : OneInv h) {e : SEv}
    (ha : Allowed true c h e) (hs : hstep c h e = some h') : OneInv h' := by
  cases e with
  | modify s =>
    cases hs
    have hst := ha.2.2 rfl
    exact ⟨ha.1, hi.swf, hi.byte, fun _ => hi.idle hst, fun hx => by
      have : storing h.st = true := hx
      rw [hst] at this; cases this⟩
  | request now =>
    have hs : (storeSettings now h.st).map (fun st => { h with st }) = some h' := hs
    obtain ⟨st, h1, rfl⟩ := Option.map_eq_some_iff.mp hs
    unfold storeSettings at h1
    obtain ⟨t, -, h1⟩ := Option.bind_eq_some_iff.mp h1
    cases h1
    exact ⟨hi.wf, hi.swf, hi.byte, hi.idle, hi.busy⟩
  | work now =>
    have hs := (Option.some.inj hs).symm
    have ha : (settingsWork c now h.st).2 = true → storing h.st = false := ha
    unfold settingsWork at hs ha
    by_cases h1 : h.st.storeRequest = true
    · by_cases h2 : timerExpired now h.st.storeTimer = true
      · simp only [h1, h2, hc, Bool.not_true, Bool.false_eq_true, if_false, if_true] at hs ha
        obtain ⟨-, hid⟩ := hi.idle (ha trivial)
        have hp : h.st.prog = none := by
          have hx := ha trivial
          simp only [storing, Bool.or_eq_false_iff, Option.isSome_eq_false_iff, Option.isNone_iff_eq_none] at hx
          exact hx.2
        subst hs
        refine ⟨hi.wf, hi.swf, hi.byte, fun hx => (by simp [storing] at hx),
          fun _ => ⟨rfl, Nat.zero_le _, by simp, fun a d hx => ?_, fun o ho => ?_, fun o ho _ => hid o ho⟩⟩
        · simp only [hp] at hx; cases hx
        · simp only [] at ho; omega
      · simp only [h1, h2, Bool.not_true, Bool.not_false, Bool.false_eq_true, if_false, if_true] at hs
        subst hs; exact hi
    · simp only [h1, Bool.not_false, if_true, Bool.false_eq_true, if_false] at hs
      subst hs; exact hi
  | isr =>
    have hr : eeReady h.st = true := ha
    simp only [eeReady, Bool.and_eq_true, Option.isNone_iff_eq_none] at hr
    obtain ⟨hie, hpr⟩ := hr
    have hst : storing h.st = true := by simp [storing, hie]
    obtain ⟨-, hoff, hie', hpg, hby, hold⟩ := hi.busy hst
    have ho := hie'.mp hie
    have hs : (eeIsr c h.st).map (Spec.settle h) = some h' := hs
    rw [eeIsr_eq ho (by rw [wslot_one hc, nrEe_one hc]; decide), wslot_one hc] at hs
    cases hs
    refine hi.settle hst rfl hi.byte ?_ ?_ ?_ ?_ ?_
    · simp only []; omega
    · simp only [hie]
      split <;> simp <;> omega
    · intro a d hp
      simp only [hpr, Nat.zero_mul, Nat.zero_add] at hp ⊢
      split at hp
      · cases hp
      · simp only [Option.some.injEq, Prod.mk.injEq] at hp
        rw [← hp.1, ← hp.2]
        exact ⟨rfl, rfl⟩
    · intro o ho' hx
      simp only [hpr, Nat.zero_mul, Nat.zero_add] at ho' hx ⊢
      by_cases he : o < h.st.eeOff
      · exact hby o he (Or.inl hpr)
      · have : o = h.st.eeOff := by omega
        subst this
        rcases hx with hx | hx
        · split at hx
          · assumption
          · cases hx
        · omega
    · intro o ho' hx
      simp only [] at hx ⊢
      exact hold o ho' (by omega)
  | progDone =>
    have hp : h.st.prog.isSome = true := ha
    cases hs
    obtain ⟨⟨a, d⟩, hp⟩ := Option.isSome_iff_exists.mp hp
    have hst : storing h.st = true := by simp [storing, hp]
    obtain ⟨-, hoff, hie', hpg, hby, hold⟩ := hi.busy hst
    obtain ⟨ha, hd⟩ := hpg a d hp
    have heq : eeProgDone h.st =
        { h.st with eeprom := fun x => if x = a then d else h.st.eeprom x, prog := none } := by
      simp only [eeProgDone, hp]
    rw [heq]
    refine hi.settle hst rfl (fun x => ?_) hoff hie' (fun _ _ hx => by cases hx) (fun o ho _ => ?_) (fun o ho hx => ?_)
    · simp only []
      split
      · rw [hd]; exact img_lt _
      · exact hi.byte x
    · simp only [] at ho ⊢
      split
      · next hx => rw [hd, hx]
      · next hx => exact hby o ho (Or.inr (by omega))
    · simp only [] at hx ⊢
      rw [if_neg (by omega)]
      exact hold o ho hx
  | crash v =>
    have hs : (settingsInit c (powerFail h.st v)).map (fun st => { st, saved := st.cache, writing := none : Hist }) =
      some h' := hs
    obtain ⟨st, h1, rfl⟩ := Option.map_eq_some_iff.mp hs
    exact OneInv.boot hc (powerFail_lt hi.byte ha) h1

theorem shipped_lt (c : Conf) (a : Nat) : shippedEeprom c a < 256 := by
  unfold shippedEeprom
  rw [List.getD_eq_getElem?_getD]
  cases e : (shippedSettings c).image[a]? with
  | none => decide
  | some x => exact image_lt _ x (List.mem_of_getElem? e)

theorem Spec.Reachable.one {c : Conf} (hc : c.eering = false) {h : Hist} (hr : Reachable true c h) : OneInv h := by
  induction hr with
  | boot hb => exact OneInv.boot hc (shipped_lt c) hb
  | step _ ha hs ih => exact ih.step hc ha hs

end Verif
