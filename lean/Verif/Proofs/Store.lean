import Verif.Proofs.Settings
/-
Helper lemmas about the byte writer and about power failures.
-/
namespace Verif

theorem ringNext_lt {j N : Nat} (hN : 2 ≤ N) (hN' : N < 250) (hj : j < N) :
    ringNext j (N - 1) < N ∧ ringNext j (N - 1) ≠ j := by
  unfold ringNext; simp only []; split <;> omega

attribute [local irreducible] img

/-- the slot the writer writes to -/
def wslot (c : Conf) (s : SettingsSt) : Nat := if c.eering then s.eeIndex else 0

/-- What one interrupt does. -/
theorem eeIsr_eq {c : Conf} {s : SettingsSt} (ho : s.eeOff < 64) (hi : wslot c s < c.nrEe) :
    eeIsr c s = some { s with
      prog := if s.eeprom (wslot c s * 64 + s.eeOff) = img s.cache s.eeOff then s.prog
              else some (wslot c s * 64 + s.eeOff, img s.cache s.eeOff),
      eeOff := s.eeOff + 1,
      eerie := if s.eeOff + 1 ≥ 64 then false else s.eerie } := by
  have hm : (s.eeOff + 1) % 256 = s.eeOff + 1 := Nat.mod_eq_of_lt (by omega)
  unfold wslot at *
  by_cases h : s.eeprom ((if c.eering = true then s.eeIndex else 0) * 64 + s.eeOff) = img s.cache s.eeOff
  · simp only [eeIsr, image_get? _ ho, Option.bind_eq_bind, Option.bind_some, if_pos hi, eeReadByte,
      nrEe_slot hi ho, pure, if_pos h, hm]
  · simp only [eeIsr, image_get? _ ho, Option.bind_eq_bind, Option.bind_some, if_pos hi, eeReadByte,
      nrEe_slot hi ho, pure, if_neg h, hm]

/-- How the EEPROM and the writer relate to `m`, the settings stored last (slot `j`). -/
structure StoreInv (c : Conf) (s : SettingsSt) (m : Settings) (j : Nat) : Prop where
  ring : RingInv c.nrEe (serialAt s.eeprom) j m.serial
  mwf : m.Wf
  slot : ∀ o, o < 64 → s.eeprom (j * 64 + o) = img m o
  cwf : s.cache.Wf
  idle : storing s = false → s.eeIndex = j ∧ s.cache.serial = m.serial
  busy : storing s = true →
    s.eeIndex = ringNext j (c.nrEe - 1) ∧ s.cache.serial = (m.serial + 1) % 256 ∧
    s.eeOff ≤ 64 ∧ (s.eerie = true ↔ s.eeOff < 64) ∧
    (∀ a d, s.prog = some (a, d) → 1 ≤ s.eeOff ∧ a = s.eeIndex * 64 + (s.eeOff - 1) ∧
      d = img s.cache (s.eeOff - 1)) ∧
    (∀ o, o < s.eeOff → (s.prog = none ∨ o + 1 < s.eeOff) →
      s.eeprom (s.eeIndex * 64 + o) = img s.cache o)

theorem StoreInv.find {c s m j} (hc : c.eering = true) (h : StoreInv c s m j) :
    eeFind c s.eeprom = some j ∧ eeReadSettings c s.eeprom j = m :=
  ⟨eeFind_ring hc h.ring, eeRead_slot h.ring.hj h.mwf h.slot⟩

/-- the state after a boot -/
theorem init_inv {c : Conf} (hc : c.eering = true) {ee : Nat → Nat} {m : Settings} {j : Nat}
    (hr : RingInv c.nrEe (serialAt ee) j m.serial) (hm : m.Wf)
    (hs : ∀ o, o < 64 → ee (j * 64 + o) = img m o) :
    ∃ s, settingsInit c ee = some s ∧ StoreInv c s m j ∧ storing s = false ∧ s.cache = m := by
  have h1 := eeFind_ring hc hr
  have h2 := eeRead_slot hr.hj hm hs
  refine ⟨{ storeTimer := 0, storeRequest := false, cache := m, eeIndex := j, eeOff := 0,
            eerie := false, eeprom := ee, prog := none }, ?_, ?_, rfl, rfl⟩
  · simp only [settingsInit, h1, h2, Option.bind_eq_bind, Option.bind_some, hc, if_true, pure]
  · exact ⟨hr, hm, hs, hm, fun _ => ⟨rfl, rfl⟩, fun h => by simp [storing] at h⟩

/-- one changed byte outside of the serial numbers -/
theorem serialAt_upd {ee : Nat → Nat} {j o v i : Nat} (ho : o < 63) :
    serialAt (fun x => if x = j * 64 + o then v else ee x) i = serialAt ee i := by
  unfold serialAt
  simp only []
  rw [if_neg (by omega)]

theorem serialAt_upd63 {ee : Nat → Nat} {j v i : Nat} :
    serialAt (fun x => if x = j * 64 + 63 then v else ee x) i =
      if i = j then v else serialAt ee i := by
  unfold serialAt
  by_cases h : i = j
  · subst h; simp
  · simp only []
    rw [if_neg (by omega), if_neg h]

/-- A power failure at any moment leaves the settings stored last or those being stored. -/
theorem StoreInv.crash {c s m j} (hc : c.eering = true) (h : StoreInv c s m j) {v : Nat}
    (hv : v < 256) :
    ∃ s' m' j', settingsInit c (powerFail s v) = some s' ∧ StoreInv c s' m' j' ∧
      storing s' = false ∧ s'.cache = m' ∧
      ((m' = m ∧ j' = j) ∨ (storing s = true ∧ SameVals m' s.cache)) := by
  obtain ⟨hsz, hN, hN'⟩ := nrEe_ring hc
  cases hp : s.prog with
  | none =>
    obtain ⟨s', h1, h2, h3, h4⟩ := init_inv hc h.ring h.mwf h.slot
    refine ⟨s', m, j, ?_, h2, h3, h4, Or.inl ⟨rfl, rfl⟩⟩
    simp only [powerFail, hp]; exact h1
  | some ad =>
    obtain ⟨a, d⟩ := ad
    have hst : storing s = true := by simp [storing, hp]
    obtain ⟨hi, hser, hoff, hie, hpg, hby⟩ := h.busy hst
    obtain ⟨h1, ha, hd⟩ := hpg a d hp
    obtain ⟨hlt, hne⟩ := ringNext_lt hN hN' h.ring.hj
    rw [← hi] at hlt hne
    have hpf : powerFail s v = fun x => if x = a then v else s.eeprom x := by
      simp only [powerFail, hp]
    have hslot : ∀ o, o < 64 → powerFail s v (j * 64 + o) = img m o := by
      intro o ho
      rw [hpf]
      simp only []
      rw [if_neg (by omega)]
      exact h.slot o ho
    by_cases h63 : s.eeOff - 1 < 63
    · have hr : RingInv c.nrEe (serialAt (powerFail s v)) j m.serial := by
        refine h.ring.congr fun i _ => ?_
        rw [hpf, ha]; exact serialAt_upd h63
      obtain ⟨s', h1, h2, h3, h4⟩ := init_inv hc hr h.mwf hslot
      exact ⟨s', m, j, h1, h2, h3, h4, Or.inl ⟨rfl, rfl⟩⟩
    · have e63 : s.eeOff - 1 = 63 := by omega
      rw [e63] at ha
      have hS : ∀ i, serialAt (powerFail s v) i = if i = s.eeIndex then v else serialAt s.eeprom i := by
        intro i; rw [hpf, ha]; exact serialAt_upd63
      rcases h.ring.write hN hN' hv with hr | hr
      · rw [← hi] at hr
        have hr' := hr.congr (S' := serialAt (powerFail s v)) fun i _ => hS i
        have hwf : ({ s.cache with serial := v } : Settings).Wf := by
          have := h.cwf
          exact ⟨this.k, this.idleSp, this.sp, this.active, this.adj, this.res0, this.res1, hv⟩
        have hcg : ∀ o, o < 63 → img s.cache o = img { s.cache with serial := v } o := fun o ho =>
          img_congr (a := s.cache) (b := { s.cache with serial := v }) rfl ho
        obtain ⟨s', h1, h2, h3, h4⟩ := init_inv hc (m := { s.cache with serial := v }) hr' hwf (by
          intro o ho
          rw [hpf]
          simp only []
          by_cases ho' : o = 63
          · rw [if_pos (by omega), ho', img_serial (by exact hv)]
          · rw [if_neg (by omega), hby o (by omega) (Or.inr (by omega))]
            exact hcg o (by omega))
        exact ⟨s', _, _, h1, h2, h3, h4, Or.inr ⟨hst, rfl⟩⟩
      · rw [← hi] at hr
        have hr' := hr.congr (S' := serialAt (powerFail s v)) fun i _ => hS i
        obtain ⟨s', h1, h2, h3, h4⟩ := init_inv hc hr' h.mwf hslot
        exact ⟨s', m, j, h1, h2, h3, h4, Or.inl ⟨rfl, rfl⟩⟩

/-- the new slot is complete -/
theorem complete {c : Conf} (hc : c.eering = true) {s s' : SettingsSt} {m : Settings} {j : Nat}
    (h : StoreInv c s m j) (hi : s.eeIndex = ringNext j (c.nrEe - 1))
    (hser : s.cache.serial = (m.serial + 1) % 256)
    (he : ∀ i, i ≠ s.eeIndex → serialAt s'.eeprom i = serialAt s.eeprom i)
    (hb : ∀ o, o < 64 → s'.eeprom (s.eeIndex * 64 + o) = img s.cache o)
    (hca : s'.cache = s.cache) (hix : s'.eeIndex = s.eeIndex) (hst : storing s' = false) :
    StoreInv c s' s'.cache s'.eeIndex := by
  obtain ⟨hsz, hN, hN'⟩ := nrEe_ring hc
  have hr := h.ring.store hN hN'
  rw [← hi] at hr
  refine ⟨?_, by rw [hca]; exact h.cwf, by rw [hca, hix]; exact hb, by rw [hca]; exact h.cwf,
    fun _ => ⟨rfl, rfl⟩, fun h => by rw [hst] at h; cases h⟩
  rw [hca, hix, hser]
  refine hr.congr fun i _ => ?_
  by_cases hx : i = s.eeIndex
  · rw [if_pos hx, hx, serialAt, hb 63 (by omega), img_serial h.cwf.serial, hser]
  · rw [if_neg hx]; exact he i hx

theorem StoreInv.isr {c s m j} (hc : c.eering = true) (h : StoreInv c s m j)
    (hr : eeReady s = true) :
    ∃ s', eeIsr c s = some s' ∧ s'.cache = s.cache ∧
      (storing s' = true → StoreInv c s' m j) ∧
      (storing s' = false → StoreInv c s' s'.cache s'.eeIndex) := by
  obtain ⟨hsz, hN, hN'⟩ := nrEe_ring hc
  simp only [eeReady, Bool.and_eq_true, Option.isNone_iff_eq_none] at hr
  obtain ⟨hie, hpr⟩ := hr
  have hst : storing s = true := by simp [storing, hie]
  obtain ⟨hi, hser, hoff, hie', hpg, hby⟩ := h.busy hst
  have ho := hie'.mp hie
  obtain ⟨hlt, hne⟩ := ringNext_lt hN hN' h.ring.hj
  rw [← hi] at hlt hne
  have hw : wslot c s = s.eeIndex := by simp [wslot, hc]
  have heq := eeIsr_eq (c := c) ho (by rw [hw]; exact hlt)
  rw [hw] at heq
  refine ⟨_, heq, rfl, ?_, ?_⟩
  · intro hs'
    refine ⟨h.ring, h.mwf, h.slot, h.cwf, fun h => by (rw [hs'] at h; cases h), fun _ => ?_⟩
    refine ⟨hi, hser, by simp only []; omega, ?_, ?_, ?_⟩
    · simp only [hie]
      split <;> simp <;> omega
    · intro a d hp
      simp only [hpr] at hp
      split at hp
      · cases hp
      · simp only [Option.some.injEq, Prod.mk.injEq] at hp
        simp only []
        refine ⟨by omega, ?_, ?_⟩
        · rw [← hp.1]; rfl
        · rw [← hp.2]; rfl
    · intro o ho' hx
      simp only [hpr] at ho' hx ⊢
      by_cases he : o < s.eeOff
      · exact hby o he (Or.inl hpr)
      · have : o = s.eeOff := by omega
        subst this
        rcases hx with hx | hx
        · split at hx
          · assumption
          · cases hx
        · omega
  · intro hs'
    have hs2 := hs'
    simp only [storing, Bool.or_eq_false_iff, Option.isSome_eq_false_iff,
      Option.isNone_iff_eq_none, hpr] at hs2
    obtain ⟨h1, h2⟩ := hs2
    have h64 : s.eeOff + 1 ≥ 64 := by
      by_cases hx : s.eeOff + 1 ≥ 64
      · exact hx
      · rw [if_neg hx, hie] at h1; cases h1
    refine complete hc h hi hser (fun _ _ => rfl) ?_ rfl rfl hs'
    intro o ho'
    by_cases he : o < s.eeOff
    · exact hby o he (Or.inl hpr)
    · have : o = s.eeOff := by omega
      subst this
      split at h2
      · assumption
      · cases h2

theorem StoreInv.progDone {c s m j} (hc : c.eering = true) (h : StoreInv c s m j)
    (hp : s.prog.isSome = true) :
    (eeProgDone s).cache = s.cache ∧
      (storing (eeProgDone s) = true → StoreInv c (eeProgDone s) m j) ∧
      (storing (eeProgDone s) = false →
        StoreInv c (eeProgDone s) (eeProgDone s).cache (eeProgDone s).eeIndex) := by
  obtain ⟨hsz, hN, hN'⟩ := nrEe_ring hc
  obtain ⟨⟨a, d⟩, hp⟩ := Option.isSome_iff_exists.mp hp
  have hst : storing s = true := by simp [storing, hp]
  obtain ⟨hi, hser, hoff, hie', hpg, hby⟩ := h.busy hst
  obtain ⟨h1, ha, hd⟩ := hpg a d hp
  obtain ⟨hlt, hne⟩ := ringNext_lt hN hN' h.ring.hj
  rw [← hi] at hlt hne
  have heq : eeProgDone s =
      { s with eeprom := fun x => if x = a then d else s.eeprom x, prog := none } := by
    simp only [eeProgDone, hp]
  have hall : ∀ o, o < s.eeOff → (eeProgDone s).eeprom (s.eeIndex * 64 + o) = img s.cache o := by
    intro o ho
    rw [heq]
    simp only []
    by_cases hx : o = s.eeOff - 1
    · rw [if_pos (by omega), hd, hx]
    · rw [if_neg (by omega)]
      exact hby o ho (Or.inr (by omega))
  refine ⟨by rw [heq], ?_, ?_⟩
  · intro hs'
    have hlt64 : s.eeOff < 64 := by
      apply hie'.mp
      rw [heq] at hs'
      simpa [storing] using hs'
    refine ⟨?_, h.mwf, ?_, by rw [heq]; exact h.cwf, fun h => by (rw [hs'] at h; cases h),
      fun _ => ?_⟩
    · refine h.ring.congr fun i _ => ?_
      rw [heq, ha]
      exact serialAt_upd (by omega)
    · intro o ho
      rw [heq]
      simp only []
      rw [if_neg (by omega)]
      exact h.slot o ho
    · have hall' : ∀ o, o < (eeProgDone s).eeOff → ((eeProgDone s).prog = none ∨
          o + 1 < (eeProgDone s).eeOff) →
          (eeProgDone s).eeprom ((eeProgDone s).eeIndex * 64 + o) = img (eeProgDone s).cache o := by
        intro o ho _
        have e1 : (eeProgDone s).eeOff = s.eeOff := by rw [heq]
        have e2 : (eeProgDone s).eeIndex = s.eeIndex := by rw [heq]
        have e3 : (eeProgDone s).cache = s.cache := by rw [heq]
        rw [e2, e3]
        exact hall o (by omega)
      refine ⟨by rw [heq]; exact hi, by rw [heq]; exact hser, by rw [heq]; exact hoff,
        by rw [heq]; exact hie', ?_, hall'⟩
      intro a d hp'
      rw [heq] at hp'
      cases hp'
  · intro hs'
    have h64 : s.eeOff = 64 := by
      have : ¬ s.eeOff < 64 := by
        intro hx
        have := hie'.mpr hx
        rw [heq] at hs'
        simp [storing, this] at hs'
      omega
    refine complete hc h hi hser ?_ (fun o ho => hall o (by omega)) (by rw [heq]) (by rw [heq]) hs'
    intro i hx
    rw [heq]
    unfold serialAt
    simp only []
    rw [if_neg (by omega)]

theorem StoreInv.work {c s m j} (hc : c.eering = true) (h : StoreInv c s m j) (now : Int)
    (hst : (settingsWork c now s).2 = true → storing s = false) :
    StoreInv c (settingsWork c now s).1 m j ∧
      ((settingsWork c now s).2 = true → storing (settingsWork c now s).1 = true ∧
        SameVals (settingsWork c now s).1.cache s.cache) ∧
      ((settingsWork c now s).2 = false → (settingsWork c now s).1 = s) := by
  unfold settingsWork at *
  by_cases h1 : s.storeRequest = true
  · by_cases h2 : timerExpired now s.storeTimer = true
    · simp only [h1, h2, hc, Bool.not_true, Bool.false_eq_true, if_false, if_true] at hst ⊢
      have hst' := hst trivial
      obtain ⟨hi, hs⟩ := h.idle hst'
      simp only [storing, Bool.or_eq_false_iff, Option.isSome_eq_false_iff,
        Option.isNone_iff_eq_none] at hst'
      refine ⟨⟨h.ring, h.mwf, h.slot, ?_, ?_, ?_⟩, fun _ => ⟨rfl, rfl⟩, fun h => by simp at h⟩
      · have := h.cwf
        exact ⟨this.k, this.idleSp, this.sp, this.active, this.adj, this.res0, this.res1,
          Nat.mod_lt _ (by omega)⟩
      · intro h; simp [storing] at h
      · intro _
        refine ⟨by rw [hi], by rw [hs], by simp only []; omega, by simp, ?_, ?_⟩
        · intro a d hp
          simp only [hst'.2] at hp
          cases hp
        · intro o ho
          simp only [] at ho
          omega
    · simp only [h1, h2, Bool.not_true, Bool.not_false, Bool.false_eq_true, if_false, if_true] at hst ⊢
      exact ⟨h, fun h => by simp at h, fun _ => trivial⟩
  · simp only [h1, Bool.not_false, if_true] at hst ⊢
    exact ⟨h, fun h => by simp at h, fun _ => trivial⟩

/-- a state that differs only in the request, its timer and (while idle) the cached values -/
theorem StoreInv.change {c s m j} (h : StoreInv c s m j) {s' : SettingsSt}
    (he : s'.eeprom = s.eeprom) (hi : s'.eeIndex = s.eeIndex) (ho : s'.eeOff = s.eeOff)
    (hp : s'.prog = s.prog) (hr : s'.eerie = s.eerie) (hs : s'.cache.serial = s.cache.serial)
    (hw : s'.cache.Wf) (hc : storing s = true → s'.cache = s.cache) : StoreInv c s' m j := by
  have hst : storing s' = storing s := by simp [storing, hp, hr]
  refine ⟨by rw [he]; exact h.ring, h.mwf, by rw [he]; exact h.slot, hw, ?_, ?_⟩
  · rw [hst, hi, hs]; exact h.idle
  · intro hx
    rw [hst] at hx
    rw [he, hi, ho, hp, hr, hc hx]
    exact h.busy hx

end Verif
