import Verif.Proofs.Lasting
/-
Where every byte of the stored settings comes from, also if the settings are changed while they are being written.
-/
namespace Verif
open Spec

attribute [local irreducible] img

/-- `E o b`: byte `o` of the settings has been `b`.  Every byte of the newest slot, and every byte written so far, has
    been that byte of the settings. -/
structure MixInv (c : Conf) (E : Nat → Nat → Prop) (s : SettingsSt) (j κ : Nat) : Prop where
  p : PInv c (requested 0 s) j κ
  cur : ∀ o, o < 63 → E o (img s.cache o)
  slot : ∀ o, o < 63 → E o (s.eeprom (j * 64 + o))
  wr : storing s = true → ∀ o, o < s.eeOff → o < 63 → (s.prog = none ∨ o + 1 < s.eeOff) →
    E o (s.eeprom (wslot c s * 64 + o))
  pr : ∀ a d, s.prog = some (a, d) → s.eeOff ≤ 63 → E (s.eeOff - 1) d

variable {c : Conf} {E : Nat → Nat → Prop} {s s' : SettingsSt} {j κ : Nat}

theorem MixInv.mono {E' : Nat → Nat → Prop} (h : MixInv c E s j κ) (hE : ∀ o b, E o b → E' o b) : MixInv c E' s j κ :=
  ⟨h.p, fun o ho => hE _ _ (h.cur o ho), fun o ho => hE _ _ (h.slot o ho), fun hs o h1 h2 h3 => hE _ _ (h.wr hs o h1 h2 h3),
    fun a d h1 h2 => hE _ _ (h.pr a d h1 h2)⟩

theorem wslot_eq (hc : c.eering = true) : wslot c s = s.eeIndex := by unfold wslot; rw [if_pos hc]

/-- the newest slot is not the one being written -/
theorem MixInv.other (hc : c.eering = true) (h : MixInv c E s j κ) (hst : storing s = true) :
    wslot c s = ringNext j (c.nrEe - 1) ∧ wslot c s ≠ j ∧ j < c.nrEe := by
  obtain ⟨-, hN, hN'⟩ := nrEe_ring hc
  have h1 : s.eeIndex = ringNext j (c.nrEe - 1) := ((h.p.busy hst).2.1 hc).1
  have hj := (h.p.ring hc).hj
  have := ringNext_lt hN hN' hj
  rw [wslot_eq hc]
  exact ⟨h1, by omega, hj⟩

theorem ringNext_inj {i k N : Nat} (hi : i < N) (hk : k < N) (hN : N < 250) (e : ringNext i (N - 1) = ringNext k (N - 1)) :
    i = k := by
  unfold ringNext at e
  simp only [] at e
  split at e <;> split at e <;> omega

/-- the newest slot stays while the store goes on -/
theorem slot_stays (hc : c.eering = true) {j' κ' : Nat} (h : PInv c (requested 0 s) j κ) (hst : storing s = true)
    (h' : PInv c (requested 0 s') j' κ') (hst' : storing s' = true) (hix : s'.eeIndex = s.eeIndex) : j' = j := by
  obtain ⟨-, hN, hN'⟩ := nrEe_ring hc
  have h1 : s.eeIndex = ringNext j (c.nrEe - 1) := ((h.busy hst).2.1 hc).1
  have h2 : s'.eeIndex = ringNext j' (c.nrEe - 1) := ((h'.busy hst').2.1 hc).1
  exact ringNext_inj (h'.ring hc).hj (h.ring hc).hj hN' (by rw [← h1, ← h2, hix])

theorem isr_up {x : SettingsSt} (ho : s.eeOff < 64) (hi : wslot c s < c.nrEe) (e : eeIsr c s = some x) :
    eeIsr c (requested 0 s) = some (requested 0 x) := by
  rw [eeIsr_eq ho hi] at e
  rw [eeIsr_eq (s := requested 0 s) ho hi, ← Option.some.inj e]
  rfl

/-- the EEPROM interrupt -/
theorem MixInv.isr (hc : c.eering = true) (h : MixInv c E s j κ) (hr : eeReady s = true) :
    ∃ s' j' κ', eeIsr c s = some s' ∧ s'.cache = s.cache ∧ MixInv c E s' j' κ' := by
  have hr' := hr
  simp only [eeReady, Bool.and_eq_true, Option.isNone_iff_eq_none] at hr'
  obtain ⟨hie, hpr⟩ := hr'
  have hst : storing s = true := by simp [storing, hie]
  obtain ⟨hlt, hser, hoff, hie', hpg, hby⟩ := h.p.busy hst
  have hlt : wslot c s < c.nrEe := hlt
  have ho : s.eeOff < 64 := hie'.mp hie
  have e := eeIsr_eq ho hlt
  obtain ⟨j', κ', hp'⟩ := h.p.isr hr (isr_up ho hlt e)
  refine ⟨_, j', κ', e, rfl, hp', h.cur, ?_, ?_, ?_⟩
  · intro o h63
    rw [e] at *
    by_cases hst' : storing { s with
        prog := if s.eeprom (wslot c s * 64 + s.eeOff) = img s.cache s.eeOff then s.prog
                else some (wslot c s * 64 + s.eeOff, img s.cache s.eeOff),
        eeOff := s.eeOff + 1,
        eerie := if s.eeOff + 1 ≥ 64 then false else s.eerie } = true
    · rw [slot_stays hc h.p hst hp' hst' rfl]
      exact h.slot o h63
    · have hst2 : storing { s with
        prog := if s.eeprom (wslot c s * 64 + s.eeOff) = img s.cache s.eeOff then s.prog
                else some (wslot c s * 64 + s.eeOff, img s.cache s.eeOff),
        eeOff := s.eeOff + 1,
        eerie := if s.eeOff + 1 ≥ 64 then false else s.eerie } = false := by simpa using hst'
      have hj : wslot c s = j' := (hp'.idle hst2).1
      simp only [storing, Bool.or_eq_false_iff] at hst2
      have : s.eeOff + 1 ≥ 64 := by
        by_cases hx : s.eeOff + 1 ≥ 64
        · exact hx
        · rw [if_neg hx, hie] at hst2; cases hst2.1
      rw [← hj]
      exact h.wr hst o (by omega) h63 (Or.inl hpr)
  · intro _ o h1 h2 h3
    show E o (s.eeprom (wslot c s * 64 + o))
    simp only [hpr] at h1 h3
    by_cases he : o < s.eeOff
    · exact h.wr hst o he h2 (Or.inl hpr)
    · have : o = s.eeOff := by omega
      subst this
      rcases h3 with h3 | h3
      · split at h3
        · rename_i hx
          rw [hx]
          exact h.cur _ h2
        · cases h3
      · omega
  · intro a d h1 h2
    simp only [hpr] at h1 h2 ⊢
    split at h1
    · cases h1
    · simp only [Option.some.injEq, Prod.mk.injEq] at h1
      rw [← h1.2]
      exact h.cur _ (by omega)

theorem done_up : eeProgDone (requested 0 s) = requested 0 (eeProgDone s) := by
  unfold eeProgDone
  cases hp : s.prog with
  | none => simp only [requested, hp]
  | some ad => simp only [requested, hp]

/-- a byte has been programmed -/
theorem MixInv.done (hc : c.eering = true) (h : MixInv c E s j κ) (hp : s.prog.isSome = true) :
    (eeProgDone s).cache = s.cache ∧ ∃ j' κ', MixInv c E (eeProgDone s) j' κ' := by
  obtain ⟨⟨a, d⟩, hp⟩ := Option.isSome_iff_exists.mp hp
  have hst : storing s = true := by simp [storing, hp]
  obtain ⟨hlt, hser, hoff, hie', hpg, hby⟩ := h.p.busy hst
  have hoff : s.eeOff ≤ 64 := hoff
  obtain ⟨h1, ha, hd, hd63, -⟩ := hpg a d hp
  have h1 : 1 ≤ s.eeOff := h1
  have ha : a = wslot c s * 64 + (s.eeOff - 1) := ha
  obtain ⟨-, hne, -⟩ := h.other hc hst
  have heq : eeProgDone s =
      { s with eeprom := fun x => if x = a then d else s.eeprom x, prog := none } := by
    simp only [eeProgDone, hp]
  have hall : ∀ o, o < s.eeOff → o < 63 →
      E o (if wslot c s * 64 + o = a then d else s.eeprom (wslot c s * 64 + o)) := by
    intro o ho h63
    by_cases hx : o = s.eeOff - 1
    · rw [if_pos (by omega), hx]
      exact h.pr a d hp (by omega)
    · rw [if_neg (by omega)]
      exact h.wr hst o ho h63 (Or.inr (by omega))
  obtain ⟨j', κ', hp'⟩ := h.p.done (by show s.prog.isSome = true; rw [hp]; rfl)
  rw [done_up, heq] at hp'
  rw [heq]
  refine ⟨rfl, j', κ', hp', h.cur, ?_, fun _ o h1 h2 _ => hall o h1 h2, fun a d hh => by cases hh⟩
  intro o h63
  show E o (if j' * 64 + o = a then d else s.eeprom (j' * 64 + o))
  cases hst' : s.eerie with
  | true =>
    rw [slot_stays hc h.p hst hp' (by simp [storing, hst']) rfl, if_neg (by omega)]
    exact h.slot o h63
  | false =>
    have hj : wslot c s = j' := (hp'.idle (by simp [storing, requested, hst'])).1
    have : ¬ s.eeOff < 64 := fun hx => by
      have := hie'.mpr hx
      have : s.eerie = true := this
      rw [hst'] at this
      cases this
    rw [← hj]
    exact hall o (by omega) h63

/-- `settings_work` -/
theorem MixInv.work (hc : c.eering = true) (h : MixInv c E s j κ) (now : Int)
    (hst : (settingsWork c now s).2 = true → storing s = false) :
    MixInv c E (settingsWork c now s).1 j κ ∧ SameVals (settingsWork c now s).1.cache s.cache := by
  by_cases h1 : s.storeRequest = true
  · by_cases h2 : timerExpired now s.storeTimer = true
    · have e : settingsWork c now s = ({ s with
          storeRequest := false
          cache := { s.cache with serial := (s.cache.serial + 1) % 256 }
          eeIndex := ringNext s.eeIndex (c.nrEe - 1), eeOff := 0, eerie := true }, true) := by
        unfold settingsWork
        simp only [h1, h2, hc, Bool.not_true, Bool.false_eq_true, if_false, if_true]
      have hs := hst (by rw [e])
      have hp0 : PInv c s j κ := ⟨h.p.wf, h.p.byte, h.p.slot, h.p.ring,
        fun hh => ⟨(h.p.idle hh).1, (h.p.idle hh).2.1, fun hr => by rw [h1] at hr; cases hr⟩,
        fun hh => by rw [hs] at hh; cases hh⟩
      have hpw := hp0.work now fun _ _ => hs
      rw [e] at hpw ⊢
      have hpr : s.prog = none := by
        simp only [storing, Bool.or_eq_false_iff, Option.isSome_eq_false_iff, Option.isNone_iff_eq_none] at hs
        exact hs.2
      refine ⟨⟨hpw.request 0 rfl hpw.wf, ?_, h.slot, ?_, ?_⟩, rfl⟩
      · intro o ho
        have := h.cur o ho
        rwa [img_congr (a := s.cache) (b := { s.cache with serial := (s.cache.serial + 1) % 256 }) rfl ho] at this
      · intro _ o ho
        simp only [] at ho
        omega
      · intro a d hh
        simp only [hpr] at hh
        cases hh
    · have e : settingsWork c now s = (s, false) := by
        unfold settingsWork
        rw [if_neg (by rw [h1]; decide), if_pos (by simpa using h2)]
      rw [e]
      exact ⟨h, rfl⟩
  · have e : settingsWork c now s = (s, false) := by
      unfold settingsWork
      rw [if_pos (by simpa using h1)]
    rw [e]
    exact ⟨h, rfl⟩

/-- the settings are changed -/
theorem MixInv.modify (h : MixInv c E s j κ) {x : Settings} (hx : x.serial = s.cache.serial) (hw : x.Wf) :
    MixInv c (fun o b => E o b ∨ b = img x o) { s with cache := x } j κ where
  p := h.p.request 0 hx hw
  cur := fun _ _ => Or.inr rfl
  slot := fun o ho => Or.inl (h.slot o ho)
  wr := fun hs o h1 h2 h3 => Or.inl (h.wr hs o h1 h2 h3)
  pr := fun a d h1 h2 => Or.inl (h.pr a d h1 h2)

/-- loading slot `j` -/
theorem MixInv.init (hc : c.eering = true) {ee : Nat → Nat} (hb : ∀ a, ee a < 256)
    (hr : RingInv c.nrEe (serialAt ee) j κ) (hE : ∀ o, o < 63 → E o (ee (j * 64 + o))) :
    ∃ s, settingsInit c ee = some s ∧ MixInv c E s j κ := by
  have hf : eeFind c ee = some j := eeFind_ring hc hr
  refine ⟨_, by unfold settingsInit; rw [hf]; rfl, ?_⟩
  obtain ⟨k1, k2, k3⟩ := PInv.init (c := c) (κ := κ) hb (fun hh => by rw [hc] at hh; cases hh) (fun _ => hr)
    (s := _) (by unfold settingsInit; rw [hf]; rfl)
  refine ⟨k1.request 0 rfl k1.wf, fun o ho => ?_, hE, fun hh => (by cases hh), fun a d hh => (by cases hh)⟩
  rw [← (k1.idle k2).2.2 k3 o (by omega)]
  exact hE o ho

/-- a power failure at any moment -/
theorem MixInv.crash (hc : c.eering = true) (h : MixInv c E s j κ) {v : Nat} (hv : v < 256) :
    ∃ s' j' κ', settingsInit c (powerFail s v) = some s' ∧ MixInv c E s' j' κ' := by
  obtain ⟨-, hN, hN'⟩ := nrEe_ring hc
  have hbyte : ∀ a, s.eeprom a < 256 := h.p.byte
  have hring : RingInv c.nrEe (serialAt s.eeprom) j κ := h.p.ring hc
  have hb : ∀ a, powerFail s v a < 256 := by
    intro a
    cases hp : s.prog with
    | none => simp only [powerFail, hp]; exact hbyte a
    | some ad =>
      simp only [powerFail, hp]
      split
      · exact hv
      · exact hbyte a
  cases hp : s.prog with
  | none =>
    have hpf : powerFail s v = s.eeprom := by simp only [powerFail, hp]
    rw [hpf] at hb ⊢
    obtain ⟨s', h1, h2⟩ := MixInv.init hc hb hring h.slot
    exact ⟨s', _, _, h1, h2⟩
  | some ad =>
    obtain ⟨a, d⟩ := ad
    have hst : storing s = true := by simp [storing, hp]
    obtain ⟨hlt, hser, hoff, hie, hpg, -⟩ := h.p.busy hst
    have hoff : s.eeOff ≤ 64 := hoff
    obtain ⟨h1, ha, -⟩ := hpg a d hp
    have h1 : 1 ≤ s.eeOff := h1
    have ha : a = wslot c s * 64 + (s.eeOff - 1) := ha
    obtain ⟨hw, hne, hj⟩ := h.other hc hst
    have hpf : powerFail s v = fun x => if x = a then v else s.eeprom x := by
      simp only [powerFail, hp]
    have hslot : ∀ o, o < 63 → E o (powerFail s v (j * 64 + o)) := by
      intro o ho
      rw [hpf]
      simp only []
      rw [if_neg (by omega)]
      exact h.slot o ho
    by_cases h63 : s.eeOff - 1 < 63
    · obtain ⟨s', h1, h2⟩ := MixInv.init hc hb (hring.congr fun i _ => by rw [hpf, ha]; exact serialAt_upd h63) hslot
      exact ⟨s', _, _, h1, h2⟩
    · have hS : ∀ i, serialAt (powerFail s v) i = if i = ringNext j (c.nrEe - 1) then v else serialAt s.eeprom i := by
        intro i
        rw [hpf, ha, hw, show s.eeOff - 1 = 63 by omega]
        exact serialAt_upd63
      rcases hring.write hN hN' hv with hr | hr
      · obtain ⟨s', h1, h2⟩ := MixInv.init (E := E) hc hb (hr.congr fun i _ => hS i) (fun o ho => by
          rw [← hw, hpf]
          simp only []
          rw [if_neg (by omega)]
          exact h.wr hst o (by omega) ho (Or.inr (by omega)))
        exact ⟨s', _, _, h1, h2⟩
      · obtain ⟨s', h1, h2⟩ := MixInv.init hc hb (hr.congr fun i _ => hS i) hslot
        exact ⟨s', _, _, h1, h2⟩

end Verif
