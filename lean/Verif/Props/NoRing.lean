import Verif.Proofs.NoRing
import Verif.Props.AnyEeprom
import Verif.Props.Settings
/-
Property theorems C96: power failures in builds without the EEPROM ring.
-/
namespace Verif.Props
open Verif Verif.Spec

attribute [local irreducible] img

private theorem get_img (s : Settings) {o : Nat} (ho : o < 64) : s.image[o]? = some (img s o) :=
  image_get? s ho

/-! ### what is found after a power failure -/

/-- While no store is in progress, a reboot loads exactly the settings stored last. -/
theorem C96_idle (c : Conf) (hc : c.eering = false) (h : Hist) (hr : Reachable true c h) (hi : storing h.st = false)
    (v : Nat) (hv : v < 256) : ∃ st, settingsInit c (powerFail h.st v) = some st ∧ st.cache = h.saved := by
  have hinv := hr.one hc
  obtain ⟨st, e, hw, him, -, -⟩ := init_one hc (powerFail_lt hinv.byte hv)
  refine ⟨st, e, ?_⟩
  have hp : h.st.prog = none := by
    simp only [storing, Bool.or_eq_false_iff, Option.isSome_eq_false_iff, Option.isNone_iff_eq_none] at hi
    exact hi.2
  have hpf : powerFail h.st v = h.st.eeprom := by unfold powerFail; rw [hp]
  rw [← ofBytes_img hw, ← ofBytes_img hinv.swf]
  refine ofBytes_congr fun o ho => ?_
  rw [him o ho, hpf, (hinv.idle hi).2 o ho]

/-- During a store, a power failure leaves a beginning of the new settings, then one byte that may have any value, then
    the end of the settings stored before.  If no byte is being programmed at that moment, there is no such byte. -/
theorem C96_torn (c : Conf) (hc : c.eering = false) (h : Hist) (hr : Reachable true c h) (hs : storing h.st = true)
    (v : Nat) (hv : v < 256) : ∃ st new n, settingsInit c (powerFail h.st v) = some st ∧ h.writing = some new ∧
      n ≤ 64 ∧ (∀ o, o < n → st.cache.image[o]? = new.image[o]?) ∧
      (∀ o, n < o → o < 64 → st.cache.image[o]? = h.saved.image[o]?) ∧
      (n < 64 → (st.cache.image[n]? = some v ∧ h.st.prog.isSome) ∨ st.cache.image[n]? = h.saved.image[n]?) := by
  have hinv := hr.one hc
  obtain ⟨st, e, hw, him, -, -⟩ := init_one hc (powerFail_lt hinv.byte hv)
  obtain ⟨hwr, hoff, hie, hpg, hby, hold⟩ := hinv.busy hs
  cases hp : h.st.prog with
  | none =>
    have hpf : powerFail h.st v = h.st.eeprom := by unfold powerFail; rw [hp]
    have hget : ∀ o, o < 64 → st.cache.image[o]? = some (h.st.eeprom o) := fun o ho => by
      rw [get_img _ ho, him o ho, hpf]
    refine ⟨st, _, h.st.eeOff, e, hwr, hoff, fun o ho => ?_, fun o ho h64 => ?_, fun h64 => Or.inr ?_⟩
    · rw [hget o (by omega), get_img _ (by omega), hby o ho (Or.inl hp)]
    · rw [hget o h64, get_img _ h64, hold o h64 (by omega)]
    · rw [hget _ h64, get_img _ h64, hold _ h64 (Nat.le_refl _)]
  | some p =>
    obtain ⟨a, d⟩ := p
    obtain ⟨ha, -⟩ := hpg a d hp
    have hpf : ∀ x, powerFail h.st v x = if x = a then v else h.st.eeprom x := fun x => by
      unfold powerFail; rw [hp]
    have hget : ∀ o, o < 64 → st.cache.image[o]? = some (if o = a then v else h.st.eeprom o) := fun o ho => by
      rw [get_img _ ho, him o ho, hpf]
    refine ⟨st, _, a, e, hwr, by omega, fun o ho => ?_, fun o ho h64 => ?_, fun h64 => Or.inl ⟨?_, rfl⟩⟩
    · rw [hget o (by omega), get_img _ (by omega), if_neg (by omega), hby o (by omega) (Or.inr (by omega))]
    · rw [hget o h64, get_img _ h64, if_neg (by omega), hold o h64 (by omega)]
    · rw [hget _ h64, if_pos rfl]

/-! ### what that means -/

/-- the shipped m88p build, without the ring -/
def singleSlot : Conf := { Conf.m88p with eering := false }

/-- boot with the shipped EEPROM, change the settings, request a store, start it, and let `n` events of the writer pass -/
private def partRun (f : Settings → Settings) (n : Nat) : Option Hist := do
  let st ← settingsInit singleSlot (shippedEeprom singleSlot)
  let h : Hist := { st, saved := st.cache, writing := none }
  let h1 ← runEvs true singleSlot h [.modify (f h.st.cache), .request 0, .work 1000]
  runEvs true singleSlot h1 (drive singleSlot n h1)

private theorem partRun_reach {f : Settings → Settings} {n : Nat} {h : Hist} (e : partRun f n = some h) :
    Reachable true singleSlot h := by
  unfold partRun at e
  obtain ⟨st, hb, e⟩ := Option.bind_eq_some_iff.mp e
  obtain ⟨h1, e1, e⟩ := Option.bind_eq_some_iff.mp e
  exact runEvs_reachable _ (runEvs_reachable _ (.boot hb) e1) e

/-- preset 4 instead of preset 3 -/
private def other (s : Settings) : Settings := { s with active := 4 }

/-- preset 3 at 352 C instead of 350 C -/
private def warmer (s : Settings) : Settings := { s with sp := s.sp.set 3 (352 * 64) }

set_option maxRecDepth 100000 in
private theorem other_run : ((partRun other 58).bind fun h => (settingsInit singleSlot (powerFail h.st 255)).map fun st =>
    (h.saved.active, h.writing.map (·.active), h.st.prog, st.cache.active)) =
    some (3, some 4, some (57, 4), 255) := by decide

set_option maxRecDepth 100000 in
private theorem warmer_run : ((partRun warmer 51).bind fun h => (settingsInit singleSlot (powerFail h.st 255)).map fun st =>
    (h.saved.sp[3], h.writing.map (·.sp[3]), h.st.prog, st.cache.sp[3], st.cache.active)) =
    some (350 * 64, some (352 * 64), some (49, 88), 1020 * 64, 3) := by decide

/-- Another preset is selected, and power fails while that is being stored: the number of the preset may be found as
    255, and booting is undefined from then on. -/
theorem C96_unbootable : ∃ h v, Reachable true singleSlot h ∧ v < 256 ∧ h.saved.active = 3 ∧
    h.writing.map (·.active) = some 4 ∧ ∀ pinb, boot singleSlot (powerFail h.st v) pinb = none := by
  obtain ⟨h, e, er⟩ := Option.bind_eq_some_iff.mp other_run
  obtain ⟨st, es, er⟩ := Option.map_eq_some_iff.mp er
  simp only [Prod.mk.injEq] at er
  refine ⟨h, 255, partRun_reach e, by decide, er.1, er.2.1, fun pinb => ?_⟩
  obtain ⟨st', es', hb⟩ := C95_boot singleSlot (powerFail h.st 255) pinb
  rw [es] at es'
  cases es'
  cases eb : boot singleSlot (powerFail h.st 255) pinb with
  | none => rfl
  | some s =>
    have := hb.mp ⟨s, eb⟩
    rw [er.2.2.2] at this
    exact absurd this (by decide)

/-- The selected set point is raised from 350 C to 352 C, and power fails while that is being stored: the device may
    boot with a set point of 1020 C. -/
theorem C96_hot : ∃ h v st s, Reachable true singleSlot h ∧ v < 256 ∧ h.saved.sp[3] = 350 * 64 ∧
    h.writing.map (·.sp[3]) = some (352 * 64) ∧ settingsInit singleSlot (powerFail h.st v) = some st ∧
    st.cache.active = 3 ∧ st.cache.sp[3] = 1020 * 64 ∧ boot singleSlot (powerFail h.st v) 0xFF = some s := by
  obtain ⟨h, e, er⟩ := Option.bind_eq_some_iff.mp warmer_run
  obtain ⟨st, es, er⟩ := Option.map_eq_some_iff.mp er
  simp only [Prod.mk.injEq] at er
  obtain ⟨st', es', hb⟩ := C95_boot singleSlot (powerFail h.st 255) 0xFF
  have hst : st' = st := Option.some.inj (es'.symm.trans es)
  subst hst
  obtain ⟨s, eb⟩ := hb.mpr (by rw [er.2.2.2.2]; decide)
  exact ⟨h, 255, st', s, partRun_reach e, by decide, er.1, er.2.1, es, er.2.2.2.2, er.2.2.2.1, eb⟩

/-- With the ring neither happens: the selected preset and the set points found are those stored last or those being
    stored. -/
theorem C96_ring (c : Conf) (hc : c.eering = true) (h : Hist) (hr : Reachable true c h) (v : Nat) (hv : v < 256) :
    ∃ st, settingsInit c (powerFail h.st v) = some st ∧
      ((st.cache.active = h.saved.active ∧ st.cache.sp = h.saved.sp) ∨
        ∃ w, h.writing = some w ∧ st.cache.active = w.active ∧ st.cache.sp = w.sp) := by
  obtain ⟨st, e, h1⟩ := C25_power_failure c hc h hr v hv
  refine ⟨st, e, ?_⟩
  have same : ∀ {a b : Settings}, SameVals a b → a.active = b.active ∧ a.sp = b.sp := fun hab => by
    unfold SameVals at hab
    exact ⟨(congrArg Settings.active hab : _), (congrArg Settings.sp hab : _)⟩
  rcases h1 with h1 | ⟨w, hw, h1⟩
  · exact Or.inl (same h1)
  · exact Or.inr ⟨w, hw, same h1⟩

/-- The hypotheses of `C96_torn`: preset 4 instead of 3 is being stored, byte 57 is being programmed. -/
example : ∃ h, singleSlot.eering = false ∧ Reachable true singleSlot h ∧ storing h.st = true ∧ h.saved.active = 3 ∧
    h.writing.map (·.active) = some 4 ∧ h.st.prog = some (57, 4) := by
  obtain ⟨h, e, er⟩ := Option.bind_eq_some_iff.mp other_run
  obtain ⟨st, es, er⟩ := Option.map_eq_some_iff.mp er
  simp only [Prod.mk.injEq] at er
  exact ⟨h, rfl, partRun_reach e, by unfold storing; rw [er.2.2.1]; simp, er.1, er.2.1, er.2.2.1⟩

set_option maxRecDepth 100000 in
private theorem done_run : ((partRun other 200).map fun h => (storing h.st, h.saved.active, h.writing.isNone)) =
    some (false, 4, true) := by decide

/-- The hypotheses of `C96_idle`: preset 4 instead of 3 has been stored. -/
example : ∃ h, Reachable true singleSlot h ∧ storing h.st = false ∧ h.saved.active = 4 := by
  obtain ⟨h, e, er⟩ := Option.map_eq_some_iff.mp done_run
  simp only [Prod.mk.injEq] at er
  exact ⟨h, partRun_reach e, er.1, er.2.1⟩

end Verif.Props
