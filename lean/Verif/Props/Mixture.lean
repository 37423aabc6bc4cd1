import Verif.Props.Settings
import Verif.Proofs.Mixture
/-
C29, continued: what a reboot loads if the settings were changed while they were being written.
-/
namespace Verif.Props
open Spec

/-- Byte `o` of the cached settings was `b` at some instant of the run `es` from `h`. -/
def ByteExisted (c : Conf) (h : Hist) (es : List SEv) (o b : Nat) : Prop :=
  ∃ n h1, runEvs false c h (es.take n) = some h1 ∧ h1.st.cache.image[o]? = some b

private theorem get_img (s : Settings) {o : Nat} (ho : o < 63) : s.image[o]? = some (img s o) :=
  image_get? s (by omega)

private theorem mix_step {c : Conf} (hc : c.eering = true) {E : Nat → Nat → Prop} {h : Hist} {j κ : Nat}
    (hi : MixInv c E h.st j κ) {e : SEv} (ha : Allowed false c h e) {h' : Hist} (hs : hstep c h e = some h') :
    ∃ j' κ', MixInv c (fun o b => E o b ∨ b = img h'.st.cache o) h'.st j' κ' := by
  have hset : ∀ st, (settle h st).st = st := by
    intro st; unfold settle; split <;> rfl
  have w : ∀ {s : SettingsSt} {j κ : Nat}, MixInv c E s j κ →
      ∃ j' κ', MixInv c (fun o b => E o b ∨ b = img s.cache o) s j' κ' :=
    fun hi => ⟨_, _, hi.mono fun _ _ => Or.inl⟩
  cases e with
  | modify s =>
    cases hs
    exact ⟨_, _, hi.modify ha.2.1 ha.1⟩
  | request now =>
    have hs : (storeSettings now h.st).map (fun st => { h with st }) = some h' := hs
    obtain ⟨st, h1, rfl⟩ := Option.map_eq_some_iff.mp hs
    unfold storeSettings at h1
    obtain ⟨t, -, h1⟩ := Option.bind_eq_some_iff.mp h1
    cases h1
    exact w (j := j) (κ := κ) ⟨hi.p, hi.cur, hi.slot, hi.wr, hi.pr⟩
  | work now =>
    have e : h'.st = (settingsWork c now h.st).1 := by
      rw [← Option.some.inj hs]
      by_cases hh : (settingsWork c now h.st).2 = true
      · rw [if_pos hh]
      · rw [if_neg hh]
    rw [e]
    exact w (hi.work hc now ha).1
  | isr =>
    obtain ⟨s', j', κ', e1, -, h2⟩ := hi.isr hc ha
    have hs : (eeIsr c h.st).map (settle h) = some h' := hs
    obtain ⟨st, h1, rfl⟩ := Option.map_eq_some_iff.mp hs
    rw [e1] at h1
    cases h1
    rw [hset]
    exact w h2
  | progDone =>
    cases hs
    obtain ⟨-, j', κ', h2⟩ := hi.done hc ha
    rw [hset]
    exact w h2
  | crash v =>
    obtain ⟨s', j', κ', e1, h2⟩ := hi.crash hc ha
    have hs : (settingsInit c (powerFail h.st v)).map (fun st => { st, saved := st.cache, writing := none : Hist }) =
      some h' := hs
    obtain ⟨st, h1, rfl⟩ := Option.map_eq_some_iff.mp hs
    rw [e1] at h1
    cases h1
    exact w h2

private theorem mix_run {c : Conf} (hc : c.eering = true) (es : List SEv) : ∀ {E : Nat → Nat → Prop} {h : Hist} {j κ : Nat}
    {h' : Hist}, MixInv c E h.st j κ → runEvs false c h es = some h' →
    ∃ j' κ', MixInv c (fun o b => E o b ∨ (o < 63 → ByteExisted c h es o b)) h'.st j' κ' := by
  induction es with
  | nil =>
    intro E h j κ h' hi hr
    cases hr
    exact ⟨_, _, hi.mono fun _ _ => Or.inl⟩
  | cons e es ih =>
    intro E h j κ h' hi hr
    unfold runEvs at hr
    split at hr
    · rename_i ha
      cases hs : hstep c h e with
      | none => rw [hs] at hr; cases hr
      | some h1 =>
        rw [hs] at hr
        obtain ⟨j1, κ1, hi1⟩ := mix_step hc hi ha hs
        obtain ⟨j', κ', hi'⟩ := ih hi1 hr
        have run1 : ∀ n, runEvs false c h ((e :: es).take (n + 1)) = runEvs false c h1 (es.take n) := by
          intro n
          rw [List.take_succ_cons]
          conv => lhs; unfold runEvs
          rw [if_pos ha, hs]
        refine ⟨j', κ', hi'.mono fun o b hb => ?_⟩
        rcases hb with (hb | hb) | hb
        · exact Or.inl hb
        · exact Or.inr fun ho => ⟨1, h1, by rw [run1 0]; rfl, by rw [hb]; exact get_img _ ho⟩
        · refine Or.inr fun ho => ?_
          obtain ⟨n, h2, k1, k2⟩ := hb ho
          exact ⟨n + 1, h2, by rw [run1 n]; exact k1, k2⟩
    · cases hr

private theorem mix_boot {c : Conf} (hc : c.eering = true) {st : SettingsSt} {es : List SEv} {h : Hist}
    (hb : settingsInit c (shippedEeprom c) = some st)
    (hr : runEvs false c { st, saved := st.cache, writing := none } es = some h) :
    ∃ j κ, MixInv c (fun o b => o < 63 → ByteExisted c { st, saved := st.cache, writing := none } es o b) h.st j κ := by
  obtain ⟨k1, k2, k3⟩ := shipped_inv c hc
  obtain ⟨s', e, hi⟩ := MixInv.init (E := fun o b => b = img (shippedSettings c) o) (ee := shippedEeprom c) hc
    (fun a => img_lt (s := shippedSettings c) a) k1 (fun o ho => k3 o (by omega))
  rw [hb] at e
  cases e
  obtain ⟨j, κ, h2⟩ := mix_run hc es (h := { st, saved := st.cache, writing := none }) hi hr
  refine ⟨j, κ, h2.mono fun o b hb ho => ?_⟩
  rcases hb with hb | hb
  · refine ⟨0, _, rfl, ?_⟩
    rw [hb, ← hi.cur o ho]
    exact get_img _ ho
  · exact hb ho

/-- What holds of C29 even if the settings are changed while they are being written: whatever happens from the first
    boot on, a reboot succeeds, and every single byte it loads (other than the serial number) is what that byte of the
    settings was at some instant.  What is missing from C29 is that it was so for all bytes at the same instant
    (C29_false). -/
theorem C29_bytes_partial (c : Conf) (hc : c.eering = true) (st : SettingsSt) (es : List SEv) (h : Hist) (v : Nat)
    (hb : settingsInit c (shippedEeprom c) = some st)
    (hr : runEvs false c { st, saved := st.cache, writing := none } es = some h) (hv : v < 256) :
    ∃ st', settingsInit c (powerFail h.st v) = some st' ∧
      ∀ o < 63, ∃ b, st'.cache.image[o]? = some b ∧
        ByteExisted c { st, saved := st.cache, writing := none } es o b := by
  obtain ⟨j, κ, hi⟩ := mix_boot hc hb hr
  obtain ⟨s', j', κ', e, hi'⟩ := hi.crash hc hv
  exact ⟨s', e, fun o ho => ⟨_, get_img _ ho, hi'.cur o ho ho⟩⟩

/-- In particular the selected preset, which is a single byte, is always one that was selected at some instant. -/
theorem C29_active_partial (c : Conf) (hc : c.eering = true) (st : SettingsSt) (es : List SEv) (h : Hist) (v : Nat)
    (hb : settingsInit c (shippedEeprom c) = some st)
    (hr : runEvs false c { st, saved := st.cache, writing := none } es = some h) (hv : v < 256) :
    ∃ st', settingsInit c (powerFail h.st v) = some st' ∧
      ∃ n h1, runEvs false c { st, saved := st.cache, writing := none } (es.take n) = some h1 ∧
        st'.cache.active = h1.st.cache.active := by
  obtain ⟨j, κ, hi⟩ := mix_boot hc hb hr
  obtain ⟨s', j', κ', e, hi'⟩ := hi.crash hc hv
  obtain ⟨n, h1, k1, k2⟩ := hi'.cur 57 (by omega) (by omega)
  refine ⟨s', e, n, h1, k1, ?_⟩
  obtain ⟨_, _, hi1⟩ := mix_boot hc hb k1
  have img57 : ∀ x : Settings, x.Wf → x.image[57]? = some x.active := by
    intro x hx
    rw [image_eq]
    show some (x.active % 256) = _
    rw [Nat.mod_eq_of_lt hx.active]
  rw [← get_img _ (by omega), img57 _ (show h1.st.cache.Wf from hi1.p.wf), img57 _ (show s'.cache.Wf from hi'.p.wf)] at k2
  exact (Option.some.inj k2).symm

set_option maxRecDepth 100000 in
/-- the run of C29_false, in which the settings loaded never existed as a whole -/
example : ∃ st h, settingsInit Conf.m88p (shippedEeprom Conf.m88p) = some st ∧
    runEvs false Conf.m88p { st, saved := st.cache, writing := none }
      (tornEvents Conf.m88p { st, saved := st.cache, writing := none }) = some h ∧
    (settingsInit Conf.m88p (powerFail h.st 0)).map (fun s => s.cache.sp[0]) = some (311 * 64) := by
  have hrun : (do
    let h ← bootHist
    let h2 ← runEvs false Conf.m88p h (tornEvents Conf.m88p h)
    return ((settingsInit Conf.m88p (powerFail h2.st 0)).map (fun s => s.cache.sp[0]))) = some (some (311 * 64)) := by
    decide
  unfold bootHist at hrun
  simp only [Option.bind_eq_bind, Option.bind_eq_some_iff, Option.map_eq_some_iff, pure, Option.some.injEq] at hrun
  obtain ⟨h, ⟨st, hb, rfl⟩, h2, hr, hs⟩ := hrun
  exact ⟨st, h2, hb, hr, Option.map_eq_some_iff.mpr hs⟩

end Verif.Props
