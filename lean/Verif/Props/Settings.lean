import Verif.Spec.Store
import Verif.Proofs.Store
/-
C24-C29: the settings and their EEPROM storage (settings.c).
-/
namespace Verif.Props
open Spec

/-- The image has 64 bytes, the serial number is the last one, and decoding gives the settings
    back. -/
theorem C24_roundtrip (s : Settings) (h : s.Wf) :
    s.image.length = 64 ∧ (∀ b ∈ s.image, b < 256) ∧ s.image.getLast? = some s.serial ∧
    Settings.ofBytes (fun o => s.image.getD o 0) = s := by
  refine ⟨image_length s, image_lt s, ?_, ofBytes_img h⟩
  rw [List.getLast?_eq_getElem?, image_length, image_get? s (by omega), img_serial h.serial]

/-- Two settings with the same image are the same. -/
theorem C24_injective (s t : Settings) (hs : s.Wf) (ht : t.Wf) (h : s.image = t.image) : s = t := by
  rw [← (C24_roundtrip s hs).2.2.2, ← (C24_roundtrip t ht).2.2.2, h]

/-- settings with negative members and a serial number of 255 -/
example : Settings.Wf { shippedSettings Conf.m88p with adj := -6336, serial := 255 } ∧
    (Settings.image { shippedSettings Conf.m88p with adj := -6336, serial := 255 }).drop 57 =
      [3, 64, 231, 255, 0, 0, 255] := by decide

/-- the record agrees with the EEPROM -/
private def HInv (c : Conf) (h : Hist) : Prop :=
  ∃ j, StoreInv c h.st h.saved j ∧
    (storing h.st = true → h.writing = some h.st.cache) ∧ (storing h.st = false → h.writing = none)

theorem shipped_inv (c : Conf) (hc : c.eering = true) :
    RingInv c.nrEe (serialAt (shippedEeprom c)) 0 (shippedSettings c).serial ∧
    (shippedSettings c).Wf ∧ ∀ o, o < 64 → shippedEeprom c (0 * 64 + o) = img (shippedSettings c) o := by
  obtain ⟨hsz, hN, hN'⟩ := nrEe_ring hc
  have hw : (shippedSettings c).Wf := by
    have : ∀ b i, Settings.Wf (shippedSettings { Conf.m88p with boost := b, idle := i }) := by decide
    exact this c.boost c.idle
  refine ⟨⟨by omega, hw.serial, ?_, ?_⟩, hw, ?_⟩
  · intro i hi
    obtain rfl : i = 0 := by omega
    show img (shippedSettings c) (0 * 64 + 63) = _
    rw [Nat.zero_mul, Nat.zero_add, img_serial hw.serial]
    have := hw.serial
    omega
  · intro m h1 h2
    have h0 : serialAt (shippedEeprom c) m = 0 := by
      unfold serialAt shippedEeprom
      rw [List.getD_eq_getElem?_getD, List.getElem?_eq_none (by rw [image_length]; omega)]
      rfl
    rw [h0]
    show ¬ (0 = (0 + (m - 0)) % 256)
    omega
  · intro o _
    rw [Nat.zero_mul, Nat.zero_add]
    rfl

private theorem step_inv {c : Conf} (hc : c.eering = true) {h : Hist} (hi : HInv c h) (e : SEv)
    (ha : Allowed true c h e) : ∃ h', hstep c h e = some h' ∧ HInv c h' := by
  obtain ⟨j, hs, hw1, hw2⟩ := hi
  cases e with
  | modify s =>
    obtain ⟨h1, h2, h3⟩ := ha
    have h3 := h3 rfl
    refine ⟨_, rfl, j, hs.change rfl rfl rfl rfl rfl h2 h1 ?_, ?_, hw2⟩
    · intro hx; rw [h3] at hx; cases hx
    · intro hx
      have hx : storing h.st = true := hx
      rw [h3] at hx; cases hx
  | request now =>
    have hm : timerMsToCount 1000 = some 1000 := by decide
    refine ⟨{ h with st := { h.st with storeRequest := true, storeTimer := toU16 (now + toU16 1000) } },
      ?_, j, hs.change rfl rfl rfl rfl rfl rfl hs.cwf (fun _ => rfl), hw1, hw2⟩
    simp only [hstep, storeSettings, timerArm, hm, Option.bind_eq_bind, Option.bind_some, pure,
      Option.map_some]
  | work now =>
    obtain ⟨h1, h2, h3⟩ := hs.work hc now ha
    refine ⟨_, rfl, j, ?_⟩
    cases hr : (settingsWork c now h.st).2 with
    | true =>
      simp only [if_true]
      refine ⟨h1, fun _ => trivial, fun hx => ?_⟩
      rw [(h2 hr).1] at hx; cases hx
    | false =>
      simp only [Bool.false_eq_true, if_false]
      rw [h3 hr]
      exact ⟨hs, hw1, hw2⟩
  | isr =>
    obtain ⟨s', h1, h2, h3, h4⟩ := hs.isr hc ha
    have hst : storing h.st = true := by
      simp only [Allowed, eeReady, Bool.and_eq_true] at ha
      simp [storing, ha.1]
    refine ⟨settle h s', by simp only [hstep, h1, Option.map_some], ?_⟩
    cases hx : storing s' with
    | true =>
      refine ⟨j, ?_⟩
      simp only [settle, hx, if_true]
      exact ⟨h3 hx, fun _ => by rw [h2]; exact hw1 hst, fun h => by simp at h⟩
    | false =>
      refine ⟨s'.eeIndex, ?_⟩
      simp only [settle, hx, Bool.false_eq_true, if_false, hw1 hst, Option.getD_some, ← h2]
      exact ⟨h4 hx, fun h => by simp at h, fun _ => trivial⟩
  | progDone =>
    obtain ⟨h2, h3, h4⟩ := hs.progDone hc ha
    have hst : storing h.st = true := by
      simp only [Allowed] at ha
      simp [storing, ha]
    refine ⟨_, rfl, ?_⟩
    cases hx : storing (eeProgDone h.st) with
    | true =>
      refine ⟨j, ?_⟩
      simp only [settle, hx, if_true]
      exact ⟨h3 hx, fun _ => by rw [h2]; exact hw1 hst, fun h => by simp at h⟩
    | false =>
      refine ⟨(eeProgDone h.st).eeIndex, ?_⟩
      simp only [settle, hx, Bool.false_eq_true, if_false, hw1 hst, Option.getD_some, ← h2]
      exact ⟨h4 hx, fun h => by simp at h, fun _ => trivial⟩
  | crash v =>
    obtain ⟨s', m', j', h1, h2, h3, h4, -⟩ := hs.crash hc ha
    refine ⟨{ st := s', saved := s'.cache, writing := none }, by simp only [hstep, h1, Option.map_some],
      j', ?_⟩
    rw [h4]
    exact ⟨h2, fun h => by (rw [h3] at h; cases h), fun _ => rfl⟩

private theorem reach_inv {c : Conf} (hc : c.eering = true) {h : Hist} (hr : Reachable true c h) :
    HInv c h := by
  induction hr with
  | boot hb =>
    obtain ⟨h1, h2, h3⟩ := shipped_inv c hc
    obtain ⟨s, e1, e2, e3, e4⟩ := init_inv hc h1 h2 h3
    rw [hb] at e1
    cases e1
    refine ⟨0, ?_⟩
    rw [e4]
    exact ⟨e2, fun h => by (rw [e3] at h; cases h), fun _ => rfl⟩
  | step _ ha hs ih =>
    obtain ⟨h', e1, e2⟩ := step_inv hc ih _ ha
    rw [hs] at e1
    cases e1
    exact e2

/-- The firmware boots from the shipped image, and no event of the settings machinery leads to
    undefined behaviour (in particular the slot index and the byte offset stay in range). -/
theorem C25_no_ub (c : Conf) (hc : c.eering = true) :
    (∃ st, settingsInit c (shippedEeprom c) = some st ∧ st.cache = shippedSettings c) ∧
    ∀ h, Reachable true c h → ∀ e, Allowed true c h e → ∃ h', hstep c h e = some h' := by
  constructor
  · obtain ⟨h1, h2, h3⟩ := shipped_inv c hc
    obtain ⟨s, e1, -, -, e4⟩ := init_inv hc h1 h2 h3
    exact ⟨s, e1, e4⟩
  · intro h hr e ha
    obtain ⟨h', e1, -⟩ := step_inv hc (reach_inv hc hr) e ha
    exact ⟨h', e1⟩

/-- After any history of changes, requests, stores, power failures and reboots, a power
    failure at any moment, leaving the byte being programmed with any value `v`, is followed by
    a reboot that loads the settings stored last or - only if a store was in progress - those
    being stored. -/
theorem C25_power_failure (c : Conf) (hc : c.eering = true) (h : Hist) (hr : Reachable true c h)
    (v : Nat) (hv : v < 256) :
    ∃ st, settingsInit c (powerFail h.st v) = some st ∧
      (SameVals st.cache h.saved ∨ ∃ w, h.writing = some w ∧ SameVals st.cache w) := by
  obtain ⟨j, hs, hw1, -⟩ := reach_inv hc hr
  obtain ⟨s', m', j', h1, -, -, h4, h5⟩ := hs.crash hc hv
  refine ⟨s', h1, ?_⟩
  rw [h4]
  rcases h5 with ⟨rfl, -⟩ | ⟨hx, hy⟩
  · exact Or.inl rfl
  · exact Or.inr ⟨_, hw1 hx, hy⟩

/-- After any history, while no store is in progress a reboot loads exactly the settings stored
    last, from the slot written last. -/
theorem C26_reboot (c : Conf) (hc : c.eering = true) (h : Hist) (hr : Reachable true c h)
    (hi : storing h.st = false) :
    ∃ st, settingsInit c h.st.eeprom = some st ∧ st.cache = h.saved ∧
      st.eeIndex = h.st.eeIndex := by
  obtain ⟨j, hs, -, -⟩ := reach_inv hc hr
  obtain ⟨s, e1, e2, e3, e4⟩ := init_inv hc hs.ring hs.mwf hs.slot
  exact ⟨s, e1, e4, by rw [(e2.idle e3).1, (hs.idle hi).1]⟩

/-- Run a list of events, checking that each of them can happen. -/
def runEvs (calm : Bool) (c : Conf) (h : Hist) : List SEv → Option Hist
  | [] => some h
  | e :: es =>
    if Allowed calm c h e then
      match hstep c h e with
      | some h' => runEvs calm c h' es
      | none => none
    else none

theorem runEvs_reachable {calm : Bool} {c : Conf} (es : List SEv) {h h' : Hist}
    (hr : Reachable calm c h) (he : runEvs calm c h es = some h') : Reachable calm c h' := by
  induction es generalizing h with
  | nil => cases he; exact hr
  | cons e es ih =>
    rw [runEvs] at he
    split at he
    · next ha =>
      split at he
      · next h1 hs => exact ih (.step hr ha hs) he
      · cases he
    · cases he

/-- The slot the writer has to fill. -/
def targetSlot (c : Conf) (s : SettingsSt) : Nat := if c.eering then s.eeIndex else 0

/-- `n` times: the interrupt fires and the byte it may have started to program gets finished -/
def serve (c : Conf) : Nat → SettingsSt → Option SettingsSt
  | 0, s => some s
  | n + 1, s => (serve c n s).bind fun s => (eeIsr c s).map eeProgDone

/-- `n` interrupts after a store was started the first `n` bytes of the slot are those of the
    cached settings, nothing else has changed, and the interrupt is enabled exactly while bytes
    are left. -/
theorem C28_writer (c : Conf) (s : SettingsSt) (h0 : s.eeOff = 0) (h1 : s.eerie = true)
    (h2 : s.prog = none) (hi : targetSlot c s < c.nrEe) (n : Nat) (hn : n ≤ 64) :
    ∃ s', serve c n s = some s' ∧
      (s'.eerie = true ↔ n < 64) ∧ s'.prog = none ∧
      (∀ o, o < n → some (s'.eeprom (targetSlot c s * 64 + o)) = s.cache.image[o]?) ∧
      (∀ a, (∀ o, o < n → a ≠ targetSlot c s * 64 + o) → s'.eeprom a = s.eeprom a) ∧
      s'.cache = s.cache ∧ s'.eeIndex = s.eeIndex ∧ s'.eeOff = n := by
  induction n with
  | zero =>
    exact ⟨s, rfl, by simp [h1], h2, fun o ho => by omega, fun a _ => rfl, rfl, rfl, h0⟩
  | succ n ih =>
    obtain ⟨s', e1, e2, e3, e4, e5, e6, e7, e8⟩ := ih (by omega)
    have hw : wslot c s' = targetSlot c s := by unfold wslot targetSlot; rw [e7]
    have heq := eeIsr_eq (c := c) (s := s') (by omega) (by rw [hw]; exact hi)
    have hie := e2.mpr (by omega)
    rw [hw, e8, e3, e6] at heq
    have himg : ∀ o, o < 64 → s.cache.image[o]? = some (img s.cache o) := fun o ho => image_get? _ ho
    simp only [serve, e1, Option.bind_some, heq, Option.map_some]
    by_cases hd : s'.eeprom (targetSlot c s * 64 + n) = img s.cache n
    · simp only [hd, if_true, eeProgDone]
      refine ⟨_, rfl, ?_, rfl, ?_, ?_, rfl, e7, rfl⟩
      · simp only [hie]
        split <;> simp <;> omega
      · intro o ho
        by_cases hx : o = n
        · simp only [hx, hd, himg n (by omega)]
        · exact e4 o (by omega)
      · intro a ha
        exact e5 a fun o ho => ha o (by omega)
    · simp only [hd, if_false, eeProgDone]
      refine ⟨_, rfl, ?_, rfl, ?_, ?_, rfl, e7, rfl⟩
      · simp only [hie]
        split <;> simp <;> omega
      · intro o ho
        simp only []
        by_cases hx : o = n
        · rw [if_pos (by rw [hx]), hx, himg n (by omega)]
        · rw [if_neg (by omega)]
          exact e4 o (by omega)
      · intro a ha
        simp only []
        rw [if_neg (ha n (by omega))]
        exact e5 a fun o ho => ha o (by omega)

/-- The interrupt number `n` after the start of a store programs a byte exactly if the EEPROM
    differs from the cached settings there, and then this byte with this value. -/
theorem C28_skips_equal (c : Conf) (s : SettingsSt) (hp : s.prog = none) (ho : s.eeOff < 64)
    (hi : targetSlot c s < c.nrEe) :
    ∃ s', eeIsr c s = some s' ∧ s'.eeprom = s.eeprom ∧
      ((s'.prog = none ∧ some (s.eeprom (targetSlot c s * 64 + s.eeOff)) = s.cache.image[s.eeOff]?) ∨
       (∃ d, s.cache.image[s.eeOff]? = some d ∧ s.eeprom (targetSlot c s * 64 + s.eeOff) ≠ d ∧
          s'.prog = some (targetSlot c s * 64 + s.eeOff, d))) := by
  have heq := eeIsr_eq (c := c) (s := s) ho hi
  rw [hp] at heq
  refine ⟨_, heq, rfl, ?_⟩
  rw [image_get? _ ho]
  by_cases hd : s.eeprom (targetSlot c s * 64 + s.eeOff) = img s.cache s.eeOff
  · left
    exact ⟨if_pos hd, by rw [hd]⟩
  · right
    exact ⟨_, rfl, hd, if_neg hd⟩

/-- the shipped settings with another active preset, to be written to slot 1 -/
def sampleStore : SettingsSt :=
  { storeTimer := 0, storeRequest := false,
    cache := { shippedSettings Conf.m88p with active := 4, serial := 1 },
    eeIndex := 1, eeOff := 0, eerie := true, eeprom := shippedEeprom Conf.m88p, prog := none }

example : targetSlot Conf.m88p sampleStore < Conf.m88p.nrEe ∧
    ((serve Conf.m88p 3 sampleStore).map fun s => (s.eeprom 64, s.eeprom 0, s.eeOff)) =
      some (96, 96, 3) := by decide

/-! ### C27 -/

/-- The component run on a schedule: the ticks at which `settings_work` starts a store. -/
def storeRun (c : Conf) (s : SettingsSt) : List StoreEv → Option (List Nat)
  | [] => some []
  | .request T :: es => do
    let s ← storeSettings ((T % 65536 : Nat) : Int) s
    storeRun c s es
  | .poll T :: es => do
    let r := settingsWork c ((T % 65536 : Nat) : Int) s
    let ts ← storeRun c r.1 es
    return if r.2 then T :: ts else ts

private theorem storeRun_eq (c : Conf) (es : List StoreEv) : ∀ (s : SettingsSt) (p : Option Nat) (T : Nat),
    Ordered T es → s.storeRequest = p.isSome →
    (∀ R, p = some R → R ≤ T ∧ s.storeTimer = (((R + 1000) % 65536 : Nat) : Int)) →
    storeRun c s es = some (storeStarts p es) := by
  induction es with
  | nil => intros; rfl
  | cons e es ih =>
    intro s p T ho hp hR
    obtain ⟨hT, ho⟩ := ho
    cases e with
    | request T' =>
      have hm : timerMsToCount 1000 = some 1000 := by decide
      simp only [storeRun, storeSettings, timerArm, hm, Option.bind_eq_bind, Option.bind_some, pure,
        storeStarts]
      refine ih _ _ _ ho (by rfl) ?_
      intro R hR'
      simp only [Option.some.injEq] at hR'
      subst hR'
      refine ⟨Nat.le_refl _, ?_⟩
      simp only [toU16]
      omega
    | poll T' =>
      simp only [StoreEv.tick] at hT ho
      cases p with
      | none =>
        simp only [Option.isSome_none] at hp
        have hw : settingsWork c ((T' % 65536 : Nat) : Int) s = (s, false) := by
          simp [settingsWork, hp]
        simp only [storeRun, hw, storeStarts, ih s none T' ho hp (fun R h => by cases h),
          Option.bind_eq_bind, Option.bind_some, pure, Bool.false_eq_true, if_false]
      | some R =>
        obtain ⟨hRT, ht⟩ := hR R rfl
        simp only [Option.isSome_some] at hp
        have hexp : timerExpired ((T' % 65536 : Nat) : Int) s.storeTimer = true ↔
            1000 ≤ T' - R ∧ (T' - R - 1000) % 65536 < 32768 := by
          rw [ht]
          obtain ⟨k, rfl⟩ : ∃ k, T' = R + k := ⟨T' - R, by omega⟩
          rw [Nat.add_sub_cancel_left]
          unfold timerExpired timerCountSince toU16 toS16
          simp only [ge_iff_le, decide_eq_true_eq]
          rcases Nat.lt_or_ge k 1000 with hk | hk
          · omega
          · obtain ⟨l, rfl⟩ : ∃ l, k = 1000 + l := ⟨k - 1000, by omega⟩
            rw [Nat.add_sub_cancel_left]
            omega
        by_cases hx : 1000 ≤ T' - R ∧ (T' - R - 1000) % 65536 < 32768
        · have h2 := hexp.mpr hx
          have hw : (settingsWork c ((T' % 65536 : Nat) : Int) s).2 = true ∧
              (settingsWork c ((T' % 65536 : Nat) : Int) s).1.storeRequest = false := by
            unfold settingsWork
            simp only [hp, h2, Bool.not_true, Bool.false_eq_true, if_false]
            split <;> simp
          simp only [storeRun, storeStarts, hw.1, if_true, if_pos hx,
            ih (settingsWork c ((T' % 65536 : Nat) : Int) s).1 none T' ho hw.2 (fun R h => by cases h),
            Option.bind_eq_bind, Option.bind_some, pure]
        · have h2 : timerExpired ((T' % 65536 : Nat) : Int) s.storeTimer = false := by
            cases h : timerExpired ((T' % 65536 : Nat) : Int) s.storeTimer with
            | false => rfl
            | true => exact absurd (hexp.mp h) hx
          have hw : settingsWork c ((T' % 65536 : Nat) : Int) s = (s, false) := by
            simp only [settingsWork, hp, h2, Bool.not_true, Bool.not_false, Bool.false_eq_true,
              if_false, if_true]
          simp only [storeRun, hw, storeStarts, if_neg hx,
            ih s (some R) T' ho hp (fun R' h => by cases h; exact ⟨by omega, ht⟩),
            Option.bind_eq_bind, Option.bind_some, pure, Bool.false_eq_true, if_false]

/-- On every schedule the stores start exactly when the specification says: at the first poll
    1000 ms or more (and in the 16-bit window) after the latest request, once per burst. -/
theorem C27_schedule (c : Conf) (s : SettingsSt) (hs : s.storeRequest = false) (es : List StoreEv)
    (ho : Ordered 0 es) : storeRun c s es = some (storeStarts none es) :=
  storeRun_eq c es s none 0 ho hs (fun R h => by cases h)

private theorem starts_ge (es : List StoreEv) : ∀ (p : Option Nat) (T : Nat), Ordered T es →
    (∀ R, p = some R → R ≤ T) →
    (∀ t ∈ storeStarts p es, p.getD T + 1000 ≤ t) ∧
      (storeStarts p es).Pairwise (fun a b => a + 1000 ≤ b) := by
  induction es with
  | nil => intros; simp [storeStarts]
  | cons e es ih =>
    intro p T ho hR
    obtain ⟨hT, ho⟩ := ho
    cases e with
    | request T' =>
      simp only [StoreEv.tick] at hT ho
      obtain ⟨h1, h2⟩ := ih (some T') T' ho (fun R h => by cases h; omega)
      simp only [storeStarts]
      refine ⟨fun t ht => ?_, h2⟩
      have := h1 t ht
      simp only [Option.getD_some] at this
      cases p with
      | none => simp only [Option.getD_none]; omega
      | some R => simp only [Option.getD_some]; have := hR R rfl; omega
    | poll T' =>
      simp only [StoreEv.tick] at hT ho
      cases p with
      | none =>
        obtain ⟨h1, h2⟩ := ih none T' ho (fun R h => by cases h)
        simp only [storeStarts]
        refine ⟨fun t ht => ?_, h2⟩
        have := h1 t ht
        simp only [Option.getD_none] at this ⊢
        omega
      | some R =>
        have hRT := hR R rfl
        simp only [storeStarts]
        split
        · next hx =>
          obtain ⟨h1, h2⟩ := ih none T' ho (fun R h => by cases h)
          simp only [Option.getD_none] at h1
          refine ⟨fun t ht => ?_, List.pairwise_cons.mpr ⟨fun t ht => h1 t ht, h2⟩⟩
          simp only [Option.getD_some]
          rcases List.mem_cons.mp ht with rfl | ht
          · omega
          · have := h1 t ht; omega
        · obtain ⟨h1, h2⟩ := ih (some R) T' ho (fun R' h => by cases h; omega)
          exact ⟨h1, h2⟩

/-- On every schedule, two stores start at least 1000 ms apart. -/
theorem C27_spacing (c : Conf) (s : SettingsSt) (hs : s.storeRequest = false) (es : List StoreEv)
    (ho : Ordered 0 es) :
    ∃ ts, storeRun c s es = some ts ∧ ts.Pairwise (fun a b => a + 1000 ≤ b) :=
  ⟨_, C27_schedule c s hs es ho, (starts_ge es none 0 ho (fun R h => by cases h)).2⟩

private theorem polls_none (Ps : List Nat) : storeStarts none (Ps.map .poll) = [] := by
  induction Ps with
  | nil => rfl
  | cons P Ps ih => exact ih

private theorem polls_some (R : Nat) (Ps : List Nat) (h : ∃ P ∈ Ps, R + 1000 ≤ P ∧ P < R + 33768) :
    (storeStarts (some R) (Ps.map .poll)).length = 1 := by
  induction Ps with
  | nil => simp at h
  | cons P Ps ih =>
    simp only [List.map_cons, storeStarts]
    split
    · rw [polls_none]; rfl
    · next hx =>
      refine ih ?_
      obtain ⟨Q, hQ, h1⟩ := h
      rcases List.mem_cons.mp hQ with rfl | hQ
      · exact absurd ⟨by omega, by omega⟩ hx
      · exact ⟨Q, hQ, h1⟩

private theorem burst (Rs : List Nat) (R : Nat) (p : Option Nat) (es : List StoreEv) :
    storeStarts p ((Rs ++ [R]).map .request ++ es) = storeStarts (some R) es := by
  induction Rs generalizing p with
  | nil => rfl
  | cons R' Rs ih => exact ih _

/-- A burst of requests, the last one at tick `R`, followed by polls of which at least one
    happens 1000 to 33767 ms after it: exactly one store starts. -/
theorem C27_burst (c : Conf) (s : SettingsSt) (hs : s.storeRequest = false) (Rs Ps : List Nat)
    (R : Nat) (ho : Ordered 0 ((Rs ++ [R]).map .request ++ Ps.map .poll))
    (hp : ∃ P ∈ Ps, R + 1000 ≤ P ∧ P < R + 33768) :
    ∃ T, storeRun c s ((Rs ++ [R]).map .request ++ Ps.map .poll) = some [T] := by
  rw [C27_schedule c s hs _ ho, burst]
  have := polls_some R Ps hp
  match h : storeStarts (some R) (Ps.map .poll), this with
  | [T], _ => exact ⟨T, rfl⟩

/-- three requests around the wrap of the tick counter, polled every now and then -/
example : Ordered 0 [.request 65000, .poll 65100, .request 65500, .poll 66000, .request 66100,
      .poll 67099, .poll 67100, .poll 67101, .poll 68000] ∧
    storeStarts none [.request 65000, .poll 65100, .request 65500, .poll 66000, .request 66100,
      .poll 67099, .poll 67100, .poll 67101, .poll 68000] = [67100] :=
  ⟨by simp [Ordered, StoreEv.tick], by decide⟩

/-! ### C29 -/

/-- `x` is what the cached settings were at some instant of the run `es` from `h`. -/
def Existed (calm : Bool) (c : Conf) (h : Hist) (es : List SEv) (x : Settings) : Prop :=
  ∃ n h1, runEvs calm c h (es.take n) = some h1 ∧ SameVals x h1.st.cache

/-- The full claim (with `calm = false`): whatever happens from the first boot on, a reboot loads
    settings that existed at some instant. -/
def RebootLoadsExisting (calm : Bool) (c : Conf) : Prop :=
  ∀ st es h v, settingsInit c (shippedEeprom c) = some st →
    runEvs calm c { st, saved := st.cache, writing := none } es = some h → v < 256 →
    ∃ st', settingsInit c (powerFail h.st v) = some st' ∧
      Existed calm c { st, saved := st.cache, writing := none } es st'.cache

private theorem hstep_ghost {c : Conf} {h h1 : Hist} {e : SEv} (hs : hstep c h e = some h1) :
    (h1.saved = h.saved ∨ h.writing = some h1.saved ∨ h1.saved = h1.st.cache) ∧
    (∀ w, h1.writing = some w → h.writing = some w ∨ w = h1.st.cache) := by
  have hset : ∀ st, (settle h st).saved = h.saved ∨ h.writing = some (settle h st).saved := by
    intro st
    unfold settle
    split
    · exact Or.inl rfl
    · cases h.writing with
      | none => exact Or.inl rfl
      | some w => exact Or.inr rfl
  have hset2 : ∀ st w, (settle h st).writing = some w → h.writing = some w := by
    intro st w hw
    unfold settle at hw
    split at hw
    · exact hw
    · cases hw
  cases e with
  | modify s => cases hs; exact ⟨Or.inl rfl, fun w hw => Or.inl hw⟩
  | request now =>
    simp only [hstep, Option.map_eq_some_iff] at hs
    obtain ⟨st, -, rfl⟩ := hs
    exact ⟨Or.inl rfl, fun w hw => Or.inl hw⟩
  | work now =>
    simp only [hstep, Option.some.injEq] at hs
    split at hs
    · subst hs
      exact ⟨Or.inl rfl, fun w hw => Or.inr (by cases hw; rfl)⟩
    · subst hs
      exact ⟨Or.inl rfl, fun w hw => Or.inl hw⟩
  | isr =>
    simp only [hstep, Option.map_eq_some_iff] at hs
    obtain ⟨st, -, rfl⟩ := hs
    refine ⟨?_, fun w hw => Or.inl (hset2 st w hw)⟩
    rcases hset st with h | h
    · exact Or.inl h
    · exact Or.inr (Or.inl h)
  | progDone =>
    cases hs
    refine ⟨?_, fun w hw => Or.inl (hset2 _ w hw)⟩
    rcases hset (eeProgDone h.st) with h | h
    · exact Or.inl h
    · exact Or.inr (Or.inl h)
  | crash v =>
    simp only [hstep, Option.map_eq_some_iff] at hs
    obtain ⟨st, -, rfl⟩ := hs
    exact ⟨Or.inr (Or.inr rfl), fun w hw => by cases hw⟩

private theorem ghost_existed {calm : Bool} {c : Conf} (es : List SEv) : ∀ {h h' : Hist},
    runEvs calm c h es = some h' →
    (h'.saved = h.saved ∨ h.writing = some h'.saved ∨ Existed calm c h es h'.saved) ∧
    (∀ w, h'.writing = some w → h.writing = some w ∨ Existed calm c h es w) := by
  induction es with
  | nil => intro h h' hr; cases hr; exact ⟨Or.inl rfl, fun w hw => Or.inl hw⟩
  | cons e es ih =>
    intro h h' hr
    rw [runEvs] at hr
    split at hr
    · next ha =>
      split at hr
      · next h1 hs =>
        obtain ⟨i1, i2⟩ := ih hr
        obtain ⟨g1, g2⟩ := hstep_ghost hs
        have hnow : Existed calm c h (e :: es) h1.st.cache :=
          ⟨1, h1, by simp [runEvs, ha, hs], rfl⟩
        have hlater : ∀ x, Existed calm c h1 es x → Existed calm c h (e :: es) x := by
          rintro x ⟨n, h2, e1, e2⟩
          exact ⟨n + 1, h2, by simp [runEvs, ha, hs, e1], e2⟩
        constructor
        · rcases i1 with i1 | i1 | i1
          · rw [i1]
            rcases g1 with g | g | g
            · exact Or.inl g
            · exact Or.inr (Or.inl g)
            · rw [g]; exact Or.inr (Or.inr hnow)
          · rcases g2 _ i1 with g | g
            · exact Or.inr (Or.inl g)
            · rw [g]; exact Or.inr (Or.inr hnow)
          · exact Or.inr (Or.inr (hlater _ i1))
        · intro w hw
          rcases i2 w hw with i | i
          · rcases g2 _ i with g | g
            · exact Or.inl g
            · rw [g]; exact Or.inr hnow
          · exact Or.inr (hlater _ i)
      · cases hr
    · cases hr

/-- What holds of C29: if the settings are not changed while they are being written, every
    reboot loads settings that existed at some instant. -/
theorem C29_partial (c : Conf) (hc : c.eering = true) : RebootLoadsExisting true c := by
  intro st es h v hb hr hv
  obtain ⟨st', e1, e2⟩ := C25_power_failure c hc h (runEvs_reachable es (.boot hb) hr) v hv
  obtain ⟨g1, g2⟩ := ghost_existed es hr
  refine ⟨st', e1, ?_⟩
  have tr : ∀ {a b : Settings}, SameVals a b → ∀ {es}, Existed true c
      { st, saved := st.cache, writing := none } es b → Existed true c
      { st, saved := st.cache, writing := none } es a := by
    rintro a b hab es ⟨n, h1, x, y⟩
    exact ⟨n, h1, x, hab.trans y⟩
  rcases e2 with e2 | ⟨w, hw, e2⟩
  · refine tr e2 ?_
    rcases g1 with g | g | g
    · rw [g]; exact ⟨0, _, rfl, rfl⟩
    · cases g
    · exact g
  · refine tr e2 ?_
    rcases g2 w hw with g | g
    · cases g
    · exact g

/-- The events of a store being written, as far as the hardware gets in `n` steps. -/
def drive (c : Conf) : Nat → Hist → List SEv
  | 0, _ => []
  | n + 1, h =>
    if h.st.prog.isSome then .progDone :: drive c n (settle h (eeProgDone h.st))
    else if eeReady h.st then
      match eeIsr c h.st with
      | some st => .isr :: drive c n (settle h st)
      | none => []
    else []

/-- the settings with preset 0 at 307 °C (19648), resp. 308 °C (19712) -/
def witness (w : Int) (s : Settings) : Settings := { s with sp := s.sp.set 0 w }

/-- 307 °C, request, start of the store, 40 bytes written; then 308 °C; rest of the store -/
def tornEvents (c : Conf) (h : Hist) : List SEv :=
  let a : List SEv := [.modify (witness 19648 h.st.cache), .request 0, .work 1000]
  match runEvs false c h a with
  | none => []
  | some h1 =>
    let b := drive c 55 h1
    match runEvs false c h1 b with
    | none => []
    | some h2 =>
      let d : List SEv := [.modify (witness 19712 h2.st.cache)]
      match runEvs false c h2 d with
      | none => []
      | some h3 => a ++ b ++ d ++ drive c 300 h3

/-- the first boot -/
def bootHist : Option Hist := (settingsInit Conf.m88p (shippedEeprom Conf.m88p)).map fun st =>
  { st, saved := st.cache, writing := none }

/-- no power failure, and preset 0 is never set to `x` -/
private def Clean (x : Int) : SEv → Bool
  | .modify s => s.sp[0] != x
  | .crash _ => false
  | _ => true

private theorem clean_step {x : Int} {c : Conf} {h h' : Hist} {e : SEv} (hc : Clean x e = true)
    (hx : h.st.cache.sp[0] ≠ x) (hs : hstep c h e = some h') : h'.st.cache.sp[0] ≠ x := by
  have hset : ∀ st, (settle h st).st = st := by
    intro st; unfold settle; split <;> rfl
  cases e with
  | modify s =>
    cases hs
    simpa [Clean] using hc
  | request now =>
    simp only [hstep, storeSettings, Option.map_eq_some_iff, Option.bind_eq_bind,
      Option.bind_eq_some_iff, pure, Option.some.injEq] at hs
    obtain ⟨st, ⟨t, -, rfl⟩, rfl⟩ := hs
    exact hx
  | work now =>
    have hw : (settingsWork c now h.st).1.cache.sp = h.st.cache.sp := by
      unfold settingsWork
      split
      · rfl
      · split
        · rfl
        · simp only []
          split <;> rfl
    simp only [hstep, Option.some.injEq] at hs
    split at hs <;> subst hs <;> simp only [hw] <;> exact hx
  | isr =>
    simp only [hstep, Option.map_eq_some_iff] at hs
    obtain ⟨st, h1, rfl⟩ := hs
    rw [hset]
    have : st.cache = h.st.cache := by
      simp only [eeIsr, Option.bind_eq_bind, Option.bind_eq_some_iff] at h1
      obtain ⟨d, -, h1⟩ := h1
      generalize (if c.eering = true then h.st.eeIndex else 0) = i at h1
      split at h1
      · simp only [pure, Option.some.injEq] at h1
        subst h1
        simp only []
        split <;> rfl
      · cases h1
    rw [this]; exact hx
  | progDone =>
    cases hs
    rw [hset]
    have : (eeProgDone h.st).cache = h.st.cache := by
      unfold eeProgDone; split <;> rfl
    rw [this]; exact hx
  | crash v => cases hc

private theorem clean_run {x : Int} {c : Conf} (es : List SEv) : ∀ {h h' : Hist},
    es.all (Clean x) = true → h.st.cache.sp[0] ≠ x → runEvs false c h es = some h' →
    h'.st.cache.sp[0] ≠ x := by
  induction es with
  | nil => intro h h' _ hx hr; cases hr; exact hx
  | cons e es ih =>
    intro h h' hc hx hr
    simp only [List.all_cons, Bool.and_eq_true] at hc
    rw [runEvs] at hr
    split at hr
    · split at hr
      · next h1 hs => exact ih hc.2 (clean_step hc.1 hx hs) hr
      · cases hr
    · cases hr

set_option maxRecDepth 100000 in
/-- the whole run, evaluated: after the reboot preset 0 is 19904 (311 °C) -/
private theorem torn_run : (do
    let h ← bootHist
    let h2 ← runEvs false Conf.m88p h (tornEvents Conf.m88p h)
    let st ← settingsInit Conf.m88p (powerFail h2.st 0)
    return (st.cache.sp[0], h.st.cache.sp[0],
      (tornEvents Conf.m88p h).all (Clean 19904))) = some (19904, 19520, true) := by decide

/-- The full claim of C29 is false for the shipped configuration: preset 0 is changed from 307
    to 308 °C while the store of 307 °C is being written; the reboot then finds 311 °C, which the
    setting never was. -/
theorem C29_false : ¬ RebootLoadsExisting false Conf.m88p := by
  intro hall
  have hrun := torn_run
  unfold bootHist at hrun
  simp only [Option.bind_eq_bind, Option.bind_eq_some_iff, Option.map_eq_some_iff, pure,
    Option.some.injEq, Prod.mk.injEq] at hrun
  obtain ⟨h, ⟨st, hb, rfl⟩, h2, hr, st', hi, r1, r2, r3⟩ := hrun
  obtain ⟨st'', hi', n, h1, hp, hs⟩ := hall st _ h2 0 hb hr (by omega)
  rw [hi] at hi'
  cases hi'
  have hc : ((tornEvents Conf.m88p { st, saved := st.cache, writing := none }).take n).all
      (Clean 19904) = true := by
    rw [List.all_eq_true] at r3 ⊢
    exact fun e he => r3 e (List.mem_of_mem_take he)
  have := clean_run _ hc (by rw [r2]; decide) hp
  have hsp := congrArg Settings.sp hs
  simp only at hsp
  rw [← hsp, r1] at this
  exact this rfl

set_option maxRecDepth 100000 in
/-- A non-trivial reachable state for C25 and C26: a store of 307 °C, finished. -/
example : (do
    let h ← bootHist
    let h1 ← runEvs true Conf.m88p h [.modify (witness 19648 h.st.cache), .request 0, .work 1000]
    let h2 ← runEvs true Conf.m88p h1 (drive Conf.m88p 300 h1)
    return (storing h1.st, storing h2.st, h2.saved.sp[0], h2.st.eeIndex)) =
      some (true, false, 19648, 1) := by decide

set_option maxRecDepth 100000 in
/-- and in the middle of it: the serial number is being programmed -/
example : (do
    let h ← bootHist
    let h1 ← runEvs true Conf.m88p h [.modify (witness 19648 h.st.cache), .request 0, .work 1000]
    let h2 ← runEvs true Conf.m88p h1 (drive Conf.m88p 89 h1)
    let st ← settingsInit Conf.m88p (powerFail h2.st 1)
    let st' ← settingsInit Conf.m88p (powerFail h2.st 2)
    return (h2.st.prog, st.cache.sp[0], st'.cache.sp[0])) =
      some (some (127, 1), 19648, 19520) := by decide

end Verif.Props
