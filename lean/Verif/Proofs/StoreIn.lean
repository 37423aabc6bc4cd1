import Verif.Spec.StoreIn
import Verif.Proofs.SetIn
import Verif.Props.Lasting
/-
The storing of the settings in real time, with interrupts inside the work functions: invariants.
-/
namespace Verif
open Spec Props

variable {v : Speed} {c : Conf}

theorem PInv.left {st : SettingsSt} {j κ : Nat} (hi : PInv c st j κ) (hst : storing st = true) : 1 ≤ storeLeft st := by
  obtain ⟨-, -, hoff, hie, -⟩ := hi.busy hst
  unfold storeLeft
  simp only [storing, Bool.or_eq_true] at hst
  rcases hst with h | h
  · have := hie.mp h
    omega
  · obtain ⟨p, hp⟩ := Option.isSome_iff_exists.mp h
    rw [hp]
    show 1 ≤ _ + 1
    omega

theorem storing_busy {x : LoopI} (hst : storing x.s.set = true) : WriterBusy x := by
  unfold WriterBusy possible eeReady
  simp only [storing, Bool.or_eq_true] at hst
  cases hp : x.s.set.prog with
  | none => rw [hp] at hst; left; simpa using hst
  | some x => right; rfl

theorem busy_storing {s : Sys} {e : Ev} (he : e = .eeIsr ∨ e = .eeDone) (hp : possible s e = true) : storing s.set = true := by
  rcases he with rfl | rfl
  · simp only [possible, eeReady, Bool.and_eq_true] at hp
    simp [storing, hp.1]
  · have hp : s.set.prog.isSome = true := hp
    simp [storing, hp]

/-- a step of the writer -/
theorem PInv.write {s s' : Sys} {e : Ev} {j κ : Nat} (hi : PInv c s.set j κ) (he : e = .eeIsr ∨ e = .eeDone)
    (hp : possible s e = true) (hs : step c s e = some s') :
    (∃ j κ, PInv c s'.set j κ) ∧ storeLeft s'.set < storeLeft s.set ∧ s'.set.storeRequest = s.set.storeRequest ∧
    s'.set.storeTimer = s.set.storeTimer ∧ s'.set.cache = s.set.cache := by
  have hst := busy_storing he hp
  obtain ⟨hlt, -, hoff, hie, -⟩ := hi.busy hst
  rcases he with rfl | rfl
  · obtain ⟨x, ex, hs⟩ := Option.bind_eq_some_iff.mp hs
    cases hs
    refine ⟨hi.isr hp ex, ?_⟩
    simp only [possible, eeReady, Bool.and_eq_true, Option.isNone_iff_eq_none] at hp
    have ho := hie.mp hp.1
    rw [eeIsr_eq ho hlt] at ex
    have ex := (Option.some.inj ex).symm
    subst ex
    refine ⟨?_, rfl, rfl, rfl⟩
    unfold storeLeft
    simp only [hp.2]
    split
    · show 2 * (64 - (s.set.eeOff + 1)) + 0 < 2 * (64 - s.set.eeOff) + 0; omega
    · show 2 * (64 - (s.set.eeOff + 1)) + 1 < 2 * (64 - s.set.eeOff) + 0; omega
  · cases hs
    refine ⟨hi.done hp, ?_⟩
    obtain ⟨⟨a, d⟩, hq⟩ := Option.isSome_iff_exists.mp (show s.set.prog.isSome = true from hp)
    have : eeProgDone s.set =
        { s.set with eeprom := fun x => if x = a then d else s.set.eeprom x, prog := none } := by
      simp only [eeProgDone, hq]
    show storeLeft (eeProgDone s.set) < _ ∧ (eeProgDone s.set).storeRequest = _ ∧ (eeProgDone s.set).storeTimer = _ ∧
      (eeProgDone s.set).cache = _
    rw [this]
    unfold storeLeft
    rw [hq]
    refine ⟨?_, rfl, rfl, rfl⟩
    show 2 * (64 - s.set.eeOff) + 0 < 2 * (64 - s.set.eeOff) + 1
    omega

/-- `settings_work` does nothing, or starts a store -/
theorem settingsWork_cases (now : Int) (st : SettingsSt) :
    ((settingsWork c now st).1 = st ∧ ¬ (st.storeRequest = true ∧ timerExpired now st.storeTimer = true)) ∨
    (st.storeRequest = true ∧ timerExpired now st.storeTimer = true ∧ (settingsWork c now st).1.storeRequest = false ∧
      (settingsWork c now st).1.prog = st.prog ∧ (settingsWork c now st).1.eeOff = 0 ∧
      SameVals st.cache (settingsWork c now st).1.cache) := by
  unfold settingsWork
  by_cases h1 : st.storeRequest = true
  · by_cases h2 : timerExpired now st.storeTimer = true
    · right
      simp only [h1, h2, Bool.not_true, Bool.false_eq_true, if_false]
      split <;> exact ⟨trivial, trivial, rfl, rfl, trivial, rfl⟩
    · left
      simp only [h1, h2, Bool.not_true, Bool.not_false, Bool.false_eq_true, if_false, if_true]
      exact ⟨trivial, fun h => by cases h.2⟩
  · left
    simp only [h1, Bool.not_false, if_true]
    exact ⟨trivial, fun h => by cases h.1⟩

/-- the requests and stores of the main loop: `r` is the latest pending request, `S` the start of the latest store, `L`
    the latest step of the writer -/
structure StoreI (v : Speed) (c : Conf) (x : LoopI) (L : Nat) (r : Option Nat) (S : Nat) : Prop where
  inv : LoopIInv v c x
  pinv : ∃ j κ, PInv c x.s.set j κ
  req : x.s.set.storeRequest = r.isSome
  timer : ∀ R, r = some R → x.s.set.storeTimer = nowAt (R + 1000) ∧ S ≤ R ∧ R ≤ x.T ∧ BehindI v .settings x (R + 1000)
  past : S ≤ x.T
  busy : storing x.s.set = true → L + v.B * storeLeft x.s.set ≤ S + 128 * v.B

theorem StoreI.boot {ee : Nat → Nat} {pinb : BitVec 8} {s : Sys} (hv : ValidEeprom c ee) (e : Verif.boot c ee pinb = some s)
    (hp : ∃ j κ, PInv c s.set j κ) : StoreI v c ⟨s, .reset, 0, 0, 0, 0, 0⟩ 0 none 0 := by
  have hst : settingsInit c ee = some s.set := boot_set hv e
  have h2 : storing s.set = false ∧ s.set.storeRequest = false := by
    unfold settingsInit at hst
    obtain ⟨x, -, hst⟩ := Option.bind_eq_some_iff.mp hst
    rw [← Option.some.inj hst]
    exact ⟨rfl, rfl⟩
  exact ⟨LoopIInv.boot hv e, hp, h2.2, fun R h => (by cases h), Nat.le_refl _, fun hh => by
    have hh : storing s.set = true := hh
    rw [h2.1] at hh; cases hh⟩

theorem StoreI.ends {x : LoopI} {L S : Nat} {r : Option Nat} (h : StoreI v c x L r S) (hst : storing x.s.set = true)
    (hu : WriterBusy x → x.T ≤ L + v.B) : x.T ≤ S + 128 * v.B := by
  have h1 := h.busy hst
  have h2 := hu (storing_busy hst)
  obtain ⟨j, κ, hi⟩ := h.pinv
  have h3 := Nat.mul_le_mul_left v.B (hi.left hst)
  omega

theorem StoreI.late {x : LoopI} {L S R : Nat} {r : Option Nat} (h : StoreI v c x L r S) (hR : r = some R) :
    x.reset ≤ R + 1000 + v.W ∧ x.T ≤ R + 1000 + 2 * v.W := by
  have := h.inv.dog
  have := (h.timer R hR).2.2.2.le
  omega

/-- what the step records -/
structure StoreNext (v : Speed) (x y : LoopI) (e : Option Ev) (r : Option Nat) (S : Nat) (r' : Option Nat) (S' : Nat) : Prop where
  old : ∀ R, r' = some R → r = some R ∨ (RequestsI x e y ∧ x.T ≤ R)
  new : RequestsI x e y → ∃ R, r' = some R ∧ x.T ≤ R
  start : StartsStore x.s y.s → S' = y.T ∧ storing x.s.set = false ∧
    ∃ R, r = some R ∧ R + 1000 ≤ S' ∧ S' ≤ R + 1000 + 2 * v.W
  keep : ¬ StartsStore x.s y.s → S' = S

theorem same_vals (x : Settings) : SameVals x x := rfl

theorem workT_settings {s s' : Sys} {T : Nat} {g : List Nat} (h : s.now = nowAt T)
    (hw : workT c s .settingsWork g = some (s', [])) : s'.set = (settingsWork c (nowAt (T + g.sum)) s.set).1 := by
  have fin : SimT (workT c s .settingsWork) T fun T' s' => s'.set = (settingsWork c (nowAt T') s.set).1 := by
    refine SimT.bind (SimT.tick h) fun T1 s1 _ h1 => SimT.lift fun s2 e2 => ?_
    subst h1
    cases e2
    rfl
  obtain ⟨T', -, k2, k3⟩ := fin _ _ _ hw
  have k2 : T' = T + g.sum := by simpa using k2
  subst k2
  exact k3

/-- what a step does to the settings -/
theorem LoopIStep.set {x y : LoopI} {e : Option Ev} (hn : x.s.now = nowAt x.T) (hs : LoopIStep c x e y) :
    (∃ f, e = some f ∧ (f = .eeIsr ∨ f = .eeDone) ∧ possible x.s f = true ∧ step c x.s f = some y.s ∧ y.T = x.T ∧
      y.reset = x.reset ∧ y.pc = x.pc) ∨
    (e = some .settingsWork ∧ y.s.set = (settingsWork c (nowAt y.T) x.s.set).1 ∧ y.reset = x.reset) ∨
    (¬ CallsI .settings x e y ∧ e ≠ some .eeIsr ∧ e ≠ some .eeDone ∧ (y.s.set = x.s.set ∨ ∃ z t, x.T ≤ t ∧ t ≤ y.T ∧
      Keeps x.s.set.cache z ∧ y.s.set = requested (nowAt t) { x.s.set with cache := z })) := by
  have nc : ∀ {f : Ev}, f ≠ .settingsWork → ¬ CallsI .settings x (some f) y := by
    rintro f hf ⟨f', pinb, k1, k2⟩
    cases k1
    cases k2
    exact hf rfl
  have nn : ¬ CallsI .settings x none y := by
    rintro ⟨f', pinb, k1, k2⟩
    cases k1
  cases hs with
  | reset => exact Or.inr (Or.inr ⟨nn, by simp, by simp, Or.inl rfl⟩)
  | pass => exact Or.inr (Or.inr ⟨nn, by simp, by simp, Or.inl rfl⟩)
  | tick _ hs =>
    cases hs
    exact Or.inr (Or.inr ⟨nc (by simp), by simp, by simp, Or.inl rfl⟩)
  | adc => exact Or.inr (Or.inr ⟨nc (by simp), by simp, by simp, Or.inl rfl⟩)
  | ee he hp hs => exact Or.inl ⟨_, rfl, he, hp, hs, rfl, rfl, rfl⟩
  | @call f g s' pinb _ hc hw =>
    by_cases hf : f = .settingsWork
    · subst hf
      exact Or.inr (Or.inl ⟨rfl, workT_settings hn hw, rfl⟩)
    · have hwk := call_work hc
      exact Or.inr (Or.inr ⟨nc hf, (by rintro h; cases h; cases hwk), (by rintro h; cases h; cases hwk),
        workT_set hn hw hf⟩)

theorem LoopIStep.reset_le {x y : LoopI} {e : Option Ev} (hr : x.reset ≤ x.T) (hs : LoopIStep c x e y) : y.reset ≤ x.T := by
  cases hs <;> first | exact hr | exact Nat.le_refl _

theorem store_due {R T W : Nat} (hW : W < 8000) (h1 : R ≤ T) (h2 : T ≤ R + 1000 + 2 * W) :
    timerExpired (nowAt T) (nowAt (R + 1000)) = true ↔ R + 1000 ≤ T := by
  unfold timerExpired timerCountSince toU16 toS16 nowAt
  simp only [ge_iff_le, decide_eq_true_eq]
  omega

theorem StoreI.step {x y : LoopI} {e : Option Ev} {r : Option Nat} {L M S : Nat} (hv : v.SaneE) (h : StoreI v c x L r S)
    (hw : WriterStep v c x L e y M) : ∃ r' S', StoreI v c y M r' S' ∧ StoreNext v x y e r S r' S' := by
  obtain ⟨hv, hv2⟩ := hv
  have hW := hv.1
  have hdog := h.inv.dog
  have hres := h.inv.reset
  obtain ⟨j, κ, hp⟩ := h.pinv
  obtain ⟨hs, ht⟩ : LoopIStep c x e y ∧ InTimeI v y := by
    cases hw with
    | writer hs _ ht => exact ⟨hs, ht⟩
    | starts hs ht => exact ⟨hs, ht⟩
    | other hs _ _ ht => exact ⟨hs, ht⟩
  have hinv := h.inv.step hv hs ht
  have hT := hs.time
  have hrl := hs.reset_le (by omega)
  rcases hs.set h.inv.now with ⟨f, rfl, he, hpo, hs', eT, er, ep⟩ | ⟨rfl, hset, er⟩ | ⟨hn, ne1, ne2, hset⟩
  · -- a step of the writer
    obtain ⟨k1, k2, k3, k4, k5⟩ := hp.write he hpo hs'
    have hnost : ¬ StartsStore x.s y.s := by
      rintro ⟨h1, h2⟩
      rw [k3, h1] at h2; cases h2
    have hnoreq : ¬ RequestsI x (some f) y := by
      unfold RequestsI
      rw [k3, k4, k5]
      rintro (hq | ⟨hq, hq' | hq'⟩)
      · exact hq (same_vals _)
      · rw [hq] at hq'; cases hq'
      · exact hq' rfl
    cases hw with
    | starts _ _ _ hh => exact absurd hh hnost
    | other _ n1 n2 =>
      rcases he with rfl | rfl
      · exact absurd rfl n1
      · exact absurd rfl n2
    | writer _ _ _ h1 h2 h3 =>
      refine ⟨r, S, ⟨hinv, k1, by rw [k3]; exact h.req, fun R hR => ?_, by rw [eT]; exact h.past, fun hst => ?_⟩,
        fun R hR => Or.inl hR, fun hq => absurd hq hnoreq, fun hh => absurd hh hnost, fun _ => rfl⟩
      · obtain ⟨t1, t2, t3, t4⟩ := h.timer R hR
        refine ⟨by rw [k4]; exact t1, t2, by omega, ?_⟩
        unfold BehindI at t4 ⊢
        rw [er, ep]
        exact t4
      · have := h.busy (busy_storing he hpo)
        have := Nat.mul_le_mul_left v.B (show storeLeft y.s.set + 1 ≤ storeLeft x.s.set from k2)
        rw [Nat.mul_succ] at this
        omega
  · -- settings_work
    have hlate : ∀ R, r = some R → R ≤ y.T ∧ y.T ≤ R + 1000 + 2 * v.W := fun R hR => by
      have := (h.late hR).1
      have := (h.timer R hR).2.2.1
      have := ht.1
      omega
    rcases settingsWork_cases (c := c) (nowAt y.T) x.s.set with ⟨hsame, hno⟩ | ⟨q1, q2, q3, q4, q5, q6⟩
    · rw [hsame] at hset
      have hnost : ¬ StartsStore x.s y.s := by
        rintro ⟨h1, h2⟩
        rw [hset, h1] at h2; cases h2
      have hnoreq : ¬ RequestsI x (some .settingsWork) y := by
        unfold RequestsI
        rw [hset]
        rintro (hq | ⟨hq, hq' | hq'⟩)
        · exact hq (same_vals _)
        · rw [hq] at hq'; cases hq'
        · exact hq' rfl
      have hM : M = L := by
        cases hw with
        | starts _ _ _ hh => exact absurd hh hnost
        | other => rfl
        | writer _ he => rcases he with he | he <;> cases he
      subst hM
      refine ⟨r, S, ⟨hinv, ⟨j, κ, hset ▸ hp⟩, by rw [hset]; exact h.req, fun R hR => ?_, by have := h.past; omega,
        by rw [hset]; exact h.busy⟩, fun R hR => Or.inl hR, fun hq => absurd hq hnoreq, fun hh => absurd hh hnost, fun _ => rfl⟩
      obtain ⟨t1, t2, t3, t4⟩ := h.timer R hR
      obtain ⟨l1, l2⟩ := hlate R hR
      have : ¬ (R + 1000 ≤ y.T) := fun hh => hno ⟨by rw [h.req, hR]; rfl, by
        rw [t1]; exact (store_due (by omega) l1 l2).mpr hh⟩
      exact ⟨by rw [hset]; exact t1, t2, l1, BehindI.of (by omega)⟩
    · have hst : StartsStore x.s y.s := ⟨q1, by rw [hset]; exact q3⟩
      obtain ⟨R, hR⟩ := Option.isSome_iff_exists.mp (h.req.symm.trans q1)
      obtain ⟨t1, t2, t3, t4⟩ := h.timer R hR
      obtain ⟨l1, l2⟩ := hlate R hR
      rw [t1] at q2
      have hdue := (store_due (by omega) l1 l2).mp q2
      have hnoreq : ¬ RequestsI x (some .settingsWork) y := by
        unfold RequestsI
        rintro (hq | ⟨hq, -⟩)
        · rw [hset] at hq; exact hq q6
        · rw [hset, q3] at hq; cases hq
      cases hw with
      | other _ _ _ _ _ hh => exact absurd hst hh
      | writer _ he => rcases he with he | he <;> cases he
      | starts _ _ hu _ =>
        have hno : storing x.s.set = false := by
          cases hq : storing x.s.set with
          | false => rfl
          | true =>
            have h1 := h.ends hq hu
            have := ht.1
            omega
        have hprog : x.s.set.prog = none := by
          simp only [storing, Bool.or_eq_false_iff] at hno
          cases hq : x.s.set.prog with
          | none => rfl
          | some p => rw [hq] at hno; cases hno.2
        refine ⟨none, y.T, ⟨hinv, ⟨j, κ, ?_⟩, ?_, fun R hR => (by cases hR), Nat.le_refl _, fun _ => ?_⟩,
          fun R hR => (by cases hR), fun hq => absurd hq hnoreq, fun _ => ⟨rfl, hno, R, hR, hdue, l2⟩, fun hh => absurd hst hh⟩
        · rw [hset]
          exact hp.work _ fun _ _ => hno
        · rw [hset]; exact q3
        · unfold storeLeft
          rw [hset, q4, q5, hprog]
          show y.T + v.B * 128 ≤ _
          omega
  · -- anything else
    have ht1 := ht.1
    have hnost : ¬ StartsStore x.s y.s := by
      rintro ⟨h1, h2⟩
      rcases hset with hset | ⟨z, t, -, -, -, hset⟩
      · rw [hset, h1] at h2; cases h2
      · rw [hset] at h2; cases h2
    have hM : M = L := by
      cases hw with
      | starts _ _ _ hh => exact absurd hh hnost
      | other => rfl
      | writer _ he =>
        rcases he with rfl | rfl
        · exact absurd rfl ne1
        · exact absurd rfl ne2
    subst hM
    have hbusy : storing y.s.set = true → M + v.B * storeLeft y.s.set ≤ S + 128 * v.B := by
      have : storing y.s.set = storing x.s.set ∧ storeLeft y.s.set = storeLeft x.s.set := by
        rcases hset with hset | ⟨z, t, -, -, -, hset⟩ <;> rw [hset] <;> exact ⟨rfl, rfl⟩
      rw [this.1, this.2]
      exact h.busy
    have hpinv : ∃ j κ, PInv c y.s.set j κ := by
      refine ⟨j, κ, ?_⟩
      rcases hset with hset | ⟨z, t, -, -, hk, hset⟩
      · rw [hset]; exact hp
      · rw [hset]
        refine hp.request _ hk.serial (hk.wf (c := c) hp.wf ?_)
        have := hinv.inv.set.lim
        rw [hset] at this
        exact this
    have keep : ∀ R, r = some R → y.s.set.storeTimer = x.s.set.storeTimer → y.s.set.storeTimer = nowAt (R + 1000) ∧ S ≤ R ∧
        R ≤ y.T ∧ BehindI v .settings y (R + 1000) := fun R hR heq => by
      obtain ⟨h1, h2, h3, h4⟩ := h.timer R hR
      exact ⟨heq.trans h1, h2, by omega, h4.step (by decide) hdog hs hn⟩
    by_cases hq : RequestsI x e y
    · rcases hset with hset | ⟨z, t, l1, l2, hk, hset⟩
      · exfalso
        unfold RequestsI at hq
        rw [hset] at hq
        rcases hq with hq | ⟨hq, hq' | hq'⟩
        · exact hq (same_vals _)
        · rw [hq] at hq'; cases hq'
        · exact hq' rfl
      · have hp0 := h.past
        refine ⟨some t, S, ⟨hinv, hpinv, by rw [hset]; rfl, fun R hR => ?_, by omega, hbusy⟩,
          fun R hR => ?_, fun _ => ⟨t, rfl, l1⟩, fun hh => absurd hh hnost, fun _ => rfl⟩
        · cases hR
          refine ⟨?_, by omega, l2, BehindI.of (by omega)⟩
          rw [hset]
          show toU16 (nowAt t + toU16 1000) = nowAt (t + 1000)
          unfold toU16 nowAt
          omega
        · cases hR
          exact Or.inr ⟨hq, l1⟩
    · have hsame : y.s.set.storeRequest = x.s.set.storeRequest ∧ y.s.set.storeTimer = x.s.set.storeTimer := by
        rcases hset with hset | ⟨z, t, l1, l2, hk, hset⟩
        · rw [hset]; exact ⟨rfl, rfl⟩
        · have h1 : y.s.set.storeRequest = true := by rw [hset]; rfl
          have h2 : ¬ (x.s.set.storeRequest = false ∨ y.s.set.storeTimer ≠ x.s.set.storeTimer) :=
            fun hh => hq (Or.inr ⟨h1, hh⟩)
          rw [not_or] at h2
          exact ⟨by rw [h1]; exact (eq_true_of_ne_false h2.1).symm, not_not.mp h2.2⟩
      refine ⟨r, S, ⟨hinv, hpinv, by rw [hsame.1]; exact h.req, fun R hR => keep R hR hsame.2, by have := h.past; omega, hbusy⟩,
        fun R hR => Or.inl hR, fun hh => absurd hh hq, fun hh => absurd hh hnost, fun _ => rfl⟩

theorem Spec.LifeI.inv {x : LoopI} {L : Nat} (hv : v.SaneE) (h : LifeI v c x L) : ∃ r S, StoreI v c x L r S := by
  induction h with
  | @first pinb s e => exact ⟨none, 0, StoreI.boot (shipped_valid c) e (lasting_inv (Lasting.first e)).2⟩
  | step _ hs ih =>
    obtain ⟨r, S, h⟩ := ih
    obtain ⟨r', S', h, -⟩ := h.step hv hs
    exact ⟨r', S', h⟩
  | @reboot x L b pinb s _ hb hvalid e ih =>
    obtain ⟨r, S, h⟩ := ih
    obtain ⟨j, κ, hp⟩ := h.pinv
    exact ⟨none, 0, StoreI.boot hvalid e (hp.reboot hb (boot_set hvalid e))⟩

/-- a stretch in which nothing is requested -/
theorem Spec.StretchE.pend {x y : LoopI} {L M S : Nat} {r : Option Nat} (hv : v.SaneE) (hx : StoreI v c x L r S)
    (h : StretchE v c RequestsI x L y M) : ∃ r' S', StoreI v c y M r' S' ∧ (∀ R, r' = some R → r = some R) ∧
      (S' = S ∨ ∃ R, r = some R ∧ S' ≤ R + 1000 + 2 * v.W) := by
  induction h with
  | start => exact ⟨r, S, hx, fun R hR => hR, Or.inl rfl⟩
  | @step y M e z N _ hs hn ih =>
    obtain ⟨r1, S1, h1, h2, h3⟩ := ih
    obtain ⟨r', S', h, hnx⟩ := h1.step hv hs
    refine ⟨r', S', h, fun R hR => ?_, ?_⟩
    · rcases hnx.old R hR with h | ⟨h, -⟩
      · exact h2 R h
      · exact absurd h hn
    · by_cases hst : StartsStore y.s z.s
      · obtain ⟨-, -, R, k1, -, k3⟩ := hnx.start hst
        exact Or.inr ⟨R, h2 R k1, k3⟩
      · rw [hnx.keep hst]; exact h3

/-- with nothing pending or in progress, switching off and on gives the settings back -/
theorem PInv.kept {s : Sys} {j κ : Nat} (hinv : Inv c s) (hi : PInv c s.set j κ) (pinb : BitVec 8)
    (hr : s.set.storeRequest = false) (hs : storing s.set = false) :
    ∃ s', boot c s.set.eeprom pinb = some s' ∧ s'.set.cache = s.set.cache := by
  have hslot := (hi.idle hs).2.2 hr
  have key : ∀ st, settingsInit c s.set.eeprom = some st → st.cache = s.set.cache := by
    intro st e
    obtain ⟨k1, k2, k3⟩ := PInv.init hi.byte hi.slot hi.ring e
    have he : st.eeprom = s.set.eeprom := by
      unfold settingsInit at e
      obtain ⟨x, -, e⟩ := Option.bind_eq_some_iff.mp e
      cases e
      rfl
    rw [← ofBytes_img k1.wf, ← ofBytes_img hi.wf]
    refine ofBytes_congr fun o ho => ?_
    rw [← (k1.idle k2).2.2 k3 o ho, ← hslot o ho, he]
  have hv : ValidEeprom c s.set.eeprom := by
    intro st e
    rw [key st e]
    exact hinv.set.lim
  obtain ⟨s', e, -⟩ := boot_ok (pinb := pinb) hv
  exact ⟨s', e, key _ (boot_set hv e)⟩

end Verif
