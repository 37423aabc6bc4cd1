import Verif.Spec.LoopIn
import Verif.Proofs.InsideCall
import Verif.Proofs.InsideKeep
import Verif.Proofs.Loop
/-
Invariants of the main loop in real time, with interrupts inside the work functions.
-/
namespace Verif
open Spec Props

variable {v : Speed} {c : Conf}

/-- a call with ticks inside in terms of a call at one instant -/
theorem work_at {s s' : Sys} {e : Ev} {g : List Nat} (hi : Inv c s) (he : IsWork e = true) (hg : g.sum < 1000)
    (h : workT c s e g = some (s', [])) : ∃ t t', Inv c t ∧ Inv c s' ∧ SameBut g.sum s t ∧ t.now = s.now ∧
      step c t e = some t' ∧ SameBut g.sum s' t' ∧ Inv c t' ∧ s'.now = toU16 (s.now + g.sum) := by
  obtain ⟨_, _, _, -, -, -, -, hs'⟩ := work_call hi he hg h
  obtain ⟨t, h1, h2, h3⟩ := work_atOnce c s e g (work_cases he) hg
  rcases h3 with ⟨h3, -⟩ | ⟨s1, g1, t', e1, e2, e3, -, e5⟩
  · rw [h] at h3; cases h3
  · rw [h] at e1; cases e1
    have it : Inv c t := by
      rw [h2.rest]
      exact inv_times hi _ (by show 0 ≤ t.now ∧ t.now ≤ 65535; rw [h1]; exact hi.now)
    have hp : possible t e = true := by rcases work_cases he with rfl | rfl | ⟨p, rfl⟩ | rfl | rfl <;> rfl
    obtain ⟨k, hk, hk'⟩ := e5 hi.now
    have hk : k = g.sum := by simpa using hk
    exact ⟨t, t', it, hs', h2, h1, e2, e3, (it.step hp).elim e2, by rw [hk', hk]⟩

/-- nothing but the times differs -/
theorem Spec.SameBut.same {n : Nat} {s t : Sys} (h : SameBut n s t) :
    t.meas.resultAvail = s.meas.resultAvail ∧ t.meas.adcOn = s.meas.adcOn ∧ t.meas.active = s.meas.active ∧
    t.meas.avgSum = s.meas.avgSum ∧ t.meas.avgCount = s.meas.avgCount ∧ t.set.cache = s.set.cache ∧ t.cc.emerg = s.cc.emerg ∧
    t.ct.emergency = s.ct.emergency ∧ t.ct.enabled = s.ct.enabled ∧ t.menu.state = s.menu.state ∧ t.ocr = s.ocr :=
  ⟨(congrArg (·.meas.resultAvail) h.rest :), (congrArg (·.meas.adcOn) h.rest :), (congrArg (·.meas.active) h.rest :),
    (congrArg (·.meas.avgSum) h.rest :), (congrArg (·.meas.avgCount) h.rest :), (congrArg (·.set.cache) h.rest :),
    (congrArg (·.cc.emerg) h.rest :), (congrArg (·.ct.emergency) h.rest :), (congrArg (·.ct.enabled) h.rest :),
    (congrArg (·.menu.state) h.rest :), (congrArg (·.ocr) h.rest :)⟩

/-- the latest time at which the statement `p` is executed -/
def callByI (v : Speed) (p : Pc) (x : LoopI) : Nat :=
  if 1 ≤ x.pc.idx ∧ x.pc.idx ≤ p.idx then x.reset + v.W else x.reset + 2 * v.W

theorem callByI_le (p : Pc) (x : LoopI) : callByI v p x ≤ x.reset + 2 * v.W := by
  unfold callByI; split <;> omega

theorem le_callByI (p : Pc) (x : LoopI) : x.reset + v.W ≤ callByI v p x := by
  unfold callByI; split <;> omega

theorem callByI_step {x y : LoopI} {e : Option Ev} {p : Pc} (hp : p ≠ .reset) (hx : x.T ≤ x.reset + v.W)
    (h : LoopIStep c x e y) (hn : ¬ CallsI p x e y) : callByI v p y ≤ callByI v p x := by
  cases h with
  | reset _ h =>
    unfold callByI
    simp only [h]
    rw [if_pos (by cases p <;> first | exact absurd rfl hp | decide), if_neg (by rintro ⟨h, -⟩; exact absurd h (by decide))]
    omega
  | tick | ee | adc | pass => exact Nat.le_refl _
  | @call e g s' pinb _ h1 h2 =>
    have hne : x.pc ≠ p := fun hh => hn ⟨e, pinb, rfl, hh ▸ h1⟩
    unfold callByI
    show (if 1 ≤ x.pc.next.idx ∧ x.pc.next.idx ≤ p.idx then x.reset + v.W else x.reset + 2 * v.W) ≤ _
    have hr : x.pc ≠ .reset := fun hh => by rw [hh] at h1; cases h1
    generalize x.pc = q at hne hr
    cases q <;> cases p <;> first
      | exact absurd rfl hr
      | exact absurd rfl hne
      | exact absurd rfl hp
      | exact Nat.le_refl _

theorem LoopIStep.time {x y : LoopI} {e : Option Ev} (h : LoopIStep c x e y) : x.T ≤ y.T := by
  cases h with
  | reset | ee | adc | pass => exact Nat.le_refl _
  | tick => exact Nat.le_succ _
  | call => exact Nat.le_add_right ..

theorem Spec.StretchI.time {P : LoopI → Option Ev → LoopI → Prop} {x y : LoopI} (h : StretchI v c P x y) : x.T ≤ y.T := by
  induction h with
  | start => exact Nat.le_refl _
  | step _ h _ _ ih => exact Nat.le_trans ih h.time

theorem Spec.StretchI.run {P : LoopI → Option Ev → LoopI → Prop} {x y : LoopI} (hx : LoopIRun v c x)
    (h : StretchI v c P x y) : LoopIRun v c y := by
  induction h with
  | start => exact hx
  | step _ h ht _ ih => exact ih.step h ht

theorem call_work {p : Pc} {pinb : BitVec 8} {e : Ev} (h : p.call pinb = some e) : IsWork e = true := by
  cases p <;> cases h <;> rfl

/-- what holds in every state of the main loop -/
structure LoopIInv (v : Speed) (c : Conf) (x : LoopI) : Prop where
  inv : Inv c x.s
  now : x.s.now = (x.T % 65536 : Nat)
  reset : x.reset ≤ x.D ∧ x.D ≤ x.T
  dog : x.T ≤ x.reset + v.W
  win : ∃ k : Nat, k ≤ 2 * v.W ∧ (x.s.meas.avgTimer + k - (x.sel + avgTime x.s.meas.active : Nat)) % 65536 = 0
  conv : x.sel ≤ x.conv ∧ x.conv ≤ x.D
  adc : x.s.meas.adcOn = !x.s.meas.resultAvail
  on : x.s.meas.adcOn = true → x.conv < x.sel + avgTime x.s.meas.active ∧ x.D ≤ x.conv + v.A
  ready : x.s.meas.resultAvail = true → callByI v .measure x < x.sel + avgTime x.s.meas.active + v.A + 2 * v.W

theorem LoopIInv.boot {ee : Nat → Nat} {pinb : BitVec 8} {s : Sys} (hv : ValidEeprom c ee) (e : boot c ee pinb = some s) :
    LoopIInv v c ⟨s, .reset, 0, 0, 0, 0, 0⟩ := by
  have hi : Inv c s := ((boot_ok hv).elim e).1
  have hw := window_inv (Window.boot hv e)
  obtain ⟨-, st, -, b, t, hb, ⟨-, ht⟩, rfl⟩ := (boot_ok hv).elim e
  have h0 : b.meas.resultAvail = false := hb.avail
  exact {
    inv := hi
    now := hb.now
    reset := ⟨Nat.le_refl _, Nat.le_refl _⟩
    dog := Nat.zero_le _
    win := ⟨0, Nat.zero_le _, by
      rw [hw.2.2.1]
      unfold nowAt
      show (((0 + avgTime 1) % 65536 : Nat) + ((0 : Nat) : Int) - (0 + avgTime 1 : Nat)) % 65536 = 0
      omega⟩
    conv := ⟨Nat.le_refl _, Nat.le_refl _⟩
    adc := (by show true = !b.meas.resultAvail; rw [h0]; rfl)
    on := fun _ => ⟨by have := avgTime_pos 1; show 0 < 0 + avgTime 1; omega, Nat.zero_le _⟩
    ready := fun hh => (by
      have hh : b.meas.resultAvail = true := hh
      rw [h0] at hh; cases hh) }

theorem work_none {s s' : Sys} {g g' : List Nat} (hav : s.meas.resultAvail = false)
    (h : workT c s .measureWork g = some (s', g')) : s' = s ∧ g' = g := by
  have hm : ({ s.meas with resultAvail := false } : Meas) = s.meas := by rw [← hav]
  have h : measureWorkT c s g = some (s', g') := h
  unfold measureWorkT at h
  simp only [hav, hm, Bool.false_eq_true, if_false] at h
  cases h
  exact ⟨rfl, rfl⟩

theorem LoopIInv.step {x y : LoopI} {e : Option Ev} (hv : v.SaneI) (h : LoopIInv v c x)
    (hs : LoopIStep c x e y) (ht : InTimeI v y) : LoopIInv v c y := by
  have hd := ht.1
  have hW := hv.1
  have hsane : 5 + 50 + 2 * v.A + 4 * v.W ≤ 29000 := hv.2
  obtain ⟨k, hk, hk'⟩ := h.win
  have hcb := callByI_step (v := v) (p := .measure) (by decide) h.dog hs
  cases hs with
  | reset hD hp =>
    exact { h with
      reset := ⟨(by show x.T ≤ x.D; omega), h.reset.2⟩
      dog := hd
      ready := fun hh => Nat.lt_of_le_of_lt (hcb (by rintro ⟨_, _, h, -⟩; cases h)) (h.ready hh) }
  | tick hD hs =>
    have hi := (h.inv.step (e := .tick) rfl).elim hs
    cases hs
    have := h.now
    have := h.conv
    have := h.reset
    exact {
      inv := hi
      now := (by
        show timerTick x.s.now = ((x.T + 1) % 65536 : Nat)
        unfold timerTick toU16
        omega)
      reset := ⟨(by show x.reset ≤ x.D + 1; omega), (by show x.D + 1 ≤ x.T + 1; omega)⟩
      dog := hd
      win := h.win
      conv := ⟨h.conv.1, (by show x.conv ≤ x.D + 1; omega)⟩
      adc := h.adc
      on := fun hh => ⟨(h.on hh).1, ht.2 hh⟩
      ready := h.ready }
  | @ee e s' he hp hs =>
    have hi := (h.inv.step hp).elim hs
    have hm := step_meas h.inv hs (by rcases he with rfl | rfl <;> simp) (by rcases he with rfl | rfl <;> simp)
    have hn : s'.now = x.s.now := by
      rcases he with rfl | rfl
      · obtain ⟨_, -, hs⟩ := Option.bind_eq_some_iff.mp hs; cases hs; rfl
      · cases hs; rfl
    have k1 : s'.meas.resultAvail = x.s.meas.resultAvail := (congrArg Meas.resultAvail hm :)
    have k2 : s'.meas.adcOn = x.s.meas.adcOn := (congrArg Meas.adcOn hm :)
    have k3 : s'.meas.active = x.s.meas.active := (congrArg Meas.active hm :)
    have k4 : s'.meas.avgTimer = x.s.meas.avgTimer := (congrArg Meas.avgTimer hm :)
    exact {
      inv := hi
      now := hn.trans h.now
      reset := h.reset
      dog := hd
      win := (by show ∃ k : Nat, k ≤ 2 * v.W ∧ (s'.meas.avgTimer + k - (x.sel + avgTime s'.meas.active : Nat)) % 65536 = 0
                 rw [k3, k4]; exact h.win)
      conv := h.conv
      adc := (by show s'.meas.adcOn = !s'.meas.resultAvail; rw [k1, k2]; exact h.adc)
      on := (by
        show s'.meas.adcOn = true → x.conv < x.sel + avgTime s'.meas.active ∧ x.D ≤ x.conv + v.A
        rw [k2, k3]; exact h.on)
      ready := (by
        show s'.meas.resultAvail = true → callByI v .measure x < x.sel + avgTime s'.meas.active + v.A + 2 * v.W
        rw [k1, k3]; exact h.ready) }
  | @adc raw hp =>
    have hpo := hp
    simp only [possible, Bool.and_eq_true] at hp
    have hon := hp.1.1
    obtain ⟨o1, o2⟩ := h.on hon
    have hav : x.s.meas.resultAvail = false := by
      have := h.adc
      rw [hon] at this
      simpa using this.symm
    have hnow := h.now
    have hconv := h.conv
    have hres := h.reset
    generalize hn : toU16 (x.s.now - (x.T - x.D : Nat)) = n at *
    have hn' : (n - x.D) % 65536 = 0 ∧ 0 ≤ n ∧ n < 65536 := by
      rw [← hn]
      unfold toU16
      omega
    have hpos := avgTime_pos x.s.meas.active
    have hx : timerExpired n x.s.meas.avgTimer = decide (x.sel + avgTime x.s.meas.active ≤ x.D + k) := by
      rw [Bool.eq_iff_iff]
      unfold timerExpired timerCountSince toU16 toS16
      simp only [ge_iff_le, decide_eq_true_eq]
      omega
    have i1 : Inv c { x.s with now := n } := { h.inv with now := ⟨hn'.2.1, by show n ≤ 65535; omega⟩ }
    have i2 : Inv c { x.s with now := n, meas := adcIsr n x.s.meas raw } := (i1.step (e := .adc raw) hpo).elim rfl
    have i3 : Inv c { x.s with meas := adcIsr n x.s.meas raw } := { i2 with now := h.inv.now }
    have hact : (adcIsr n x.s.meas raw).active = x.s.meas.active ∧ (adcIsr n x.s.meas raw).avgTimer = x.s.meas.avgTimer := by
      unfold adcIsr
      simp only []
      split <;> exact ⟨rfl, rfl⟩
    have hres2 : (adcIsr n x.s.meas raw).resultAvail = decide (x.sel + avgTime x.s.meas.active ≤ x.D + k) ∧
        (adcIsr n x.s.meas raw).adcOn = !decide (x.sel + avgTime x.s.meas.active ≤ x.D + k) := by
      unfold adcIsr
      simp only [hx]
      split
      · rename_i hh; rw [hh]; exact ⟨rfl, rfl⟩
      · rename_i hh
        have hh := eq_false_of_ne_true hh
        rw [hh]
        exact ⟨hav, hon⟩
    exact {
      inv := i3
      now := hnow
      reset := h.reset
      dog := hd
      win := (by
        show ∃ k : Nat, k ≤ 2 * v.W ∧ ((adcIsr n x.s.meas raw).avgTimer + k -
          (x.sel + avgTime (adcIsr n x.s.meas raw).active : Nat)) % 65536 = 0
        rw [hact.1, hact.2]; exact h.win)
      conv := ⟨(by show x.sel ≤ x.D; omega), Nat.le_refl _⟩
      adc := (by
        show (adcIsr n x.s.meas raw).adcOn = !(adcIsr n x.s.meas raw).resultAvail
        rw [hres2.1, hres2.2])
      on := (by
        show (adcIsr n x.s.meas raw).adcOn = true → x.D < x.sel + avgTime (adcIsr n x.s.meas raw).active ∧ x.D ≤ x.D + v.A
        rw [hres2.2, hact.1]
        intro hh
        simp only [Bool.not_eq_true', decide_eq_false_iff_not] at hh
        omega)
      ready := (by
        show (adcIsr n x.s.meas raw).resultAvail = true → callByI v .measure x <
          x.sel + avgTime (adcIsr n x.s.meas raw).active + v.A + 2 * v.W
        rw [hact.1]
        intro _
        have := callByI_le (v := v) .measure x
        omega) }
  | pass hD =>
    exact { h with
      reset := ⟨(by show x.reset ≤ x.D + 1; have := h.reset; omega), (by show x.D + 1 ≤ x.T; omega)⟩
      conv := ⟨h.conv.1, (by show x.conv ≤ x.D + 1; have := h.conv; omega)⟩
      on := fun hh => ⟨(h.on hh).1, ht.2 hh⟩ }
  | @call e g s' pinb hD hc hw =>
    have he := call_work hc
    have hd : x.T + g.sum ≤ x.reset + v.W := hd
    have hres := h.reset
    have hgs : g.sum ≤ v.W := by omega
    obtain ⟨t, t', it, is', sb, tn, et, sb', it', hn⟩ := work_at h.inv he (by omega) hw
    have hn' : s'.now = ((x.T + g.sum) % 65536 : Nat) := by
      rw [hn, h.now]; unfold toU16; omega
    by_cases hev : e = .measureWork ∧ x.s.meas.resultAvail = true
    · obtain ⟨rfl, hav⟩ := hev
      have hev : x.evaluates .measureWork = true := by unfold LoopI.evaluates; rw [hav]; rfl
      obtain ⟨a1, a2, a3, -⟩ := sb.same
      obtain ⟨b1, b2, b3, -⟩ := sb'.same
      rcases measureWork_eff it et with ⟨hh, -⟩ | ⟨-, p, pl, hm⟩
      · rw [a1, hav] at hh; cases hh
      obtain ⟨_, _, _, -, km⟩ := hm.meas
      have k1 : s'.meas.resultAvail = false := by rw [← b1, km]
      have k2 : s'.meas.adcOn = true := by rw [← b2, km]
      have k3 : s'.meas.active = 1 - x.s.meas.active := by rw [← b3, km, ← a3]
      have hwin := hm.window
      rw [a3, tn, h.now] at hwin
      obtain ⟨j, j1, j2, j3⟩ := sb'.avg
      have hact := h.inv.meas.act
      have hav2 : (if x.s.meas.active = 0 then (50 : Int) else 5) = avgTime (1 - x.s.meas.active) := by
        have : x.s.meas.active = 0 ∨ x.s.meas.active = 1 := by omega
        rcases this with hh | hh <;> rw [hh] <;> decide
      rw [hav2] at hwin
      have hpos := avgTime_pos (1 - x.s.meas.active)
      simp only [hev, if_true] at *
      exact {
        inv := is'
        now := hn'
        reset := ⟨(by show x.reset ≤ x.T + g.sum; omega), Nat.le_refl _⟩
        dog := hd
        win := ⟨(g.sum - j).toNat, by omega, by
          show (s'.meas.avgTimer + _ - (x.T + g.sum + avgTime s'.meas.active : Nat)) % 65536 = 0
          rw [k3]
          unfold toU16 at hwin
          omega⟩
        conv := ⟨Nat.le_refl _, Nat.le_refl _⟩
        adc := (by show s'.meas.adcOn = !s'.meas.resultAvail; rw [k1, k2]; rfl)
        on := fun _ => (by
          show x.T + g.sum < x.T + g.sum + avgTime s'.meas.active ∧ x.T + g.sum ≤ x.T + g.sum + v.A
          rw [k3]; omega)
        ready := fun hh => (by
          have hh : s'.meas.resultAvail = true := hh
          rw [k1] at hh; cases hh) }
    · have hevf : x.evaluates e = false := by
        unfold LoopI.evaluates
        rw [Bool.eq_false_iff]
        intro hh
        rw [Bool.and_eq_true, decide_eq_true_eq] at hh
        exact hev hh
      have hm : stripAdj s'.meas = stripAdj x.s.meas := by
        by_cases hme : e = .measureWork
        · subst hme
          rw [(work_none (by simpa using fun hh => hev ⟨rfl, hh⟩) hw).1]
        · exact workT_meas hme hw
      have k1 : s'.meas.resultAvail = x.s.meas.resultAvail := (congrArg Meas.resultAvail hm :)
      have k2 : s'.meas.adcOn = x.s.meas.adcOn := (congrArg Meas.adcOn hm :)
      have k3 : s'.meas.active = x.s.meas.active := (congrArg Meas.active hm :)
      have k4 : s'.meas.avgTimer = x.s.meas.avgTimer := (congrArg Meas.avgTimer hm :)
      simp only [hevf, Bool.false_eq_true, if_false] at *
      exact {
        inv := is'
        now := hn'
        reset := ⟨h.reset.1, (by show x.D ≤ x.T + g.sum; omega)⟩
        dog := hd
        win := (by show ∃ k : Nat, k ≤ 2 * v.W ∧ (s'.meas.avgTimer + k - (x.sel + avgTime s'.meas.active : Nat)) % 65536 = 0
                   rw [k3, k4]; exact h.win)
        conv := h.conv
        adc := (by show s'.meas.adcOn = !s'.meas.resultAvail; rw [k1, k2]; exact h.adc)
        on := (by
          show s'.meas.adcOn = true → x.conv < x.sel + avgTime s'.meas.active ∧ x.D ≤ x.conv + v.A
          rw [k2, k3]; exact h.on)
        ready := (by
          intro hh
          have hh : s'.meas.resultAvail = true := hh
          show _ < x.sel + avgTime s'.meas.active + v.A + 2 * v.W
          rw [k1] at hh
          rw [k3]
          refine Nat.lt_of_le_of_lt (hcb ?_) (h.ready hh)
          rintro ⟨f, pb, h1, h2⟩
          cases h1
          cases h2
          exact hev ⟨rfl, hh⟩) }

theorem Spec.LoopIRun.inv {x : LoopI} (hv : v.SaneI) (h : LoopIRun v c x) : LoopIInv v c x := by
  induction h with
  | boot hv e => exact LoopIInv.boot hv e
  | step _ hs ht ih => exact ih.step hv hs ht

theorem Spec.StretchI.inv {P : LoopI → Option Ev → LoopI → Prop} {x y : LoopI} (hv : v.SaneI) (hx : LoopIInv v c x)
    (h : StretchI v c P x y) : LoopIInv v c y := by
  induction h with
  | start => exact hx
  | step _ hs ht _ ih => exact ih.step hv hs ht

/-- A step which does not evaluate a measurement leaves the measurement, the emergencies and the heater alone. -/
theorem LoopIStep.other {x y : LoopI} {e : Option Ev} (hv : v.SaneI) (h : LoopIInv v c x) (hs : LoopIStep c x e y)
    (ht : InTimeI v y) (hn : ¬ (e = some .measureWork ∧ x.s.meas.resultAvail = true)) :
    y.sel = x.sel ∧ y.s.meas.active = x.s.meas.active ∧ (stripAdj y.s.meas).chan = (stripAdj x.s.meas).chan ∧
    y.s.cc.emerg = x.s.cc.emerg ∧ y.s.ct.emergency = x.s.ct.emergency := by
  have calm : ∀ {f : Ev} {s' : Sys}, possible x.s f = true → step c x.s f = some s' →
      ¬ (f = .measureWork ∧ x.s.meas.resultAvail = true) → s'.meas.active = x.s.meas.active ∧
        (stripAdj s'.meas).chan = (stripAdj x.s.meas).chan ∧ s'.cc.emerg = x.s.cc.emerg ∧
        s'.ct.emergency = x.s.ct.emergency := by
    intro f s' hp hs hf
    rcases step_eff h.inv hs with ⟨-, hc⟩ | ⟨h1, h2, -⟩
    · exact ⟨hc.active, hc.chan, hc.cc_emerg, hc.emerg⟩
    · exact absurd ⟨h1, h2⟩ hf
  cases hs with
  | reset | pass => exact ⟨rfl, rfl, rfl, rfl, rfl⟩
  | tick _ hs => exact ⟨rfl, calm rfl hs (by simp)⟩
  | ee he hp hs => exact ⟨rfl, calm hp hs (by rcases he with rfl | rfl <;> simp)⟩
  | @adc raw hp =>
    generalize toU16 (x.s.now - (x.T - x.D : Nat)) = n
    refine ⟨rfl, ?_, ?_, rfl, rfl⟩
    · show (adcIsr n x.s.meas raw).active = _
      unfold adcIsr
      simp only []
      split <;> rfl
    · show (stripAdj (adcIsr n x.s.meas raw)).chan = _
      unfold adcIsr
      simp only []
      split <;> rfl
  | @call e g s' pinb hD hc hw =>
    have he := call_work hc
    have hd : x.T + g.sum ≤ x.reset + v.W := ht.1
    have hres := h.reset
    have hW := hv.1
    obtain ⟨t, t', it, is', sb, tn, et, sb', it', -⟩ := work_at h.inv he (by omega) hw
    have hne : ¬ (e = .measureWork ∧ x.s.meas.resultAvail = true) := fun hh => hn ⟨congrArg some hh.1, hh.2⟩
    have hevf : x.evaluates e = false := by
      unfold LoopI.evaluates
      rw [Bool.eq_false_iff]
      intro hh
      rw [Bool.and_eq_true, decide_eq_true_eq] at hh
      exact hne hh
    have hm : stripAdj s'.meas = stripAdj x.s.meas := by
      by_cases hme : e = .measureWork
      · subst hme
        rw [(work_none (by simpa using fun hh => hne ⟨rfl, hh⟩) hw).1]
      · exact workT_meas hme hw
    obtain ⟨a1, a2, a3, a4, a5, a6, a7, a8, -⟩ := sb.same
    obtain ⟨b1, b2, b3, b4, b5, b6, b7, b8, -⟩ := sb'.same
    rcases step_eff it et with ⟨-, hc⟩ | ⟨h1, h2, -⟩
    · refine ⟨?_, (congrArg Meas.active hm :), (congrArg Meas.chan hm :), ?_, ?_⟩
      · show (if x.evaluates e then _ else _) = _
        rw [hevf]; rfl
      · exact b7.symm.trans (hc.cc_emerg.trans a7)
      · exact b8.symm.trans (hc.emerg.trans a8)
    · exact absurd ⟨h1, a1 ▸ h2⟩ hne

/-- An evaluation, in terms of one at an instant. -/
theorem LoopIStep.evaluates {x y : LoopI} (hv : v.SaneI) (h : LoopIInv v c x) (hs : LoopIStep c x (some .measureWork) y)
    (ht : InTimeI v y) (hav : x.s.meas.resultAvail = true) :
    ∃ (g : List Nat) (t t' : Sys) (p : Int) (pl : Plaus), g.sum ≤ v.W ∧ y.T = x.T + g.sum ∧ y.sel = y.T ∧ y.T ≤ x.reset + v.W ∧
      workT c x.s .measureWork g = some (y.s, []) ∧ Inv c t ∧ SameBut g.sum x.s t ∧ t.now = x.s.now ∧
      MeasEff c t t' p pl ∧ SameBut g.sum y.s t' := by
  cases hs with
  | ee he => rcases he with h | h <;> cases h
  | @call _ g s' pinb hD hc hw =>
    have hd : x.T + g.sum ≤ x.reset + v.W := ht.1
    have hres := h.reset
    have hW := hv.1
    obtain ⟨t, t', it, is', sb, tn, et, sb', it', -⟩ := work_at h.inv rfl (by omega) hw
    have hev : x.evaluates .measureWork = true := by unfold LoopI.evaluates; rw [hav]; rfl
    rcases measureWork_eff it et with ⟨hh, -⟩ | ⟨-, p, pl, hm⟩
    · rw [sb.same.1, hav] at hh; cases hh
    refine ⟨g, t, t', p, pl, by omega, rfl, ?_, hd, hw, it, sb, tn, hm, sb'⟩
    show (if x.evaluates .measureWork then _ else _) = _
    rw [hev]; rfl

/-- the latest time at which the measurement of a channel is evaluated -/
def evalByI (v : Speed) (ch : Nat) (x : LoopI) : Nat :=
  x.sel + avgTime x.s.meas.active + v.A + 2 * v.W + (if x.s.meas.active = ch then 0 else avgTime ch + v.A + 2 * v.W)

theorem LoopIInv.lt_evalBy {x : LoopI} (h : LoopIInv v c x) (ch : Nat) : x.T < evalByI v ch x := by
  have h3 := h.dog
  have h4 := h.reset
  unfold evalByI
  cases hav : x.s.meas.resultAvail
  · have := h.on (by rw [h.adc, hav]; rfl)
    omega
  · have h1 := h.ready hav
    have h2 := le_callByI (v := v) .measure x
    omega

theorem LoopIInv.evalBy_le {x : LoopI} (h : LoopIInv v c x) {ch : Nat} (hch : ch < 2) : evalByI v ch x ≤ x.T + v.period := by
  have hact := h.inv.meas.act
  have := h.conv
  have := h.reset
  have e1 : avgTime 1 = 50 := rfl
  have e0 : avgTime 0 = 5 := rfl
  have hp : v.period = 5 + 50 + 2 * v.A + 4 * v.W := rfl
  unfold evalByI
  have h1 : x.s.meas.active = 0 ∨ x.s.meas.active = 1 := by omega
  have h2 : ch = 0 ∨ ch = 1 := by omega
  rcases h1 with h1 | h1 <;> rcases h2 with rfl | rfl <;> rw [h1] <;> first | (rw [if_pos rfl]; omega) | (rw [if_neg (by decide)]; omega)

theorem evalByI_step {x y : LoopI} {e : Option Ev} {ch : Nat} (hv : v.SaneI) (hch : ch < 2) (h : LoopIInv v c x)
    (hs : LoopIStep c x e y) (ht : InTimeI v y) (hn : ¬ EvaluatesI ch x e y) : evalByI v ch y ≤ evalByI v ch x := by
  by_cases hev : e = some .measureWork ∧ x.s.meas.resultAvail = true
  · obtain ⟨rfl, hav⟩ := hev
    obtain ⟨g, t, t', p, pl, -, hT, hsel, hd, -, it, sb, -, hm, sb'⟩ := hs.evaluates hv h ht hav
    obtain ⟨_, _, _, -, km⟩ := hm.meas
    have k3 : y.s.meas.active = 1 - x.s.meas.active := by rw [← sb'.same.2.2.1, km, ← sb.same.2.2.1]
    have hne : x.s.meas.active ≠ ch := fun hh => hn ⟨rfl, hav, hh⟩
    have hact := h.inv.meas.act
    have h1 := h.ready hav
    have h2 := le_callByI (v := v) .measure x
    unfold evalByI
    have e1 : 1 - x.s.meas.active = ch := by omega
    rw [k3, hsel, if_neg hne, e1, if_pos rfl]
    omega
  · obtain ⟨h1, h2, -⟩ := hs.other hv h ht hev
    unfold evalByI
    rw [h1, h2]

/-! ### the plausibility timeout of the temperature -/

theorem measPlausT_timer0 {cfg : MeasConfig} {s : Sys} {ch : MeasChan} {phys : Int} (h0 : c.adj = false)
    (hr : ch.timerRunning = true) :
    PostT (measPlausT c cfg s ch phys) fun r => r.2.1.timerRunning = true → r.2.1.timer = ch.timer := by
  obtain ⟨adj, pt, tr, tm⟩ := ch
  obtain rfl : tr = true := hr
  have bad : ∀ r, (r = cfg.negLim ∧ phys < cfg.negLim) ∨ (r = cfg.posLim ∧ ¬ phys < cfg.negLim ∧ phys > cfg.posLim) →
      PostT (measPlausT c cfg s ⟨adj, pt, true, tm⟩ phys) fun r => r.2.1.timerRunning = true → r.2.1.timer = tm := by
    intro r hr
    have e1 : (if phys < cfg.negLim then ((⟨adj, pt, true, tm⟩ : MeasChan), cfg.negLim, Plaus.notPlausible)
        else if phys > cfg.posLim then (⟨adj, pt, true, tm⟩, cfg.posLim, Plaus.notPlausible)
        else (⟨adj, false, false, tm⟩, phys, Plaus.plausible)) = (⟨adj, pt, true, tm⟩, r, Plaus.notPlausible) := by
      rcases hr with ⟨e, h1⟩ | ⟨e, h1, h2⟩
      · rw [if_pos h1, e]
      · rw [if_neg h1, if_pos h2, e]
    intro g x g' e
    unfold measPlausT at e
    rw [h0] at e
    simp only [Bool.false_eq_true, if_false, tm_some, e1, Bool.not_true, and_false, if_true, tm_tick, tm_pure, tm_ret,
      Option.some.injEq, Prod.mk.injEq] at e
    obtain ⟨e, -⟩ := e
    rw [← e]
    intro _
    simp only []
    split <;> rfl
  by_cases h1 : phys < cfg.negLim
  · exact bad cfg.negLim (.inl ⟨rfl, h1⟩)
  by_cases h2 : phys > cfg.posLim
  · exact bad cfg.posLim (.inr ⟨rfl, h1, h2⟩)
  intro g x g' e
  unfold measPlausT at e
  rw [h0] at e
  simp only [Bool.false_eq_true, if_false, tm_some, if_neg h1, if_neg h2] at e
  cases e
  intro hh
  cases hh

theorem measPlausT_timer {cfg : MeasConfig} {s : Sys} {ch : MeasChan} {phys : Int} (hr : ch.timerRunning = true) :
    PostT (measPlausT c cfg s ch phys) fun r => r.2.1.timerRunning = true → r.2.1.timer = ch.timer := by
  cases hadj : c.adj
  · exact measPlausT_timer0 hadj hr
  · have eT : measPlausT c cfg s ch phys =
        (liftM (fixptSub phys ch.adj) >>= fun x => measPlausT { c with adj := false } cfg s ch x) := by
      unfold measPlausT; rw [hadj]; rfl
    rw [eT]
    exact PostT.bindV fun _ _ => measPlausT_timer0 rfl hr

theorem setEmerg_meas {s s' : Sys} {f : BitVec 8} (e : contrcurrSetEmerg s f = some s') : s'.meas = s.meas := by
  unfold contrcurrSetEmerg at e
  split at e
  · simp only [] at e
    split at e
    · unfold pwmcurrSet at e
      obtain ⟨d, -, e⟩ := Option.bind_eq_some_iff.mp e
      cases e; rfl
    · cases e; rfl
  · cases e; rfl

theorem tick_meas (s : Sys) : PostT (tickIn s) fun s' => s'.meas = s.meas := by
  intro g x g' e
  cases e
  rfl

theorem currRunT_meas (s : Sys) (r : Int) : PostT (contrcurrRunT s r) fun s' => s'.meas = s.meas := by
  unfold contrcurrRunT
  refine PostT.ite (fun _ => PostT.pure rfl) fun _ => PostT.ite (fun _ => PostT.pure rfl) fun _ => ?_
  refine PostT.bind (tick_meas s) fun s1 h1 => PostT.bindV fun _ _ => PostT.bind (tick_meas s1) fun s2 h2 =>
    PostT.bindV fun _ _ => PostT.bindV fun _ _ => PostT.lift fun s' e => ?_
  unfold pwmcurrSet at e
  obtain ⟨d, -, e⟩ := Option.bind_eq_some_iff.mp e
  cases e
  exact h2.trans h1

theorem tempRunT_meas (s : Sys) (r : Int) : PostT (contrtempRunT s r) fun s' => s'.meas = s.meas := by
  unfold contrtempRunT
  refine PostT.ite (fun _ => PostT.pure rfl) fun _ => PostT.ite (fun _ => PostT.pure rfl) fun _ => ?_
  refine PostT.bind (tick_meas s) fun s1 h1 => PostT.bindV fun _ _ => PostT.bind (tick_meas s1) fun s2 h2 =>
    PostT.bindV fun _ _ => PostT.bindV fun _ _ => ?_
  simp only []
  split
  all_goals exact PostT.bindV fun s3 e3 => PostT.pure ((setEmerg_meas e3).trans (h2.trans h1))

theorem tempFeedbackT_meas (s : Sys) (r : Int) : PostT (contrtempSetFeedbackT s r) fun s' => s'.meas = s.meas := by
  unfold contrtempSetFeedbackT
  simp only []
  split
  · exact tempRunT_meas _ r
  · exact tempRunT_meas _ r

theorem meastempResultT_meas (s : Sys) (p : Int) (pl : Plaus) : PostT (meastempResultT s p pl) fun s' => s'.meas = s.meas := by
  have hset : ∀ b, (contrtempSetEmerg s b).meas = s.meas := by
    intro b
    unfold contrtempSetEmerg contrtempDoSetEmerg
    repeat' split
    all_goals rfl
  cases pl <;> unfold meastempResultT <;> simp only []
  · intro g x g' e
    refine (tempFeedbackT_meas _ p _ _ _ e).trans ?_
    refine Eq.trans ?_ (hset false)
    unfold contrcurrSetRestricted
    rfl
  · exact tempFeedbackT_meas _ _
  · exact PostT.pure (hset true)

theorem meascurrResultT_meas (s : Sys) (p : Int) (pl : Plaus) : PostT (meascurrResultT s p pl) fun s' => s'.meas = s.meas := by
  unfold meascurrResultT
  cases pl <;> simp only []
  · exact PostT.bindV fun s1 e1 => PostT.bind (currRunT_meas _ p) fun s2 h2 =>
      PostT.pure (by have em := setEmerg_meas e1; exact h2.trans em)
  · exact PostT.bindV fun s1 e1 => PostT.bind (currRunT_meas _ _) fun s2 h2 =>
      PostT.pure (by have em := setEmerg_meas e1; exact h2.trans em)
  · exact PostT.bindV fun s1 e1 => PostT.pure (by have em := setEmerg_meas e1; exact em)

/-- the channel of the temperature: left alone by the other one, and its timer while it keeps running -/
def ChanOk (m : Meas) (l : Vector MeasChan 2) : Prop :=
  (m.active = 0 → l[1] = m.chan[1]) ∧
  (m.active = 1 → m.chan[1].timerRunning = true → l[1].timerRunning = true → l[1].timer = m.chan[1].timer)

theorem measHandleT_chan (s : Sys) : PostT (measHandleT c s) fun r => ChanOk s.meas r.1.meas.chan := by
  unfold measHandleT
  refine PostT.bindV fun cfg _ => PostT.bindV fun raw _ => ?_
  simp only []
  refine PostT.bindV fun phys _ => ?_
  split
  · rename_i ha
    refine PostT.bind (P := fun r => s.meas.chan[s.meas.active].timerRunning = true → r.2.1.timerRunning = true →
      r.2.1.timer = s.meas.chan[s.meas.active].timer) ?_ fun r hr => PostT.pure ⟨fun h0 => ?_, fun h1 => ?_⟩
    · by_cases hrun : s.meas.chan[s.meas.active].timerRunning = true
      · exact fun g x g' e _ => measPlausT_timer hrun g x g' e
      · exact fun _ _ _ _ h => absurd h hrun
    · show (s.meas.chan.set s.meas.active r.2.1)[1] = _
      exact Vector.getElem_set_ne _ _ (by omega)
    · show s.meas.chan[1].timerRunning = true → (s.meas.chan.set s.meas.active r.2.1)[1].timerRunning = true →
        (s.meas.chan.set s.meas.active r.2.1)[1].timer = s.meas.chan[1].timer
      have e1 : (s.meas.chan.set s.meas.active r.2.1)[1] = r.2.1 := by
        rw [Vector.getElem_set]
        rw [if_pos h1]
      have e2 : s.meas.chan[s.meas.active] = s.meas.chan[1] := by
        congr 1
      rw [e1, ← e2]
      exact hr
  · exact PostT.fail

theorem measureWorkT_chan {s s' : Sys} {g g' : List Nat} (h : workT c s .measureWork g = some (s', g')) :
    ChanOk s.meas s'.meas.chan := by
  by_cases hav : s.meas.resultAvail = true
  · have h : measureWorkT c s g = some (s', g') := h
    revert h
    unfold measureWorkT
    simp only [hav, if_true]
    have key : PostT (measHandleT c { s with meas := { s.meas with resultAvail := false } } >>= fun x =>
        if x.1.meas.active = 1 then do
          let s ← meastempResultT x.1 x.2.1 x.2.2
          adcTriggerNextT c s
        else do
          let s ← meascurrResultT x.1 x.2.1 x.2.2
          adcTriggerNextT c s) fun s' => ChanOk s.meas s'.meas.chan := by
      refine PostT.bind (measHandleT_chan _) fun x hx => ?_
      have fin : ∀ s2 : Sys, s2.meas = x.1.meas → PostT (adcTriggerNextT c s2) fun s' => ChanOk s.meas s'.meas.chan := by
        intro s2 h2
        refine PostT.bind (tick_meas s2) fun s3 h3 => PostT.bindV fun m hm => PostT.pure ?_
        obtain ⟨_, -, hm⟩ := Option.bind_eq_some_iff.mp hm
        obtain ⟨_, -, hm⟩ := Option.bind_eq_some_iff.mp hm
        cases hm
        show ChanOk s.meas s3.meas.chan
        rw [h3, h2]
        exact hx
      exact PostT.ite (fun _ => PostT.bind (meastempResultT_meas _ _ _) fin) fun _ =>
        PostT.bind (meascurrResultT_meas _ _ _) fin
    intro h
    exact key _ _ _ h
  · rw [(work_none (by simpa using hav) h).1]
    exact ⟨fun _ => rfl, fun _ _ _ => rfl⟩

/-! ### one evaluation of the temperature -/

theorem Spec.SameBut.chan1 {n : Nat} {s t : Sys} (h : SameBut n s t) :
    t.meas.chan[1].timerRunning = s.meas.chan[1].timerRunning ∧
    t.meas.chan[1].plausTimeout = s.meas.chan[1].plausTimeout :=
  ⟨(congrArg (·.meas.chan[1].timerRunning) h.rest :), (congrArg (·.meas.chan[1].plausTimeout) h.rest :)⟩

/-- a step which does not evaluate a temperature -/
theorem LoopIStep.tempOther {x y : LoopI} {e : Option Ev} (hv : v.SaneI) (h : LoopIInv v c x) (hs : LoopIStep c x e y)
    (ht : InTimeI v y) (hn : ¬ EvaluatesI 1 x e y) :
    (y.s.meas.chan[1].timerRunning = x.s.meas.chan[1].timerRunning ∧ y.s.meas.chan[1].timer = x.s.meas.chan[1].timer ∧
      y.s.meas.chan[1].plausTimeout = x.s.meas.chan[1].plausTimeout) ∧ y.s.ct.emergency = x.s.ct.emergency ∧
    (x.s.cc.emerg.getLsbD 1 = true → y.s.cc.emerg.getLsbD 1 = true) := by
  by_cases hev : e = some .measureWork ∧ x.s.meas.resultAvail = true
  · obtain ⟨rfl, hav⟩ := hev
    obtain ⟨g, t, t', p, pl, -, hT, hsel, hd, hw, it, sb, tn, hm, sb'⟩ := hs.evaluates hv h ht hav
    have ha : x.s.meas.active = 0 := by
      have := h.inv.meas.act
      have : x.s.meas.active ≠ 1 := fun hh => hn ⟨rfl, hav, hh⟩
      omega
    have k := (measureWorkT_chan hw).1 ha
    obtain ⟨a1, a2, a3, a4, a5, a6, a7, a8, -⟩ := sb.same
    obtain ⟨b1, b2, b3, b4, b5, b6, b7, b8, -⟩ := sb'.same
    obtain ⟨-, f, hc⟩ := hm.curr (a3.trans ha)
    rw [k]
    refine ⟨⟨rfl, rfl, rfl⟩, ?_, ?_⟩
    · exact b8.symm.trans ((congrArg ContrTemp.emergency hc.ct :).trans a8)
    · rw [← b7, ← a7]
      intro hb
      have hf := hc.flags
      revert hf hb
      show t.cc.emerg.getLsbD 1 = true → _
      generalize t.cc.emerg = q
      generalize t'.cc.emerg = r
      intro hb hf
      rw [hf]
      clear hf
      revert hb
      cases pl <;> revert q <;> decide
  · obtain ⟨-, -, h3, h4, h5⟩ := hs.other hv h ht hev
    have e1 : (stripAdj y.s.meas).chan[1] = (stripAdj x.s.meas).chan[1] := by rw [h3]
    unfold stripAdj at e1
    simp only [Vector.getElem_map] at e1
    exact ⟨⟨(congrArg MeasChan.timerRunning e1 :), (congrArg MeasChan.timer e1 :),
      (congrArg MeasChan.plausTimeout e1 :)⟩, h5, fun hb => h4 ▸ hb⟩

/-- what an evaluation of an implausible temperature does; the times are read up to `n` ticks apart -/
structure BadEval (n : Nat) (x y : LoopI) : Prop where
  run : y.s.meas.chan[1].timerRunning = true
  kept : x.s.meas.chan[1].timerRunning = true → y.s.meas.chan[1].timer = x.s.meas.chan[1].timer ∧
    ∃ j : Int, -n ≤ j ∧ j ≤ n ∧ (y.s.meas.chan[1].plausTimeout = (x.s.meas.chan[1].plausTimeout ||
      timerExpired x.s.now (toU16 (x.s.meas.chan[1].timer + j))))
  arm : x.s.meas.chan[1].timerRunning = false → y.s.meas.chan[1].plausTimeout = x.s.meas.chan[1].plausTimeout ∧
    ∃ j : Int, -n ≤ j ∧ j ≤ n ∧ (y.s.meas.chan[1].timer - (x.T + 3000 + j)) % 65536 = 0
  emerg : y.s.ct.emergency = if y.s.meas.chan[1].plausTimeout then true else x.s.ct.emergency

theorem LoopIStep.tempEval {x y : LoopI} {e : Option Ev} (hv : v.SaneI) (h : LoopIInv v c x) (hs : LoopIStep c x e y)
    (ht : InTimeI v y) (hev : EvaluatesI 1 x e y) : ∃ (n : Nat) (w : Int), n ≤ v.W ∧ y.T = x.T + n ∧ TempReady c x.s w ∧
      ((PlausibleTemp w ∧ y.s.meas.chan[1].timerRunning = false ∧ y.s.meas.chan[1].plausTimeout = false ∧
        y.s.ct.emergency = false ∧ y.s.ct.feedback = w ∧ (x.s.ct.enabled = true → 480 * 64 < w → y.s.cc.emerg.getLsbD 1 = true)) ∨
       (¬ PlausibleTemp w ∧ BadEval n x y)) := by
  obtain ⟨rfl, hav, ha⟩ := hev
  obtain ⟨g, t, t', p, pl, hn, hT, hsel, hd, hw, it, sb, tn, hm, sb'⟩ := hs.evaluates hv h ht hav
  obtain ⟨a1, a2, a3, a4, a5, a6, a7, a8, a9, -⟩ := sb.same
  obtain ⟨b1, b2, b3, b4, b5, b6, b7, b8, -⟩ := sb'.same
  obtain ⟨c1, c2⟩ := sb.chan1
  obtain ⟨d1, d2⟩ := sb'.chan1
  obtain ⟨w, ⟨-, -, hw1⟩, ⟨h1, h2⟩, ch, hst, hch⟩ := hm.tempValue it (a1.trans hav) (a3.trans ha)
  have hte := hm.temp (a3.trans ha)
  have hch1 : t'.meas.chan[1] = ch := by rw [hch]; exact Vector.getElem_set_self ..
  refine ⟨g.sum, w, hn, hT, ⟨hav, ha, by rw [← a4, ← a5, ← a6]; exact hw1⟩, ?_⟩
  unfold plausStep at hst
  split at hst
  · rename_i hbad
    have hnp : ¬ PlausibleTemp w := by
      rintro ⟨q1, q2⟩
      have e1 : (meastempConfig c).negLim = -1280 := rfl
      have e2 : (meastempConfig c).posLim = 32000 := rfl
      omega
    refine .inr ⟨hnp, ?_⟩
    obtain ⟨ch0, hch0, hst⟩ := Option.map_eq_some_iff.mp hst
    have hem := hte.emergency
    simp only [Prod.mk.injEq] at hst
    obtain ⟨q1, -, q3⟩ := hst
    have hrun0 : ch0.timerRunning = true := by
      split at hch0
      · cases hch0; assumption
      · obtain ⟨_, -, hch0⟩ := Option.map_eq_some_iff.mp hch0
        rw [← hch0]
    have r1 : ch.timerRunning = true := by rw [← q1]; exact hrun0
    have r2 : ch.plausTimeout = (ch0.plausTimeout || timerExpired t.now ch0.timer) := by rw [← q1]
    have r3 : ch.timer = ch0.timer := by rw [← q1]
    have hrun : y.s.meas.chan[1].timerRunning = true := by rw [← d1, hch1, r1]
    have hpt : y.s.meas.chan[1].plausTimeout = (ch0.plausTimeout || timerExpired t.now ch0.timer) := by
      rw [← d2, hch1, r2]
    refine ⟨hrun, fun hr => ?_, fun hr => ?_, ?_⟩
    · refine ⟨(measureWorkT_chan hw).2 ha hr hrun, ?_⟩
      rw [c1, hr, if_pos rfl] at hch0
      cases hch0
      obtain ⟨k, k1, k2, k3⟩ := sb.plaus1
      refine ⟨-k, by omega, by omega, ?_⟩
      rw [hpt, c2, tn]
      congr 1
      unfold timerExpired timerCountSince
      congr 2
      unfold toU16 toS16
      generalize t.meas.chan[1].timer = a at *
      generalize x.s.meas.chan[1].timer = b at *
      generalize x.s.now = n0 at *
      have : (n0 - a) % 65536 = (n0 - (b + -k) % 65536) % 65536 := by omega
      rw [this]
    · rw [c1, hr, if_neg (by decide)] at hch0
      have harm : timerArm t.now (meastempConfig c).timeoutMs = some (toU16 (t.now + 3000)) := by
        show timerArm t.now 3000 = _
        rfl
      rw [harm] at hch0
      cases hch0
      have hne : timerExpired t.now (toU16 (t.now + 3000)) = false := by
        unfold timerExpired timerCountSince toU16 toS16
        rw [decide_eq_false_iff_not]
        omega
      refine ⟨?_, ?_⟩
      · rw [hpt]
        show (t.meas.chan[1].plausTimeout || timerExpired t.now (toU16 (t.now + 3000))) = _
        rw [hne, c2, Bool.or_false]
      · obtain ⟨k, k1, k2, k3⟩ := sb'.plaus1
        refine ⟨k, k1, k2, ?_⟩
        rw [hch1, r3] at k3
        have k3 : (y.s.meas.chan[1].timer - toU16 (t.now + 3000) - k) % 65536 = 0 := k3
        rw [tn, h.now] at k3
        unfold toU16 at k3
        omega
    · rw [← b8, hem, ← q3, hpt, a8]
      cases hh : (ch0.plausTimeout || timerExpired t.now ch0.timer) <;> rfl
  · rename_i hgood
    simp only [Option.some.injEq, Prod.mk.injEq] at hst
    obtain ⟨q1, q2, q3⟩ := hst
    have hp := h1.mp q3.symm
    have e1 : y.s.ct.emergency = false := by rw [← b8, hte.emergency, ← q3]; rfl
    have e2 : t'.ct.feedback = w := by rw [hte.feedback, ← q3, ← q2]; rfl
    refine .inl ⟨hp, by rw [← d1, hch1, ← q1], by rw [← d2, hch1, ← q1], e1, ?_, fun hen hot => ?_⟩
    · rw [← e2]
      exact (congrArg (·.ct.feedback) sb'.rest :).symm
    · have hf := hte.flags
      rw [if_pos ⟨by rw [← q3]; decide, a9.trans hen, b8.trans e1⟩, e2, if_pos (by omega)] at hf
      rw [← b7, hf]
      generalize t.cc.emerg = q
      revert q
      decide

end Verif
