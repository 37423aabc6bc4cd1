import Verif.Spec.Loop
import Verif.Props.Current
import Verif.Props.Lasting
/-
Invariants of the main loop in real time.
-/
namespace Verif
open Spec Props

variable {v : Speed} {c : Conf}

/-- position in the loop body -/
def Pc.idx : Pc → Nat
  | .reset => 0
  | .measure => 1
  | .menu => 2
  | .display => 3
  | .buttons => 4
  | .settings => 5

/-- the latest time at which the statement `p` is executed -/
def callBy (v : Speed) (p : Pc) (x : Loop) : Nat :=
  if 1 ≤ x.pc.idx ∧ x.pc.idx ≤ p.idx then x.reset + v.W else x.reset + 2 * v.W

theorem callBy_le (p : Pc) (x : Loop) : callBy v p x ≤ x.reset + 2 * v.W := by
  unfold callBy; split <;> omega

theorem le_callBy (p : Pc) (x : Loop) : x.reset + v.W ≤ callBy v p x := by
  unfold callBy; split <;> omega

/-- interrupts are not work functions -/
theorem isr_call {e : Ev} {p : Pc} {pinb : BitVec 8} (h : e.isIsr = true) : p.call pinb ≠ some e := by
  intro hh
  cases p <;> cases hh <;> cases h

theorem call_inj {p q : Pc} {a b : BitVec 8} {e : Ev} (h : p.call a = some e) (h' : q.call b = some e) : p = q := by
  cases p <;> cases h <;> cases q <;> first | rfl | cases h'

theorem callBy_step {x y : Loop} {e : Option Ev} {p : Pc} (hp : p ≠ .reset) (hx : x.T ≤ x.reset + v.W)
    (h : LoopStep c x e y) (hn : ¬ Calls p x e y) : callBy v p y ≤ callBy v p x := by
  cases h with
  | reset h =>
    unfold callBy
    simp only [h]
    rw [if_pos (by cases p <;> first | exact absurd rfl hp | decide), if_neg (by rintro ⟨h, -⟩; exact absurd h (by decide))]
    omega
  | isr h1 h2 h3 => exact Nat.le_refl _
  | @call e s' pinb h1 h2 =>
    have hne : x.pc ≠ p := fun hh => hn ⟨e, pinb, rfl, hh ▸ h1⟩
    unfold callBy
    show (if 1 ≤ x.pc.next.idx ∧ x.pc.next.idx ≤ p.idx then x.reset + v.W else x.reset + 2 * v.W) ≤ _
    have hr : x.pc ≠ .reset := fun hh => by rw [hh] at h1; cases h1
    generalize x.pc = q at hne hr
    cases q <;> cases p <;> first
      | exact absurd rfl hr
      | exact absurd rfl hne
      | exact absurd rfl hp
      | exact Nat.le_refl _

/-- a step is a step of the firmware, or does nothing to it -/
theorem LoopStep.sys {x y : Loop} {e : Option Ev} (h : LoopStep c x e y) :
    (e = none ∧ y.s = x.s ∧ y.T = x.T ∧ y.sel = x.sel ∧ y.conv = x.conv ∧ y.ee = x.ee) ∨
    (∃ f, e = some f ∧ possible x.s f = true ∧ step c x.s f = some y.s ∧ y.T = (x.after f y.s).T ∧
      y.sel = (x.after f y.s).sel ∧ y.conv = (x.after f y.s).conv ∧ y.ee = (x.after f y.s).ee ∧
      y.reset = x.reset) := by
  cases h with
  | reset h => exact Or.inl ⟨rfl, rfl, rfl, rfl, rfl, rfl⟩
  | isr h1 h2 h3 => exact Or.inr ⟨_, rfl, h2, h3, rfl, rfl, rfl, rfl, rfl⟩
  | @call e s' pinb h1 h2 =>
    refine Or.inr ⟨_, rfl, ?_, h2, rfl, rfl, rfl, rfl, rfl⟩
    cases hp : x.pc <;> rw [hp] at h1 <;> cases h1 <;> rfl

theorem LoopStep.time {x y : Loop} {e : Option Ev} (h : LoopStep c x e y) : x.T ≤ y.T ∧ y.T ≤ x.T + 1 := by
  rcases h.sys with ⟨-, -, h, -⟩ | ⟨f, -, -, -, h, -⟩
  · omega
  · rw [h]
    unfold Loop.after
    simp only []
    split <;> omega

theorem Spec.Stretch.time {P : Loop → Option Ev → Loop → Prop} {x y : Loop} (h : Stretch v c P x y) : x.T ≤ y.T := by
  induction h with
  | start => exact Nat.le_refl _
  | step _ h _ _ ih => have := h.time; omega

/-- what holds in every state of the main loop -/
structure LoopInv (v : Speed) (c : Conf) (x : Loop) : Prop where
  win : Window c x.s x.T x.sel
  reset : x.reset ≤ x.T
  dog : x.T ≤ x.reset + v.W
  conv : x.sel ≤ x.conv ∧ x.conv ≤ x.T
  adc : x.s.meas.adcOn = !x.s.meas.resultAvail
  on : x.s.meas.adcOn = true → x.conv < x.sel + avgTime x.s.meas.active ∧ x.T ≤ x.conv + v.A
  ready : x.s.meas.resultAvail = true → callBy v .measure x < x.sel + avgTime x.s.meas.active + v.A + 2 * v.W
  late : x.s.meas.resultAvail = true → x.sel + avgTime x.s.meas.active ≤ x.T

theorem avgTime_pos (n : Nat) : 5 ≤ avgTime n ∧ avgTime n ≤ 50 := by unfold avgTime; split <;> decide

theorem LoopInv.boot {ee : Nat → Nat} {pinb : BitVec 8} {s : Sys} (hv : ValidEeprom c ee) (e : boot c ee pinb = some s) :
    LoopInv v c ⟨s, .reset, 0, 0, 0, 0, 0⟩ := by
  have hw := Window.boot hv e
  obtain ⟨-, st, -, b, t, hb, ⟨-, ht⟩, rfl⟩ := (boot_ok hv).elim e
  have : b.meas.resultAvail = false := hb.avail
  exact {
    win := hw
    reset := Nat.le_refl _
    dog := Nat.zero_le _
    conv := ⟨Nat.le_refl _, Nat.le_refl _⟩
    adc := (by show true = !b.meas.resultAvail; rw [this]; rfl)
    on := fun _ => ⟨by have := avgTime_pos 1; show 0 < 0 + avgTime 1; omega, Nat.zero_le _⟩
    ready := fun hh => (by
      have hh : b.meas.resultAvail = true := hh
      rw [this] at hh; cases hh)
    late := fun hh => (by
      have hh : b.meas.resultAvail = true := hh
      rw [this] at hh; cases hh) }

theorem LoopInv.step {x y : Loop} {e : Option Ev} (hv : v.Sane) (h : LoopInv v c x) (hs : LoopStep c x e y) (ht : InTime v y) :
    LoopInv v c y := by
  obtain ⟨i1, i2, i3, i4⟩ := window_inv h.win
  have hi := Running.inv i1
  have hd := ht.1
  have hT := hs.time
  rcases hs.sys with ⟨rfl, es, eT, esel, ec, -⟩ | ⟨f, rfl, hp, hf, eT, esel, ec, -, er⟩
  · have hcb := callBy_step (v := v) (p := .measure) (by decide) h.dog hs (by rintro ⟨_, _, h, -⟩; cases h)
    have hreset : y.reset ≤ y.T := by cases hs; exact Nat.le_refl _
    refine ⟨by rw [es, eT, esel]; exact h.win, hreset, hd, ?_, by rw [es]; exact h.adc, ?_, ?_, by rw [es, esel, eT]; exact h.late⟩
    · rw [esel, ec, eT]; exact h.conv
    · rw [es, esel, ec, eT]; exact h.on
    · rw [es, esel]
      exact fun hh => Nat.lt_of_le_of_lt hcb (h.ready hh)
  · have hreset : y.reset ≤ y.T := by rw [er]; have := h.reset; omega
    have hcb : f ≠ .measureWork → callBy v .measure y ≤ callBy v .measure x := fun hf =>
      callBy_step (v := v) (p := .measure) (by decide) h.dog hs (by
        rintro ⟨g, pinb, h1, h2⟩
        cases h1
        cases h2
        exact hf rfl)
    by_cases hev : f = .measureWork ∧ x.s.meas.resultAvail = true
    · obtain ⟨rfl, hav⟩ := hev
      have eT : y.T = x.T := eT
      have esel : y.sel = x.T := by rw [esel]; unfold Loop.after; simp [hav]
      have ec : y.conv = x.T := by rw [ec]; unfold Loop.after; simp [hav]
      rcases measureWork_eff hi hf with ⟨h, -⟩ | ⟨-, p, pl, hm⟩
      · rw [hav] at h; cases h
      obtain ⟨_, _, _, -, k⟩ := hm.meas
      have k1 : y.s.meas.resultAvail = false := by rw [k]
      have k2 : y.s.meas.adcOn = true := by rw [k]
      refine ⟨?_, hreset, hd, by omega, by rw [k1, k2]; rfl, fun _ => ?_, fun hh => (by rw [k1] at hh; cases hh),
        fun hh => by rw [k1] at hh; cases hh⟩
      · rw [eT, esel]
        exact Window.evaluated h.win hav hf
      · have := avgTime_pos y.s.meas.active
        omega
    · have esel : y.sel = x.sel := by
        rw [esel]; unfold Loop.after; simp only []; rw [if_neg hev]
      have hwin : Window c y.s y.T y.sel := by
        rw [esel, eT]
        unfold Loop.after
        simp only []
        by_cases ht : f = .tick
        · subst ht
          exact Window.tick h.win hf
        · rw [if_neg ht]
          exact Window.other h.win hp hf ht hev
      by_cases hx : ∃ r, f = .adc r
      · obtain ⟨r, rfl⟩ := hx
        have eT : y.T = x.T := eT
        have ec : y.conv = x.T := ec
        have hon : x.s.meas.adcOn = true := by
          simp only [possible, Bool.and_eq_true] at hp
          exact hp.1.1
        obtain ⟨on1, on2⟩ := h.on hon
        have hav := avgTime_pos x.s.meas.active
        obtain ⟨w1, w2⟩ := C63_window c x.s y.s x.T x.sel r h.win hp hf (by have : 5 + 50 + 2 * v.A + 4 * v.W ≤ 32767 := hv.1; omega)
        have hact : y.s.meas.active = x.s.meas.active := by
          have hf : some _ = some y.s := hf
          rw [← Option.some.inj hf]
          unfold adcIsr
          simp only []
          split <;> rfl
        refine ⟨hwin, hreset, hd, by omega, w2, fun hh => ?_, fun hh => ?_, fun hh => ?_⟩
        · rw [w2] at hh
          have : ¬ (x.sel + avgTime x.s.meas.active ≤ x.T) := fun hq => by
            rw [w1.mpr hq] at hh; cases hh
          rw [hact]
          omega
        · have h1 := callBy_le (v := v) .measure y
          rw [hact]
          omega
        · have := w1.mp hh
          rw [hact]
          omega
      · have hm := step_meas hi hf (fun r hh => hx ⟨r, hh⟩) hev
        have k1 : y.s.meas.resultAvail = x.s.meas.resultAvail := (congrArg Meas.resultAvail hm :)
        have k2 : y.s.meas.adcOn = x.s.meas.adcOn := (congrArg Meas.adcOn hm :)
        have k3 : y.s.meas.active = x.s.meas.active := (congrArg Meas.active hm :)
        have ec : y.conv = x.conv := by
          rw [ec]
          unfold Loop.after
          cases f with
          | adc r => exact absurd ⟨r, rfl⟩ hx
          | measureWork => simp only []; rw [if_neg fun hh => hev ⟨rfl, hh⟩]
          | _ => rfl
        refine ⟨hwin, hreset, hd, by have := h.conv; omega, by rw [k1, k2]; exact h.adc, fun hh => ?_, fun hh => ?_, fun hh => ?_⟩
        · rw [k3, esel, ec]
          exact ⟨(h.on (k2 ▸ hh)).1, ec ▸ ht.2.1 hh⟩
        · rw [k3, esel]
          have h1 := h.ready (k1 ▸ hh)
          refine Nat.lt_of_le_of_lt (hcb ?_) h1
          rintro rfl
          exact hev ⟨rfl, k1 ▸ hh⟩
        · rw [k3, esel]
          have := h.late (k1 ▸ hh)
          omega

theorem Spec.LoopRun.inv {x : Loop} (hv : v.Sane) (h : LoopRun v c x) : LoopInv v c x := by
  induction h with
  | boot hv e => exact LoopInv.boot hv e
  | step _ hs ht ih => exact ih.step hv hs ht

theorem Spec.Stretch.inv {P : Loop → Option Ev → Loop → Prop} {x y : Loop} (hv : v.Sane) (hx : LoopInv v c x)
    (h : Stretch v c P x y) : LoopInv v c y := by
  induction h with
  | start => exact hx
  | step _ hs ht _ ih => exact ih.step hv hs ht

/-- the latest time at which the measurement of a channel is evaluated -/
def evalBy (v : Speed) (ch : Nat) (x : Loop) : Nat :=
  x.sel + avgTime x.s.meas.active + v.A + 2 * v.W + (if x.s.meas.active = ch then 0 else avgTime ch + v.A + 2 * v.W)

theorem LoopInv.lt_evalBy {x : Loop} (h : LoopInv v c x) (ch : Nat) : x.T < evalBy v ch x := by
  unfold evalBy
  cases hav : x.s.meas.resultAvail
  · have := h.on (by rw [h.adc, hav]; rfl)
    omega
  · have h1 := h.ready hav
    have h2 := le_callBy (v := v) .measure x
    have := h.dog
    omega

theorem evalBy_step {x y : Loop} {e : Option Ev} {ch : Nat} (hch : ch < 2) (h : LoopInv v c x) (hs : LoopStep c x e y)
    (hn : ¬ EvaluatesCh ch x e y) : evalBy v ch y ≤ evalBy v ch x := by
  obtain ⟨i1, i2, i3, i4⟩ := window_inv h.win
  have hi := Running.inv i1
  rcases hs.sys with ⟨rfl, es, eT, esel, -⟩ | ⟨f, rfl, hp, hf, eT, esel, ec, -, er⟩
  · unfold evalBy
    rw [es, esel]
  · by_cases hev : f = .measureWork ∧ x.s.meas.resultAvail = true
    · obtain ⟨rfl, hav⟩ := hev
      have esel : y.sel = x.T := by rw [esel]; unfold Loop.after; simp [hav]
      rcases measureWork_eff hi hf with ⟨h, -⟩ | ⟨-, p, pl, hm⟩
      · rw [hav] at h; cases h
      obtain ⟨_, _, _, -, k⟩ := hm.meas
      have k3 : y.s.meas.active = 1 - x.s.meas.active := by rw [k]
      have hne : x.s.meas.active ≠ ch := fun hh => hn ⟨rfl, hav, hh⟩
      have hact := hi.meas.act
      have h1 := h.ready hav
      have h2 := le_callBy (v := v) .measure x
      have := h.dog
      unfold evalBy
      have e1 : 1 - x.s.meas.active = ch := by omega
      rw [k3, esel, if_neg hne, e1, if_pos rfl]
      omega
    · have esel : y.sel = x.sel := by
        rw [esel]; unfold Loop.after; simp only []; rw [if_neg hev]
      have hact : y.s.meas.active = x.s.meas.active := by
        by_cases hx : ∃ r, f = .adc r
        · obtain ⟨r, rfl⟩ := hx
          have hf : some _ = some y.s := hf
          rw [← Option.some.inj hf]
          unfold adcIsr
          simp only []
          split <;> rfl
        · exact (congrArg Meas.active (step_meas hi hf (fun r hh => hx ⟨r, hh⟩) hev) :)
      unfold evalBy
      rw [esel, hact]

theorem Spec.LoopRun.running {x : Loop} (h : LoopRun v c x) : Running c x.s := by
  induction h with
  | boot hv e => exact Running.boot hv e
  | step _ hs _ ih =>
    rcases hs.sys with ⟨-, es, -⟩ | ⟨f, -, hp, hf, -⟩
    · rw [es]; exact ih
    · exact ih.step hp hf

/-! ### histories -/

/-- times of readings, latest first, less than `E` apart, the first one less than `E` after boot -/
def GapsBy (E : Nat) : List Nat → Prop
  | [] => True
  | [a] => a < E
  | a :: b :: l => b ≤ a ∧ a < b + E ∧ GapsBy E (b :: l)

theorem GapsBy.ok {E : Nat} (hE : E ≤ 32768) : ∀ {l : List Nat}, GapsBy E l → GapsOk l
  | [], _ => trivial
  | [_], _ => trivial
  | a :: b :: l, h => ⟨h.1, by have := h.2.1; omega, GapsBy.ok hE h.2.2⟩

theorem GapsBy.cons {E : Nat} {l : List Nat} {a : Nat} (h : GapsBy E l) (h1 : l.headD 0 ≤ a) (h2 : a < l.headD 0 + E) :
    GapsBy E (a :: l) := by
  cases l with
  | nil => simpa [GapsBy] using h2
  | cons b l => exact ⟨h1, h2, h⟩

theorem disturbed_head : ∀ {h : List (Nat × Bool)} {t : Nat} {E : Nat}, GapsBy E (h.map (·.1)) → disturbedSince h = some t →
    t ≤ (h.map (·.1)).headD 0
  | [], _, _, _, h => by cases h
  | (_, true) :: _, _, _, _, h => by cases h
  | [(a, false)], t, _, _, h => by cases h; exact Nat.le_refl _
  | (a, false) :: (b, p) :: l, t, E, hg, h => by
    have h1 : b ≤ a := hg.1
    show t ≤ a
    cases hd : disturbedSince ((b, p) :: l) with
    | none => simp only [disturbedSince] at h hd; rw [hd] at h; cases h; exact Nat.le_refl _
    | some t' =>
      have h : some ((disturbedSince ((b, p) :: l)).getD a) = some t := h
      rw [hd] at h
      cases h
      have : t' ≤ b := disturbed_head hg.2.2 hd
      show t' ≤ a
      omega

theorem disturbed_since : ∀ {h : List (Nat × Bool)} {E t0 : Nat}, GapsBy E (h.map (·.1)) →
    (∀ r ∈ h, t0 ≤ r.1 → r.2 = false) → h ≠ [] → t0 ≤ (h.map (·.1)).headD 0 → ∃ t, disturbedSince h = some t ∧ t < t0 + E
  | [], _, _, _, _, hne, _ => absurd rfl hne
  | (a, true) :: l, _, _, _, hb, _, h0 => by
    have := hb (a, true) (List.mem_cons_self ..) h0
    cases this
  | [(a, false)], E, t0, hg, _, _, _ => ⟨a, rfl, by have : a < E := hg; omega⟩
  | (a, false) :: (b, p) :: l, E, t0, hg, hb, _, h0 => by
    have h1 : a < b + E := hg.2.1
    show ∃ t, some ((disturbedSince ((b, p) :: l)).getD a) = some t ∧ t < t0 + E
    by_cases hbt : t0 ≤ b
    · obtain ⟨t, h2, h3⟩ := disturbed_since (h := (b, p) :: l) hg.2.2 (fun r hr => hb r (List.mem_cons_of_mem _ hr))
        (by simp) hbt
      exact ⟨t, by rw [h2]; rfl, h3⟩
    · cases hd : disturbedSince ((b, p) :: l) with
      | none => exact ⟨a, rfl, by omega⟩
      | some t =>
        have : t ≤ b := disturbed_head hg.2.2 hd
        exact ⟨t, rfl, by omega⟩

theorem disturbed_false : ∀ {h : List (Nat × Bool)} {E t : Nat}, GapsBy E (h.map (·.1)) → disturbedSince h = some t →
    ∀ r ∈ h, t < r.1 → r.2 = false
  | [], _, _, _, h, _, _, _ => by cases h
  | (_, true) :: _, _, _, _, h, _, _, _ => by cases h
  | [(a, false)], _, _, _, _, r, hr, _ => by rw [List.mem_singleton.mp hr]
  | (a, false) :: (b, p) :: l, E, t, hg, hd, r, hr, ht => by
    have hd : some ((disturbedSince ((b, p) :: l)).getD a) = some t := hd
    rcases List.mem_cons.mp hr with rfl | hr
    · rfl
    cases hq : disturbedSince ((b, p) :: l) with
    | some t' =>
      rw [hq] at hd
      cases hd
      exact disturbed_false hg.2.2 hq r hr ht
    | none =>
      rw [hq] at hd
      cases hd
      have key : ∀ {l : List Nat}, GapsBy E l → ∀ a ∈ l, a ≤ l.headD 0 := by
        intro l
        induction l with
        | nil => intro _ a ha; cases ha
        | cons b l ih =>
          intro hg a ha
          rcases List.mem_cons.mp ha with rfl | ha
          · exact Nat.le_refl _
          · cases l with
            | nil => cases ha
            | cons d l =>
              have h1 : a ≤ d := ih hg.2.2 a ha
              have h2 : d ≤ b := hg.1
              show a ≤ b
              omega
      have h1 := key hg.2.2 r.1 (List.mem_map_of_mem (f := (·.1)) hr)
      have h1 : r.1 ≤ b := h1
      have h2 : b ≤ a := hg.1
      have ht : a < r.1 := ht
      omega

/-- the readings of a channel in the main loop -/
structure ReadInv (v : Speed) (c : Conf) (ch : Nat) (x : Loop) (h : List (Nat × Bool)) : Prop where
  inv : LoopInv v c x
  gaps : GapsBy v.period (h.map (·.1))
  past : (h.map (·.1)).headD 0 ≤ x.T
  next : evalBy v ch x ≤ (h.map (·.1)).headD 0 + v.period

theorem ReadInv.boot {ee : Nat → Nat} {pinb : BitVec 8} {s : Sys} {ch : Nat} (hch : ch < 2) (hv : ValidEeprom c ee)
    (e : Verif.boot c ee pinb = some s) : ReadInv v c ch ⟨s, .reset, 0, 0, 0, 0, 0⟩ [] := by
  refine ⟨LoopInv.boot hv e, trivial, Nat.le_refl _, ?_⟩
  obtain ⟨-, st, -, b, t, hb, ⟨-, ht⟩, rfl⟩ := (boot_ok hv).elim e
  unfold evalBy Speed.period
  show 0 + avgTime 1 + v.A + 2 * v.W + (if 1 = ch then 0 else avgTime ch + v.A + 2 * v.W) ≤ 0 + (55 + 2 * v.A + 4 * v.W)
  have e1 : avgTime 1 = 50 := rfl
  split
  · omega
  · have : ch = 0 := by omega
    subst this
    have e0 : avgTime 0 = 5 := rfl
    omega

theorem ReadInv.other {x y : Loop} {e : Option Ev} {ch : Nat} {h : List (Nat × Bool)} (hv : v.Sane) (hch : ch < 2)
    (hr : ReadInv v c ch x h) (hs : LoopStep c x e y) (ht : InTime v y) (hn : ¬ EvaluatesCh ch x e y) :
    ReadInv v c ch y h :=
  ⟨hr.inv.step hv hs ht, hr.gaps, Nat.le_trans hr.past hs.time.1, Nat.le_trans (evalBy_step hch hr.inv hs hn) hr.next⟩

theorem ReadInv.reads {x y : Loop} {ch : Nat} {h : List (Nat × Bool)} {b : Bool} (hv : v.Sane) (hch : ch < 2)
    (hr : ReadInv v c ch x h) (hs : LoopStep c x (some .measureWork) y) (ht : InTime v y)
    (hav : x.s.meas.resultAvail = true) (ha : x.s.meas.active = ch) : ReadInv v c ch y ((x.T, b) :: h) := by
  have hlt := hr.inv.lt_evalBy ch
  have hnext := hr.next
  refine ⟨hr.inv.step hv hs ht, hr.gaps.cons hr.past (by show x.T < _; omega), hs.time.1, ?_⟩
  show evalBy v ch y ≤ x.T + v.period
  rcases hs.sys with ⟨h, -⟩ | ⟨f, hf, -, hf', -, esel, -⟩
  · cases h
  cases hf
  have esel : y.sel = x.T := by rw [esel]; unfold Loop.after; simp [hav]
  have hi := Running.inv (window_inv hr.inv.win).1
  rcases measureWork_eff hi hf' with ⟨h, -⟩ | ⟨-, p, pl, hm⟩
  · rw [hav] at h; cases h
  obtain ⟨_, _, _, -, k⟩ := hm.meas
  have k3 : y.s.meas.active = 1 - ch := by rw [k, ← ha]
  have e1 : avgTime 1 = 50 := rfl
  have e0 : avgTime 0 = 5 := rfl
  unfold evalBy Speed.period
  rw [esel, k3]
  have : ch = 0 ∨ ch = 1 := by omega
  rcases this with rfl | rfl
  · rw [if_neg (by decide)]; show _ + avgTime 1 + _ + _ + _ ≤ _; omega
  · rw [if_neg (by decide)]; show _ + avgTime 0 + _ + _ + _ ≤ _; omega

/-- after 3000 ms and two evaluation periods of implausible readings, the time-out has been recognised -/
theorem ReadInv.lost {x : Loop} {ch t0 : Nat} {h : List (Nat × Bool)} (hr : ReadInv v c ch x h)
    (hb : ∀ r ∈ h, t0 ≤ r.1 → r.2 = false) (hT : t0 + 3000 + 2 * v.period ≤ x.T) :
    ∃ t, disturbedSince h = some t ∧ 3000 ≤ (h.map (·.1)).headD 0 - t := by
  have h1 := hr.inv.lt_evalBy ch
  have h2 := hr.next
  have hne : h ≠ [] := by
    rintro rfl
    have : evalBy v ch x ≤ 0 + v.period := h2
    omega
  obtain ⟨t, k1, k2⟩ := disturbed_since hr.gaps hb hne (by omega)
  exact ⟨t, k1, by omega⟩

theorem Spec.LoopTemps.inv {x : Loop} {h : List (Nat × Bool)} (hv : v.Sane) (hh : LoopTemps v c x h) :
    ReadInv v c 1 x h ∧ Timed c x.s x.T h := by
  induction hh with
  | boot hv e => exact ⟨ReadInv.boot (by decide) hv e, Timed.boot hv e⟩
  | reads _ hs ht hr hb ih =>
    refine ⟨ih.1.reads hv (by decide) hs ht hr.1 hr.2.1, ?_⟩
    rcases hs.sys with ⟨h, -⟩ | ⟨f, hf, -, hf', eT, -⟩
    · cases h
    cases hf
    have eT : _ = _ := eT
    rw [eT]
    exact Timed.reads ih.2 hr hb hf'
  | @other x e y h _ hs ht hn ih =>
    refine ⟨ih.1.other hv (by decide) hs ht hn, ?_⟩
    rcases hs.sys with ⟨-, es, eT, -⟩ | ⟨f, rfl, hp, hf, eT, -⟩
    · rw [es, eT]; exact ih.2
    · rw [eT]
      unfold Loop.after
      simp only []
      by_cases ht : f = .tick
      · subst ht
        exact Timed.tick ih.2 hf
      · rw [if_neg ht]
        exact Timed.other ih.2 hp hf ht fun hh => hn ⟨congrArg _ hh.1, hh.2⟩

theorem Spec.LoopCurrs.inv {x : Loop} {xs : List Int} {h : List (Nat × Bool)} (hv : v.Sane) (hh : LoopCurrs v c x xs h) :
    ReadInv v c 0 x h ∧ CurrHist c x.s x.T xs h := by
  induction hh with
  | boot hv e => exact ⟨ReadInv.boot (by decide) hv e, CurrHist.boot hv e⟩
  | reads _ hs ht hr hb ih =>
    refine ⟨ih.1.reads hv (by decide) hs ht hr.1 hr.2.1, ?_⟩
    rcases hs.sys with ⟨h, -⟩ | ⟨f, hf, -, hf', eT, -⟩
    · cases h
    cases hf
    have eT : _ = _ := eT
    rw [eT]
    exact CurrHist.reads ih.2 hr hb hf'
  | @other x e y xs h _ hs ht hn ih =>
    refine ⟨ih.1.other hv (by decide) hs ht hn, ?_⟩
    rcases hs.sys with ⟨-, es, eT, -⟩ | ⟨f, rfl, hp, hf, eT, -⟩
    · rw [es, eT]; exact ih.2
    · rw [eT]
      unfold Loop.after
      simp only []
      by_cases ht : f = .tick
      · subst ht
        exact CurrHist.tick ih.2 hf
      · rw [if_neg ht]
        exact CurrHist.other ih.2 hp hf ht fun hh => hn ⟨congrArg _ hh.1, hh.2⟩

/-! ### stores -/

/-- what the store in progress has left to do -/
def storeLeft (st : SettingsSt) : Nat := 2 * (64 - st.eeOff) + st.prog.toList.length

/-- the requests and stores of the main loop: `r` is the latest pending request, `S` the start of the latest store -/
structure PendInv (v : Speed) (c : Conf) (x : Loop) (r : Option Nat) (S : Nat) : Prop where
  inv : LoopInv v c x
  un : Unsaved c x.s x.T r
  last : Lasting c x.s
  soon : ∀ R, r = some R → x.T ≤ R + 1000 ∨ callBy v .settings x ≤ R + 1000 + 2 * v.W
  past : S ≤ x.T
  after : ∀ R, r = some R → S ≤ R ∧ R ≤ x.T
  busy : storing x.s.set = true → x.ee + v.B * storeLeft x.s.set ≤ S + 128 * v.B ∧ x.T ≤ x.ee + v.B

theorem PendInv.boot {ee : Nat → Nat} {pinb : BitVec 8} {s : Sys} (hv : ValidEeprom c ee) (e : Verif.boot c ee pinb = some s)
    (hl : Lasting c s) : PendInv v c ⟨s, .reset, 0, 0, 0, 0, 0⟩ none 0 := by
  refine ⟨LoopInv.boot hv e, Unsaved.boot hv e, hl, fun R h => (by cases h), Nat.le_refl _, fun R h => (by cases h), ?_⟩
  have hst : settingsInit c ee = some s.set := boot_set hv e
  intro hh
  exfalso
  unfold settingsInit at hst
  obtain ⟨x, -, hst⟩ := Option.bind_eq_some_iff.mp hst
  have hh : storing s.set = true := hh
  rw [← Option.some.inj hst] at hh
  cases hh

theorem storeLeft_pos {s : Sys} (h : Lasting c s) (hst : storing s.set = true) : 1 ≤ storeLeft s.set := by
  obtain ⟨-, j, κ, hi⟩ := lasting_inv h
  obtain ⟨-, -, hoff, hie, -⟩ := hi.busy hst
  unfold storeLeft
  simp only [storing, Bool.or_eq_true] at hst
  rcases hst with h | h
  · have := hie.mp h
    omega
  · obtain ⟨p, hp⟩ := Option.isSome_iff_exists.mp h
    rw [hp]
    show 1 ≤ _ + 1
    omega

theorem PendInv.ends {x : Loop} {r : Option Nat} {S : Nat} (h : PendInv v c x r S) (hst : storing x.s.set = true) :
    x.T ≤ S + 128 * v.B := by
  obtain ⟨h1, h2⟩ := h.busy hst
  have h3 := Nat.mul_le_mul_left v.B (storeLeft_pos h.last hst)
  omega

theorem PendInv.late {x : Loop} {r : Option Nat} {S R : Nat} (h : PendInv v c x r S) (hR : r = some R) :
    x.T ≤ R + 1000 + 2 * v.W := by
  have := h.inv.dog
  have := le_callBy (v := v) .settings x
  rcases h.soon R hR with h | h <;> omega

theorem PendInv.step {x y : Loop} {e : Option Ev} {r : Option Nat} {S : Nat} (hv : v.Sane) (h : PendInv v c x r S)
    (hs : LoopStep c x e y) (ht : InTime v y) :
    ∃ r' S', PendInv v c y r' S' ∧ (∀ R, r' = some R → r = some R ∨ (Requests x e y ∧ R = x.T)) ∧
      (S' = S ∨ ∃ R, r = some R ∧ S' ≤ R + 1000 + 2 * v.W) ∧
      (StartsStore x.s y.s → S + 1000 ≤ S') ∧ (¬ StartsStore x.s y.s → S' = S) := by
  have hW : v.W ≤ 8191 := by
    have : 5 + 50 + 2 * v.A + 4 * v.W ≤ 32767 := hv.1
    omega
  have hinv := h.inv.step hv hs ht
  have hT := hs.time
  have hrun := (window_inv h.inv.win).1
  have hi := Running.inv hrun
  have hdog := h.inv.dog
  have hres := h.inv.reset
  -- the deadline of the call, for a step which is no call
  have soon (hn : ¬ Calls .settings x e y) (hr : y.reset ≤ x.T) : ∀ R, r = some R →
      y.T ≤ R + 1000 ∨ callBy v .settings y ≤ R + 1000 + 2 * v.W := by
    intro R hR
    have h1 := callBy_step (v := v) (by decide) hdog hs hn
    have h2 := callBy_le (v := v) .settings y
    rcases h.soon R hR with h | h
    · by_cases hl : y.T ≤ R + 1000
      · exact Or.inl hl
      · right; omega
    · right; omega
  have busy (hl : Lasting c y.s) (hst : storing y.s.set = true) : y.T ≤ y.ee + v.B :=
    ht.2.2 (C66_ends c y.s hl hst).1
  have hsys := hs.sys
  rcases hsys with ⟨rfl, es, eT, -, -, ee⟩ | ⟨f, rfl, hp, hf, eT, -, -, ee, er⟩
  · refine ⟨r, S, ⟨hinv, by rw [es, eT]; exact h.un, by rw [es]; exact h.last, ?_, by rw [eT]; exact h.past,
      by rw [eT]; exact h.after, ?_⟩, fun R hR => Or.inl hR, Or.inl rfl, ?_, fun _ => rfl⟩
    · refine soon (by rintro ⟨_, _, h, -⟩; cases h) ?_
      cases hs
      exact Nat.le_refl _
    · intro hst
      refine ⟨?_, busy (by rw [es]; exact h.last) hst⟩
      rw [es] at hst ⊢
      rw [ee]
      exact (h.busy hst).1
    · rw [es]
      exact fun hh => by have h1 := hh.1; rw [hh.2] at h1; cases h1
  · have hcall : f ≠ .settingsWork → ¬ Calls .settings x (some f) y := by
      rintro hf ⟨g, pinb, h1, h2⟩
      cases h1
      cases h2
      exact hf rfl
    by_cases hstart : StartsStore x.s y.s
    · -- a store starts
      have hfw := C66_only c x.s y.s f hrun hf hstart
      subst hfw
      have eT : y.T = x.T := eT
      have hser := C66_served c x.s y.s x.T r h.un hf (fun R hR => by have := h.late hR; omega)
      obtain ⟨R, hR, hRT⟩ := hser.1.mp hstart
      have hno : storing x.s.set = false := by
        cases hq : storing x.s.set with
        | false => rfl
        | true =>
          have h1 := h.ends hq
          have h2 := (h.after R hR).1
          have := hv.2
          omega
      have hlast : Lasting c y.s := Lasting.step h.last hp hf fun _ => hno
      have hlate := h.late hR
      refine ⟨none, x.T, ⟨hinv, ?_, hlast, fun R h => (by cases h), by omega, fun R h => (by cases h), fun hst => ⟨?_, busy hlast hst⟩⟩,
        fun R h => (by cases h), Or.inr ⟨R, hR, hlate⟩, fun _ => (by
          have := (h.after R hR).1; omega), fun hh => absurd hstart hh⟩
      · have := Unsaved.other h.un hp hf (by decide) hser.2.1
        unfold latestRequest at this
        rw [if_pos hstart.2] at this
        rw [eT]
        exact this
      · have e1 : y.ee = x.T := by
          rw [ee]
          unfold Loop.after
          exact if_pos (Or.inr (Or.inr hstart))
        have e2 := (hser.2.2 hstart).2
        have e3 : y.s.set.prog = none := by
          have : y.s = { x.s with set := (settingsWork c x.s.now x.s.set).1 } := (Option.some.inj hf).symm
          have hprog : (settingsWork c x.s.now x.s.set).1.prog = x.s.set.prog := by
            unfold settingsWork
            split
            · rfl
            · split
              · rfl
              · simp only []
                split <;> rfl
          rw [this]
          show (settingsWork c x.s.now x.s.set).1.prog = none
          rw [hprog]
          simp only [storing, Bool.or_eq_false_iff] at hno
          cases hq : x.s.set.prog with
          | none => rfl
          | some p => rw [hq] at hno; cases hno.2
        unfold storeLeft
        rw [e1, e2, e3]
        show x.T + v.B * 128 ≤ _
        omega
    · have hlast : Lasting c y.s := Lasting.step h.last hp hf fun hh => absurd hh hstart
      -- the record of requests
      have hrec : ∃ r', Unsaved c y.s y.T r' ∧ (∀ R, r' = some R → r = some R ∨ (Requests x (some f) y ∧ R = x.T)) := by
        rw [eT]
        unfold Loop.after
        simp only []
        by_cases htick : f = .tick
        · subst htick
          exact ⟨r, Unsaved.tick h.un hf, fun R hR => Or.inl hR⟩
        · rw [if_neg htick]
          by_cases hsame : SameVals x.s.set.cache y.s.set.cache
          · refine ⟨_, Unsaved.other h.un hp hf htick hsame, fun R hR => ?_⟩
            unfold latestRequest at hR
            split at hR
            · cases hR
            · rename_i h1
              split at hR
              · exact Or.inl hR
              · rename_i h2
                cases hR
                refine Or.inr ⟨Or.inr ⟨by simpa using h1, ?_⟩, rfl⟩
                cases hq : x.s.set.storeRequest with
                | false => exact Or.inl rfl
                | true => exact Or.inr fun hh => h2 ⟨hq, hh⟩
          · exact ⟨some x.T, Unsaved.change h.un hp hf hsame, fun R hR => by cases hR; exact Or.inr ⟨Or.inl hsame, rfl⟩⟩
      obtain ⟨r', hun, hr'⟩ := hrec
      refine ⟨r', S, ⟨hinv, hun, hlast, ?_, by have := h.past; omega, ?_, fun hst => ⟨?_, busy hlast hst⟩⟩, hr', Or.inl rfl,
        fun hh => absurd hh hstart, fun _ => rfl⟩
      · intro R hR
        rcases hr' R hR with h1 | ⟨-, rfl⟩
        · by_cases hfw : f = .settingsWork
          · subst hfw
            have hser := C66_served c x.s y.s x.T r h.un hf (fun R hR => by have := h.late hR; omega)
            have : ¬ (R + 1000 ≤ x.T) := fun hh => hstart (hser.1.mpr ⟨R, h1, hh⟩)
            have eT : y.T = x.T := eT
            left; omega
          · exact soon (hcall hfw) (by omega) R h1
        · left; omega
      · intro R hR
        rcases hr' R hR with h1 | ⟨-, rfl⟩
        · have := h.after R h1
          omega
        · exact ⟨h.past, by omega⟩
      · by_cases hfe : f = .eeIsr ∨ f = .eeDone
        · have hstx : storing x.s.set = true := by
            rcases hfe with rfl | rfl
            · simp only [possible, eeReady, Bool.and_eq_true] at hp
              simp [storing, hp.1]
            · have hp : x.s.set.prog.isSome = true := hp
              simp [storing, hp]
          have e1 : y.ee = x.T := by
            rw [ee]
            unfold Loop.after
            simp only []
            rw [if_pos (by rcases hfe with h | h; exact Or.inl h; exact Or.inr (Or.inl h))]
          have hlt : storeLeft y.s.set < storeLeft x.s.set := (C66_ends c x.s h.last hstx).2 f y.s hfe hp hf
          obtain ⟨b1, b2⟩ := h.busy hstx
          have := Nat.mul_le_mul_left v.B (show storeLeft y.s.set + 1 ≤ storeLeft x.s.set from hlt)
          rw [Nat.mul_succ] at this
          omega
        · have e1 : y.ee = x.ee := by
            rw [ee]
            unfold Loop.after
            simp only []
            rw [if_neg (by
              rintro (h | h | h)
              · exact hfe (Or.inl h)
              · exact hfe (Or.inr h)
              · exact hstart h)]
          have e2 : storing y.s.set = storing x.s.set ∧ storeLeft y.s.set = storeLeft x.s.set := by
            rcases step_set hi hf with ⟨_, h, -⟩ | ⟨h, -⟩ | ⟨h, hw⟩ | hw | ⟨z, -, hw⟩
            · exact absurd (Or.inl h) hfe
            · exact absurd (Or.inr h) hfe
            · have hsame : (settingsWork c x.s.now x.s.set).1 = x.s.set := by
                by_contra hne
                apply hstart
                unfold StartsStore
                rw [hw]
                show _ ∧ (settingsWork c x.s.now x.s.set).1.storeRequest = false
                unfold settingsWork at hne ⊢
                split at hne
                · exact absurd rfl hne
                · rename_i h1
                  rw [if_neg h1]
                  split at hne
                  · exact absurd rfl hne
                  · rename_i h2
                    rw [if_neg h2]
                    refine ⟨by simpa using h1, ?_⟩
                    simp only []
                    split <;> rfl
              rw [hw]
              show storing (settingsWork c x.s.now x.s.set).1 = _ ∧ storeLeft (settingsWork c x.s.now x.s.set).1 = _
              rw [hsame]
              exact ⟨rfl, rfl⟩
            · rw [hw]; exact ⟨rfl, rfl⟩
            · rw [hw]; exact ⟨rfl, rfl⟩
          rw [e1, e2.2]
          exact (h.busy (e2.1 ▸ hst)).1

theorem Spec.LoopLife.inv {x : Loop} (hv : v.Sane) (h : LoopLife v c x) : ∃ r S, PendInv v c x r S := by
  induction h with
  | @first pinb s e => exact ⟨none, 0, PendInv.boot (shipped_valid c) e (Lasting.first e)⟩
  | step _ hs ht ih =>
    obtain ⟨r, S, h⟩ := ih
    obtain ⟨r', S', h, -⟩ := h.step hv hs ht
    exact ⟨r', S', h⟩
  | @reboot x b pinb s _ hb hvalid e ih =>
    obtain ⟨r, S, h⟩ := ih
    exact ⟨none, 0, PendInv.boot hvalid e (Lasting.reboot h.last hb hvalid e)⟩

/-- a stretch in which nothing is requested -/
theorem Spec.Stretch.pend {x y : Loop} (hv : v.Sane) (hx : LoopLife v c x) (h : Stretch v c Requests x y) :
    ∃ r S, PendInv v c y r S ∧ (∀ R, r = some R → R ≤ x.T) ∧ S ≤ x.T + 1000 + 2 * v.W := by
  induction h with
  | start =>
    obtain ⟨r, S, h⟩ := hx.inv hv
    exact ⟨r, S, h, fun R hR => (h.after R hR).2, by have := h.past; omega⟩
  | step _ hs ht hn ih =>
    obtain ⟨r, S, h, h1, h2⟩ := ih
    obtain ⟨r', S', h, h3, h4, -⟩ := h.step hv hs ht
    refine ⟨r', S', h, fun R hR => ?_, ?_⟩
    · rcases h3 R hR with h | ⟨h, -⟩
      · exact h1 R h
      · exact absurd h hn
    · rcases h4 with rfl | ⟨R, hR, h4⟩
      · exact h2
      · have := h1 R hR
        omega

end Verif
