import Verif.Spec.RampIn
import Verif.Proofs.UiInLoop
import Verif.Proofs.RampValue
/-
The ramps of the user interface with interrupts inside the work functions.
-/
namespace Verif
open Spec Props

variable {c : Conf} {v : Speed} {u u' : Ui}

/-- who ramps holds the button down -/
def Held (u : Ui) : Prop := ∀ up, Dir u.ramp = some up → Down u.pins (rampButton up) = true

/-- nothing about the ramp changes -/
structure Stays (u u' : Ui) : Prop where
  screen : u'.screen = u.screen
  ramp : u'.ramp = u.ramp
  rampAt : u'.rampAt = u.rampAt
  period : u'.period = u.period
  vals : u'.vals = u.vals

theorem Stays.refl (u : Ui) : Stays u u := ⟨rfl, rfl, rfl, rfl, rfl⟩

theorem Stays.trans {u1 u2 u3 : Ui} (h : Stays u1 u2) (k : Stays u2 u3) : Stays u1 u3 :=
  ⟨k.1.trans h.1, k.2.trans h.2, k.3.trans h.3, k.4.trans h.4, k.5.trans h.5⟩

theorem Stays.touch (u : Ui) (t : Nat) : Stays u (u.touch t) := by
  obtain ⟨a, b, d, e, f, -⟩ := touch_same u t
  exact ⟨a, b, d, e, f⟩

/-- a ramp begins between the times `A` and `B` -/
def Begins (A B : Nat) (up : Bool) (u : Ui) : Prop :=
  Dir u.ramp = some up ∧ A ≤ u.rampAt ∧ u.rampAt ≤ B ∧ u.period = 400

theorem Begins.stays {A B : Nat} {up : Bool} (h : Begins A B up u) (k : Stays u u') : Begins A B up u' := by
  unfold Begins
  rw [k.ramp, k.rampAt, k.period]
  exact h

theorem starts_dir {m : MenuState} {up : Bool} {r : Ramp} (h : startsRamp m up = some r) : Dir r = some up := by
  cases m <;> cases up <;> cases h <;> rfl

/-- a button in a sample -/
theorem Spec.UiButton.ramp {A B : Nat} {b : Button} {was down : Bool} (h : UiButton c A B u b was down u')
    (hb : b ≠ .iron) : A ≤ B ∧
    ((Stays u u' ∧ ¬ (was = true ∧ down = false)) ∨ u'.ramp = .none ∨
      ∃ up, b = rampButton up ∧ was = false ∧ down = true ∧ Begins A B up u') := by
  cases h with
  | up h => exact ⟨h, .inl ⟨.refl _, by simp⟩⟩
  | @held t h1 h2 => exact ⟨by omega, .inl ⟨.touch _ _, by simp⟩⟩
  | @down t t' h1 h2 h3 =>
    refine ⟨by omega, ?_⟩
    by_cases hs : b = .set
    · subst hs
      exact .inl ⟨.touch _ _, by simp⟩
    · unfold Ui.press
      rw [if_neg hs]
      by_cases hd : u.screen = .debug
      · rw [if_pos hd]
        exact .inl ⟨.trans (u2 := { u with debug := decide (b = .plus) }) ⟨rfl, rfl, rfl, rfl, rfl⟩ (.touch _ _), by simp⟩
      · rw [if_neg hd]
        split
        · rename_i r hr
          refine .inr (.inr ⟨decide (b = .plus), ?_, rfl, rfl, ?_⟩)
          · cases b <;> first | rfl | exact absurd rfl hs | exact absurd rfl hb
          · exact Begins.stays (u := { u with ramp := r, rampAt := t, period := 400 })
              ⟨starts_dir hr, h1, by show t ≤ B; omega, rfl⟩ (.touch _ _)
        · exact .inl ⟨.touch _ _, by simp⟩
  | @release t t' h1 h2 h3 =>
    refine ⟨by omega, .inr (.inl ?_)⟩
    unfold Ui.release Ui.enter
    simp only []
    repeat' split
    all_goals rfl

/-- the ramp after some buttons of a sample -/
def After (A B : Nat) (old pinb : BitVec 8) (done : Button → Prop) (u u' : Ui) : Prop :=
  (Stays u u' ∧ ∀ b, done b → ¬ (Down old b = true ∧ Down pinb b = false)) ∨ u'.ramp = .none ∨
  ∃ up, done (rampButton up) ∧ Down old (rampButton up) = false ∧ Down pinb (rampButton up) = true ∧ Begins A B up u'

theorem After.next {A B A' B' : Nat} {old pinb : BitVec 8} {done : Button → Prop} {b : Button} {u2 : Ui}
    (h : After A A' old pinb done u u') (hA : A ≤ A') (hB : B' ≤ B) (hb : b ≠ .iron)
    (k : UiButton c A' B' u' b (Down old b) (Down pinb b) u2) :
    After A B old pinb (fun x => x = b ∨ done x) u u2 := by
  obtain ⟨k1, k2⟩ := k.ramp hb
  rcases k2 with ⟨k2, k3⟩ | k2 | ⟨up, rfl, k2, k3, k4, k5, k6, k7⟩
  · rcases h with ⟨h1, h2⟩ | h | ⟨up, h1, h2, h3, h4⟩
    · refine .inl ⟨h1.trans k2, ?_⟩
      rintro x (rfl | hx)
      · exact k3
      · exact h2 x hx
    · exact .inr (.inl (k2.ramp.trans h))
    · obtain ⟨p1, p2, p3, p4⟩ := h4.stays k2
      exact .inr (.inr ⟨up, .inr h1, h2, h3, p1, p2, by omega, p4⟩)
  · exact .inr (.inl k2)
  · exact .inr (.inr ⟨up, .inl rfl, k2, k3, k4, by omega, by omega, k7⟩)

/-- a sample -/
theorem Spec.UiSample.ramp {A B : Nat} {pinb : BitVec 8} (h : UiSample c A B pinb u u') (hh : Held u) :
    Held u' ∧ (Stays u u' ∨ u'.ramp = .none ∨ ∃ up, Down u.pins (rampButton up) = false ∧ Begins A B up u') := by
  obtain ⟨T1, T2, u1, u2, u3, h1, h2, h3, rfl⟩ := h
  have e1 := (h1.ramp (by decide)).1
  have e2 := (h2.ramp (by decide)).1
  have e3 := (h3.ramp (by decide)).1
  have a0 : After A A u.pins pinb (fun _ => False) u u := .inl ⟨.refl _, fun _ h => h.elim⟩
  have a1 := a0.next (Nat.le_refl _) (Nat.le_refl _) (by decide) h1
  have a2 := a1.next e1 (Nat.le_refl _) (by decide) h2
  have a3 := a2.next (Nat.le_trans e1 e2) (Nat.le_refl _) (by decide) h3
  rcases a3 with ⟨s, k⟩ | k | ⟨up, -, k1, k2, k3⟩
  · refine ⟨fun up hu => ?_, .inl ⟨s.screen, s.ramp, s.rampAt, s.period, s.vals⟩⟩
    have hu : Dir u3.ramp = some up := hu
    rw [s.ramp] at hu
    have hd := hh up hu
    have hn := k (rampButton up) (by cases up <;> simp [rampButton])
    show Down pinb (rampButton up) = true
    simpa [hd] using hn
  · refine ⟨fun up hu => ?_, .inr (.inl k)⟩
    have hu : Dir u3.ramp = some up := hu
    rw [k] at hu
    cases hu
  · refine ⟨fun up' hu => ?_, .inr (.inr ⟨up, k1, k3⟩)⟩
    have hu : Dir u3.ramp = some up' := hu
    rw [k3.1] at hu
    cases hu
    exact k2

/-- the screen a ramp leads to -/
def Leads (m m' : MenuState) : Prop := m' = m ∨ ((m = .curtemp ∨ m = .selpreset) ∧ m' = .chgpreset)

/-- the work function -/
theorem Spec.UiWork.ramp {A B boost : Nat} {f : Bool × Bool} (h : UiWork A B f boost u u') :
    Stays u u' ∨ u'.ramp = .none ∨
    (∃ up, u.ramp = waiting up ∧ u'.ramp = going up ∧ Begins A B up u' ∧ u.rampAt + 1000 ≤ B) ∨
    (Ramping u.ramp = true ∧ u'.ramp = u.ramp ∧ u.rampAt ≤ B ∧
      u'.vals = stepValue u.vals boost u.screen (decide (u.ramp = .up)) ∧ u'.rampAt = u.rampAt + u.period ∧
      u'.period = (if u.period > 25 then u.period / 2 else u.period) ∧ Leads u.screen u'.screen) := by
  obtain ⟨t1, t2, t3, t4, h1, h2, h3, h4, h5, rfl⟩ := h
  have hw : Stays u ((u.leaveAt t1 t2).fail f) ∨ ((u.leaveAt t1 t2).fail f).ramp = .none := by
    unfold Ui.fail
    have hl : Stays u (u.leaveAt t1 t2) ∨ (u.leaveAt t1 t2).ramp = .none := by
      unfold Ui.leaveAt
      repeat' split
      all_goals first | exact .inl (.refl _) | exact .inr rfl
    split
    · exact hl
    · exact .inr rfl
  generalize (u.leaveAt t1 t2).fail f = w at hw
  rcases hw with hw | hw
  swap
  · refine .inr (.inl ?_)
    unfold Ui.advanceAt
    rw [hw]
    exact hw
  obtain ⟨q1, q2, q3, q4, q5⟩ := hw
  rw [← q1, ← q2, ← q3, ← q4, ← q5]
  have st : Stays u w := ⟨q1, q2, q3, q4, q5⟩
  unfold Ui.advanceAt
  split
  · exact .inl st
  · rename_i hr
    split
    · exact .inr (.inr (.inl ⟨true, hr, rfl, ⟨rfl, by show A ≤ t4; omega, by show t4 ≤ B; omega, rfl⟩, by omega⟩))
    · exact .inl st
  · rename_i hr
    split
    · exact .inr (.inr (.inl ⟨false, hr, rfl, ⟨rfl, by show A ≤ t4; omega, by show t4 ≤ B; omega, rfl⟩, by omega⟩))
    · exact .inl st
  all_goals
    rename_i hr
    split
    · rename_i hd
      refine .inr (.inr (.inr ⟨by rw [hr]; rfl, ?_⟩))
      simp only []
      split
      · rename_i hm
        exact ⟨rfl, by omega, rfl, rfl, rfl, .inr ⟨hm, rfl⟩⟩
      · exact ⟨rfl, by omega, rfl, rfl, rfl, .inl rfl⟩
    · exact .inl st

/-- what a step does to the ramp -/
inductive RampMoves (x : LoopI) (e : Option Ev) (y : LoopI) (boost : Nat) (u u' : Ui) : Prop where
  | stays : Stays u u' → RampMoves x e y boost u u'
  | ends : u'.ramp = .none → RampMoves x e y boost u u'
  | press {up pinb} : e = some (.buttonsWork pinb) → Dir u.ramp ≠ some up → Down u.pins (rampButton up) = false →
      Begins x.T y.T up u' → RampMoves x e y boost u u'
  | late {up} : e = some .menuWork → u.ramp = waiting up → u'.ramp = going up → Begins x.T y.T up u' → u.rampAt + 1000 ≤ y.T →
      RampMoves x e y boost u u'
  | steps : Ramping u.ramp = true → u'.ramp = u.ramp → u.rampAt ≤ y.T →
      u'.vals = stepValue u.vals boost u.screen (decide (u.ramp = .up)) → u'.rampAt = u.rampAt + u.period →
      u'.period = (if u.period > 25 then u.period / 2 else u.period) → Leads u.screen u'.screen →
      RampMoves x e y boost u u'

theorem Spec.UiMoves.ramp {x y : LoopI} {e : Option Ev} (h : UiMoves c x e y u u') (hh : Held u) :
    Held u' ∧ RampMoves x e y x.s.ct.boost u u' := by
  cases h with
  | early => exact ⟨hh, .stays (.refl _)⟩
  | other => exact ⟨hh, .stays (.refl _)⟩
  | @sample pinb t u' h0 h1 _ h2 =>
    obtain ⟨k1, k2⟩ := h2.ramp hh
    refine ⟨k1, ?_⟩
    rcases k2 with k | k | ⟨up, k, p1, p2, p3, p4⟩
    · exact .stays k
    · exact .ends k
    · exact .press h0 (fun hu => by rw [hh up hu] at k; cases k) k ⟨p1, by omega, p3, p4⟩
  | work h0 h =>
    have hp := h.pins
    rcases h.ramp with k | k | ⟨up, k1, k2, k3, k4⟩ | ⟨k1, k2, k3, k4, k5, k6, k7⟩
    · exact ⟨fun up hu => by rw [hp]; exact hh up (by rw [← k.ramp]; exact hu), .stays k⟩
    · exact ⟨fun up hu => (by rw [k] at hu; cases hu), .ends k⟩
    · refine ⟨fun up' hu => ?_, .late h0 k1 k2 k3 k4⟩
      rw [k3.1] at hu
      cases hu
      rw [hp]
      exact hh up (by rw [k1]; cases up <;> rfl)
    · exact ⟨fun up hu => by rw [hp]; exact hh up (by rw [← k2]; exact hu), .steps k1 k2 k3 k4 k5 k6 k7⟩

/-- beside every state of the main loop -/
theorem Spec.LoopIRun.ui {x : LoopI} (hv : v.SaneI) (hW : v.W ≤ 25) (h : LoopIRun v c x) :
    ∃ u, UiInvI v c x u ∧ Held u := by
  induction h with
  | boot hv e => exact ⟨_, UiInvI.boot hv e, fun up hu => by cases hu⟩
  | step _ hs ht ih =>
    obtain ⟨u, h1, h2⟩ := ih
    obtain ⟨u', m, h3⟩ := h1.step hv hW hs ht
    exact ⟨u', h3, (m.ramp h2).1⟩

theorem dir_ramping {r : Ramp} (h : Ramping r = true) : ∃ up, Dir r = some up ∧ r = going up := by
  cases r <;> first | (cases h; done) | exact ⟨true, rfl, rfl⟩ | exact ⟨false, rfl, rfl⟩

theorem going_ramping (up : Bool) : Ramping (going up) = true := by cases up <;> rfl

theorem waiting_not (up : Bool) : Ramping (waiting up) = false ∧ waiting up ≠ .none ∧ Dir (waiting up) = some up := by
  cases up <;> exact ⟨rfl, by decide, rfl⟩

/-- the ramp in the main loop -/
theorem Spec.LoopIRamp.ui {x : LoopI} {a b : Nat} {v0 : Int} (hv : v.SaneI) (hW : v.W ≤ 25) (h : LoopIRamp v c x a b v0) :
    Ramping x.s.menu.ramp = true ∧ ∃ u, UiInvI v c x u ∧ Held u ∧ ∃ t k inc lo hi, a ≤ t ∧ t ≤ b ∧
      valueRange x.s.menu.state = some (inc, lo, hi) ∧ 0 < inc ∧ lo ≤ v0 ∧ v0 ≤ hi ∧
      valueIn x.s.set.cache x.s.ct.boost x.s.menu.state = some (ramped x.s.menu.ramp v0 inc lo hi k) ∧
      u.rampAt = t + due k ∧ u.period = due (k + 1) - due k ∧ (k = 0 ∨ t + due (k - 1) ≤ x.T) := by
  induction h with
  | @start x e y v0 hx hs ht hR hne hv0 =>
    obtain ⟨u, h1, h2⟩ := hx.ui hv hW
    obtain ⟨u', m, h3⟩ := h1.step hv hW hs ht
    obtain ⟨h4, m⟩ := m.ramp h2
    refine ⟨hR, u', h3, h4, ?_⟩
    have ex := h1.rel.agrees.ramp
    have ey := h3.rel.agrees.ramp
    obtain ⟨inc, lo, hi, q1, q2, q3, q4⟩ := value_in h3.inv.inv hv0
    have fin : ∀ up, Begins x.T y.T up u' → ∃ t k inc lo hi, x.T ≤ t ∧ t ≤ y.T ∧
        valueRange y.s.menu.state = some (inc, lo, hi) ∧ 0 < inc ∧ lo ≤ v0 ∧ v0 ≤ hi ∧
        valueIn y.s.set.cache y.s.ct.boost y.s.menu.state = some (ramped y.s.menu.ramp v0 inc lo hi k) ∧
        u'.rampAt = t + due k ∧ u'.period = due (k + 1) - due k ∧ (k = 0 ∨ t + due (k - 1) ≤ y.T) := by
      rintro up ⟨-, p2, p3, p4⟩
      refine ⟨u'.rampAt, 0, inc, lo, hi, p2, p3, q1, q2, q3, q4, ?_, rfl, by rw [p4]; rfl, .inl rfl⟩
      rw [hv0]
      unfold ramped
      congr 1
      simp only [Int.natCast_zero, Int.zero_mul, Int.add_zero, Int.sub_zero]
      split <;> omega
    cases m with
    | stays k => exact absurd (by rw [ex, ey, k.ramp]) hne
    | ends k => rw [ey, k] at hR; cases hR
    | press _ _ _ k => exact fin _ k
    | late _ _ _ k => exact fin _ k
    | steps _ k => exact absurd (by rw [ex, ey, k]) hne
  | @step x e y a b v0 h0 hs ht hk hb ih =>
    obtain ⟨hR, u, h1, h2, t, k, inc, lo, hi, q1, q2, q3, q4, q5, q6, q7, q8, q9, q10⟩ := ih
    obtain ⟨u', m, h3⟩ := h1.step hv hW hs ht
    obtain ⟨h4, m⟩ := m.ramp h2
    refine ⟨by rw [hk]; exact hR, u', h3, h4, ?_⟩
    have hxy := hs.time
    obtain ⟨ax1, ex, ax3, -⟩ := h1.rel.agrees
    obtain ⟨ay1, ey, ay3, -⟩ := h3.rel.agrees
    have hval : valueIn y.s.set.cache y.s.ct.boost x.s.menu.state = valueIn y.s.set.cache x.s.ct.boost x.s.menu.state :=
      value_boost hb
    rw [value_same ax3] at q7
    rw [value_same ay3, value_same ay3] at hval
    cases m with
    | stays s =>
      have z1 : y.s.menu.state = x.s.menu.state := by rw [ay1, ax1, s.screen]
      refine ⟨t, k, inc, lo, hi, q1, q2, by rw [z1]; exact q3, q4, q5, q6, ?_, by rw [s.rampAt]; exact q8,
        by rw [s.period]; exact q9, q10.imp_right fun h => by omega⟩
      rw [value_same ay3, z1, hval, hk, s.vals]
      exact q7
    | ends s => rw [← hk, ey, s] at hR; cases hR
    | press _ n _ s => exact absurd (by rw [← ex, ← hk, ey]; exact s.1) n
    | late _ n => rw [ex, n, (waiting_not _).1] at hR; cases hR
    | steps s1 s2 s3 s4 s5 s6 s7 =>
      obtain ⟨z1, z2⟩ := kind_value (m := x.s.menu.state) (m' := y.s.menu.state) (by rw [ax1, ay1]; exact s7)
      obtain ⟨d1, d2, d3⟩ := due_succ k
      refine ⟨t, k + 1, inc, lo, hi, q1, q2, by rw [z1]; exact q3, q4, q5, q6, ?_, ?_, ?_, .inr ?_⟩
      · rw [value_same ay3, z2, hval, s4, hk]
        have hsv : stepValue u.vals x.s.ct.boost u.screen (decide (u.ramp = .up)) =
            withValue u.vals x.s.ct.boost (ramped x.s.menu.ramp v0 inc lo hi (k + 1)) x.s.menu.state := by
          unfold stepValue
          rw [← ax1, q3, q7]
          simp only [decide_eq_true_eq]
          rw [← ramped_step q5 q6 q4 k, ex]
        rw [hsv, value_with q7]
      · rw [s5, q8, q9]; omega
      · rw [s6, q9]
        show _ = due (k + 2) - due (k + 1)
        have : ((due (k + 1) : Int) - due k) = ((due (k + 1) - due k : Nat) : Int) := by omega
        rw [this] at d3
        split at d3 <;> split <;> omega
      · simp only [Nat.add_sub_cancel]; omega

/-- the wait in the main loop -/
theorem Spec.LoopIWait.ui {x : LoopI} {a b : Nat} (hv : v.SaneI) (hW : v.W ≤ 25) (h : LoopIWait v c x a b) :
    (∃ up, x.s.menu.ramp = waiting up) ∧ ∃ u, UiInvI v c x u ∧ Held u ∧ a ≤ u.rampAt ∧ u.rampAt ≤ b := by
  induction h with
  | @start x e y up hx hs ht hR hne =>
    obtain ⟨u, h1, h2⟩ := hx.ui hv hW
    obtain ⟨u', m, h3⟩ := h1.step hv hW hs ht
    obtain ⟨h4, m⟩ := m.ramp h2
    refine ⟨⟨up, hR⟩, u', h3, h4, ?_⟩
    have ex := h1.rel.agrees.ramp
    have ey := h3.rel.agrees.ramp
    cases m with
    | stays k => exact absurd (by rw [ex, ey, k.ramp]) hne
    | ends k => exact absurd (by rw [← hR, ey, k]) (waiting_not up).2.1
    | press _ _ _ k => exact ⟨k.2.1, k.2.2.1⟩
    | late _ _ _ k => exact ⟨k.2.1, k.2.2.1⟩
    | steps _ k => exact absurd (by rw [ex, ey, k]) hne
  | @step x e y a b h0 hs ht hk ih =>
    obtain ⟨⟨up, hR⟩, u, h1, h2, q1, q2⟩ := ih
    obtain ⟨u', m, h3⟩ := h1.step hv hW hs ht
    obtain ⟨h4, m⟩ := m.ramp h2
    refine ⟨⟨up, by rw [hk]; exact hR⟩, u', h3, h4, ?_⟩
    have ex := h1.rel.agrees.ramp
    have ey := h3.rel.agrees.ramp
    cases m with
    | stays s => rw [s.rampAt]; exact ⟨q1, q2⟩
    | ends s => exact absurd (by rw [← hR, ← hk, ey, s]) (waiting_not up).2.1
    | press _ n _ s => exact absurd (by rw [← ex, ← hk, ey]; exact s.1) n
    | late _ n n' =>
      rw [← ey, hk, hR] at n'
      have := (waiting_not up).1
      rw [n', going_ramping] at this
      cases this
    | steps n =>
      rw [← ex, hR, (waiting_not up).1] at n
      cases n

end Verif
