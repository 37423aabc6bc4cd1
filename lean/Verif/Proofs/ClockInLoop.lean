import Verif.Proofs.ClockIn
import Verif.Proofs.LoopInDemo
/-
The runs of the controllers in the main loop, with interrupts inside the work functions.
-/
namespace Verif
open Spec Props

variable {v : Speed} {c : Conf}

/-- what a step does to the time of the temperature controller -/
theorem LoopIStep.tempTime {x y : LoopI} {e : Option Ev} (h : LoopIInv v c x) (hs : LoopIStep c x e y) :
    (y.s.ct.dtTimer = x.s.ct.dtTimer ∧ ∀ f, e = some f → ¬ (RunsTemp x.s f y.s ∨ y.s.ct.enabled ≠ x.s.ct.enabled)) ∨
    ((∃ f, e = some f ∧ (RunsTemp x.s f y.s ∨ y.s.ct.enabled ≠ x.s.ct.enabled)) ∧
      ∃ t, x.T ≤ t ∧ t ≤ y.T ∧ y.s.ct.dtTimer = nowAt t) := by
  have hn : x.s.now = nowAt x.T := h.now
  have no : ∀ {f : Ev}, f ≠ .measureWork → ¬ RunsTemp x.s f y.s := fun hf hr => hf hr.1.1
  cases hs with
  | reset => exact Or.inl ⟨rfl, fun f hf => by cases hf⟩
  | pass => exact Or.inl ⟨rfl, fun f hf => by cases hf⟩
  | tick _ hs =>
    cases hs
    exact Or.inl ⟨rfl, fun f hf => by cases hf; rintro (hr | hr); exact no (by simp) hr; exact hr rfl⟩
  | adc => exact Or.inl ⟨rfl, fun f hf => by cases hf; rintro (hr | hr); exact no (by simp) hr; exact hr rfl⟩
  | ee he hp hs =>
    rcases he with rfl | rfl
    all_goals
      first
        | cases hs
        | (obtain ⟨set, -, hs⟩ := Option.bind_eq_some_iff.mp hs; cases hs)
      exact Or.inl ⟨rfl, fun f hf => by cases hf; rintro (hr | hr); exact no (by simp) hr; exact hr rfl⟩
  | @call f g s' pinb hD hc hw =>
    by_cases hf : f = .measureWork
    · subst hf
      cases hav : x.s.meas.resultAvail
      · have := (work_none hav hw).1
        rw [this]
        refine Or.inl ⟨rfl, fun f hf => ?_⟩
        cases hf
        rintro (hr | hr)
        · have := hr.1.2.1
          rw [hav] at this
          cases this
        · exact hr rfl
      · have hact := h.inv.meas.act
        have ha : x.s.meas.active = 0 ∨ x.s.meas.active = 1 := by omega
        rcases ha with ha | ha
        · obtain ⟨-, k2, -⟩ := workT_curr h.inv hn hw hav ha
          refine Or.inl ⟨by rw [k2], fun f hf => ?_⟩
          cases hf
          rintro (hr | hr)
          · have := hr.1.2.2
            omega
          · exact hr (by rw [k2])
        · obtain ⟨-, -, k3, ⟨a1, a2, t, t', b1, b2, b3, b4, -⟩ | ⟨k4, k5⟩⟩ := workT_temp hn hw hav ha
          · exact Or.inr ⟨⟨_, rfl, Or.inl ⟨⟨rfl, hav, ha⟩, a1, a2⟩⟩, t', by omega, b3, b4⟩
          · refine Or.inl ⟨k5, fun f hf => ?_⟩
            cases hf
            rintro (hr | hr)
            · exact k4 hr.2
            · exact hr k3
    · rcases workT_hand h.inv hn hw hf with ⟨k1, k2⟩ | ⟨k1, t, k2⟩
      · refine Or.inl ⟨k1, fun f' hf' => ?_⟩
        cases hf'
        rintro (hr | hr)
        · exact no hf hr
        · exact hr k2
      · exact Or.inr ⟨⟨_, rfl, Or.inr k1⟩, t, k2⟩

/-- what a step does to the time of the current controller -/
theorem LoopIStep.currTime {x y : LoopI} {e : Option Ev} (h : LoopIInv v c x) (hs : LoopIStep c x e y) :
    (y.s.cc.timer = x.s.cc.timer ∧ ∀ f, e = some f → ¬ RunsCurr x.s f y.s) ∨
    ((∃ f, e = some f ∧ RunsCurr x.s f y.s) ∧ ∃ t, x.T ≤ t ∧ t ≤ y.T ∧ y.s.cc.timer = nowAt t) := by
  have hn : x.s.now = nowAt x.T := h.now
  have no : ∀ {f : Ev}, f ≠ .measureWork → ¬ RunsCurr x.s f y.s := fun hf hr => hf hr.1.1
  cases hs with
  | reset => exact Or.inl ⟨rfl, fun f hf => by cases hf⟩
  | pass => exact Or.inl ⟨rfl, fun f hf => by cases hf⟩
  | tick _ hs =>
    cases hs
    exact Or.inl ⟨rfl, fun f hf => by cases hf; exact no (by simp)⟩
  | adc => exact Or.inl ⟨rfl, fun f hf => by cases hf; exact no (by simp)⟩
  | ee he hp hs =>
    rcases he with rfl | rfl
    all_goals
      first
        | cases hs
        | (obtain ⟨set, -, hs⟩ := Option.bind_eq_some_iff.mp hs; cases hs)
      exact Or.inl ⟨rfl, fun f hf => by cases hf; exact no (by simp)⟩
  | @call f g s' pinb hD hc hw =>
    by_cases hf : f = .measureWork
    · subst hf
      cases hav : x.s.meas.resultAvail
      · have := (work_none hav hw).1
        rw [this]
        refine Or.inl ⟨rfl, fun f hf => ?_⟩
        cases hf
        intro hr
        have := hr.1.2.1
        rw [hav] at this
        cases this
      · have hact := h.inv.meas.act
        have ha : x.s.meas.active = 0 ∨ x.s.meas.active = 1 := by omega
        rcases ha with ha | ha
        · obtain ⟨-, -, ⟨a2, t, t', b1, b2, b3, b4, -⟩ | ⟨k4, k5⟩⟩ := workT_curr h.inv hn hw hav ha
          · exact Or.inr ⟨⟨_, rfl, ⟨rfl, hav, ha⟩, a2⟩, t', by omega, b3, b4⟩
          · refine Or.inl ⟨k5, fun f hf => ?_⟩
            cases hf
            exact fun hr => k4 hr.2
        · obtain ⟨-, k2, -⟩ := workT_temp hn hw hav ha
          refine Or.inl ⟨k2, fun f hf => ?_⟩
          cases hf
          intro hr
          have := hr.1.2.2
          omega
    · refine Or.inl ⟨(congrArg ContrCurr.timer (workT_cc hf hw) :), fun f' hf' => ?_⟩
      cases hf'
      exact no hf

/-- the time `t` is one of the step `a`, which is over and was not longer than a watchdog period -/
def Stamp (v : Speed) (x : LoopI) (a : During) (t : Int) : Prop :=
  a.stop ≤ x.T ∧ a.stop ≤ a.start + v.W ∧ ∃ k, a.start ≤ k ∧ k ≤ a.stop ∧ t = nowAt k

/-- the times of the controllers are those of their last runs -/
structure ClockI (v : Speed) (c : Conf) (x : LoopI) (a b : During) : Prop where
  run : LoopIRun v c x
  temp : Stamp v x a x.s.ct.dtTimer
  curr : Stamp v x b x.s.cc.timer
  next : x.s.ct.enabled = true → x.s.ct.emergency = false → evalByI v 1 x ≤ a.stop + v.period

theorem Stamp.later {x y : LoopI} {a : During} {t t' : Int} (h : Stamp v x a t) (hT : x.T ≤ y.T) (e : t' = t) :
    Stamp v y a t' := by
  obtain ⟨h1, h2, h3⟩ := h
  exact ⟨Nat.le_trans h1 hT, h2, e ▸ h3⟩

/-- a step takes at most a watchdog period -/
theorem LoopIInv.len {x y : LoopI} {e : Option Ev} (h : LoopIInv v c x) (hs : LoopIStep c x e y) (ht : InTimeI v y) :
    x.T ≤ y.T ∧ y.T ≤ x.T + v.W := by
  have h1 := h.reset
  have h2 := ht.1
  have h3 := h.dog
  cases hs
  all_goals
    simp only [] at h2 ⊢
    omega

theorem ClockI.of {x : LoopI} {a b : During} (hv : v.SaneI) (h : LoopIClocked v c x a b) : ClockI v c x a b := by
  have main : ∀ {x y : LoopI} {e : Option Ev} {a b : During}, ClockI v c x a b → LoopIStep c x e y → InTimeI v y →
      (∀ f, e = some f → y.s.ct.enabled = x.s.ct.enabled ∧ ¬ RunsTemp x.s f y.s) →
      y.s.ct.enabled = true → y.s.ct.emergency = false → evalByI v 1 y ≤ a.stop + v.period := by
    intro x y e a b hc hs ht hn hen hem
    have hinv := hc.run.inv hv
    by_cases hev : EvaluatesI 1 x e y
    · obtain ⟨rfl, h1, h2⟩ := hev
      obtain ⟨n1, n2⟩ := hn _ rfl
      exact absurd ⟨⟨rfl, h1, h2⟩, n1 ▸ hen, hem⟩ n2
    · refine Nat.le_trans (evalByI_step hv (by decide) hinv hs ht hev) (hc.next ?_ ?_)
      · cases e with
        | none => cases hs <;> exact hen
        | some f => exact (hn f rfl).1 ▸ hen
      · exact (hs.tempOther hv hinv ht hev).2.1 ▸ hem
  induction h with
  | @boot ee pinb s hv' e =>
    obtain ⟨-, -, i3, i4, -, -⟩ := clocked_inv (Clocked.boot hv' e)
    have hi : LoopIInv v c ⟨s, .reset, 0, 0, 0, 0, 0⟩ := LoopIInv.boot hv' e
    exact ⟨.boot hv' e, ⟨Nat.le_refl _, by simp, 0, Nat.le_refl _, Nat.le_refl _, i3⟩,
      ⟨Nat.le_refl _, by simp, 0, Nat.le_refl _, Nat.le_refl _, i4⟩, fun _ _ => hi.evalBy_le (by decide)⟩
  | @temp x f y a b h hs ht hr ih =>
    have hinv := ih.run.inv hv
    have hinv' := hinv.step hv hs ht
    obtain ⟨l1, l2⟩ := hinv.len hs ht
    refine ⟨ih.run.step hs ht, ?_, ?_, fun _ _ => hinv'.evalBy_le (by decide)⟩
    · rcases hs.tempTime hinv with ⟨-, k⟩ | ⟨-, t, k1, k2, k3⟩
      · exact absurd hr (k f rfl)
      · exact ⟨Nat.le_refl _, l2, t, k1, k2, k3⟩
    · rcases hs.currTime hinv with ⟨k, -⟩ | ⟨⟨f', e, k⟩, -⟩
      · exact ih.curr.later l1 k
      · cases e
        exfalso
        rcases hr with hr | hr
        · have h1 := hr.1.2.2
          have h2 := k.1.2.2
          omega
        · obtain ⟨⟨rfl, hav, ha⟩, -⟩ := k
          cases hs with
          | ee he => rcases he with h | h <;> cases h
          | call _ _ hw => exact hr (by rw [(workT_curr hinv.inv hinv.now hw hav ha).2.1])
  | @curr x f y a b h hs ht hr ih =>
    have hinv := ih.run.inv hv
    obtain ⟨l1, l2⟩ := hinv.len hs ht
    have key : y.s.ct = x.s.ct := by
      obtain ⟨⟨rfl, hav, ha⟩, -⟩ := hr
      cases hs with
      | ee he => rcases he with h | h <;> cases h
      | call _ _ hw => exact (workT_curr hinv.inv hinv.now hw hav ha).2.1
    refine ⟨ih.run.step hs ht, ih.temp.later l1 (by rw [key]), ?_, main ih hs ht fun f' hf' => ?_⟩
    · rcases hs.currTime hinv with ⟨-, k⟩ | ⟨-, t, k1, k2, k3⟩
      · exact absurd hr (k f rfl)
      · exact ⟨Nat.le_refl _, l2, t, k1, k2, k3⟩
    · cases hf'
      refine ⟨by rw [key], fun hh => ?_⟩
      have h1 := hh.1.2.2
      have h2 := hr.1.2.2
      omega
  | @other x e y a b h hs ht hn ih =>
    have hinv := ih.run.inv hv
    obtain ⟨l1, l2⟩ := hinv.len hs ht
    refine ⟨ih.run.step hs ht, ?_, ?_, main ih hs ht fun f hf => ⟨(hn f hf).1, (hn f hf).2.1⟩⟩
    · rcases hs.tempTime hinv with ⟨k, -⟩ | ⟨⟨f, e, k⟩, -⟩
      · exact ih.temp.later l1 k
      · obtain ⟨n1, n2, -⟩ := hn f e
        rcases k with k | k
        · exact absurd k n2
        · exact absurd n1 k
    · rcases hs.currTime hinv with ⟨k, -⟩ | ⟨⟨f, e, k⟩, -⟩
      · exact ih.curr.later l1 k
      · exact absurd k (hn f e).2.2

/-- the time step of a run -/
theorem Stamp.dt {x : LoopI} {a : During} {d : Int} {t T' : Nat} {dt : Int} (h : Stamp v x a d)
    (e : elapsedDt (nowAt t) d = some dt) (h1 : x.T ≤ t) (h2 : t ≤ T') (h3 : t ≤ a.start + 32767) :
    ∃ ms, Between a x.T T' ms ∧ TimeStep ms dt := by
  obtain ⟨k1, k2, k, k3, k4, rfl⟩ := h
  obtain ⟨dt', e1, e2⟩ := elapsedDt_eq k t (by omega) (by omega)
  rw [e1] at e
  cases e
  exact ⟨t - k, ⟨by omega, by omega⟩, e2⟩

/-- every execution has such times -/
theorem Spec.LoopIClocked.exists {P : LoopI → Option Ev → LoopI → Prop} {x y : LoopI} {a b : During}
    (h : LoopIClocked v c x a b) (hs : StretchI v c P x y) : ∃ a' b', LoopIClocked v c y a' b' := by
  induction hs with
  | start => exact ⟨a, b, h⟩
  | @step y e z _ hs ht _ ih =>
    obtain ⟨a', b', ih⟩ := ih
    by_cases hh : ∃ f, e = some f ∧ (RunsTemp y.s f z.s ∨ z.s.ct.enabled ≠ y.s.ct.enabled)
    · obtain ⟨f, rfl, hr⟩ := hh
      exact ⟨_, _, ih.temp hs ht hr⟩
    · by_cases hc : ∃ f, e = some f ∧ RunsCurr y.s f z.s
      · obtain ⟨f, rfl, hr⟩ := hc
        exact ⟨_, _, ih.curr hs ht hr⟩
      · refine ⟨a', b', ih.other hs ht fun f hf => ⟨?_, fun hr => hh ⟨f, hf, Or.inl hr⟩, fun hr => hc ⟨f, hf, hr⟩⟩⟩
        by_contra hne
        exact hh ⟨f, hf, Or.inr hne⟩

/-- without an evaluation of the current, the current controller is not run -/
theorem Spec.LoopIClocked.stretch {x y : LoopI} {a b : During} (h : LoopIClocked v c x a b)
    (hs : StretchI v c (EvaluatesI 0) x y) : ∃ a', LoopIClocked v c y a' b := by
  induction hs with
  | start => exact ⟨a, h⟩
  | @step y e z _ hs ht hn ih =>
    obtain ⟨a', ih⟩ := ih
    by_cases hh : ∃ f, e = some f ∧ (RunsTemp y.s f z.s ∨ z.s.ct.enabled ≠ y.s.ct.enabled)
    · obtain ⟨f, rfl, hr⟩ := hh
      exact ⟨_, ih.temp hs ht hr⟩
    · refine ⟨a', ih.other hs ht fun f hf => ⟨?_, fun hr => hh ⟨f, hf, Or.inl hr⟩, fun hr => hn ?_⟩⟩
      · by_contra hne
        exact hh ⟨f, hf, Or.inr hne⟩
      · obtain ⟨⟨rfl, h1, h2⟩, -⟩ := hr
        exact ⟨hf, h1, h2⟩

/-- the step evaluates a temperature or switches the temperature controller -/
def TempI (x : LoopI) (e : Option Ev) (y : LoopI) : Prop := EvaluatesI 1 x e y ∨ y.s.ct.enabled ≠ x.s.ct.enabled

instance (x : LoopI) (e : Option Ev) (y : LoopI) : Decidable (TempI x e y) := by unfold TempI; infer_instance

theorem Spec.LoopIClocked.stretchT {x y : LoopI} {a b : During} (h : LoopIClocked v c x a b)
    (hs : StretchI v c TempI x y) : ∃ b', LoopIClocked v c y a b' := by
  induction hs with
  | start => exact ⟨b, h⟩
  | @step y e z _ hs ht hn ih =>
    obtain ⟨b', ih⟩ := ih
    by_cases hc : ∃ f, e = some f ∧ RunsCurr y.s f z.s
    · obtain ⟨f, rfl, hr⟩ := hc
      exact ⟨_, ih.curr hs ht hr⟩
    · refine ⟨b', ih.other hs ht fun f hf => ⟨?_, fun hr => hn (Or.inl ?_), fun hr => hc ⟨f, hf, hr⟩⟩⟩
      · by_contra hne
        exact hn (Or.inr hne)
      · obtain ⟨⟨rfl, h1, h2⟩, -⟩ := hr
        exact ⟨hf, h1, h2⟩

theorem loopBootI_clocked {pinb : BitVec 8} {x : LoopI} (h : loopBootI c pinb = some x)
    (hv : ValidEeprom c (shippedEeprom c)) : LoopIClocked v c x ⟨0, 0⟩ ⟨0, 0⟩ := by
  obtain ⟨s, h1, rfl⟩ := Option.map_eq_some_iff.mp h
  exact LoopIClocked.boot hv h1

/-- a run up to a call of `measure_work`, then on to just before another one, then that one -/
def twoCalls (P Q : LoopI → Option Ev → LoopI → Prop) [∀ x e y, Decidable (P x e y)]
    [∀ x e y, Decidable (Q x e y)] (l l' : List CmdI) (g g' : List Nat) : Option (LoopI × LoopI × LoopI × LoopI) := do
  let b ← loopBootI .m88p 0xFF
  let w ← loopCmdsI .shipped .m88p P b l
  let w' ← loopCmdI .shipped .m88p NeverI w (.call .measureWork g)
  let x ← loopCmdsI .shipped .m88p Q w' l'
  let y ← loopCmdI .shipped .m88p NeverI x (.call .measureWork g')
  return (w, w', x, y)

theorem twoCalls_some {P Q : LoopI → Option Ev → LoopI → Prop} [∀ x e y, Decidable (P x e y)]
    [∀ x e y, Decidable (Q x e y)] {l l' : List CmdI} {g g' : List Nat} {w w' x y : LoopI}
    (h : twoCalls P Q l l' g g' = some (w, w', x, y)) :
    (∃ a b, LoopIClocked .shipped .m88p w a b) ∧ LoopIStep .m88p w (some .measureWork) w' ∧ InTimeI .shipped w' ∧
      StretchI .shipped .m88p Q w' x ∧ LoopIStep .m88p x (some .measureWork) y ∧ InTimeI .shipped y := by
  rw [twoCalls, Option.bind_eq_bind, Option.bind_eq_some_iff] at h
  obtain ⟨b, hb, h⟩ := h
  obtain ⟨w1, h1, h⟩ := Option.bind_eq_some_iff.mp h
  obtain ⟨w2, h2, h⟩ := Option.bind_eq_some_iff.mp h
  obtain ⟨w3, h3, h⟩ := Option.bind_eq_some_iff.mp h
  obtain ⟨w4, h4, h⟩ := Option.bind_eq_some_iff.mp h
  cases h
  obtain ⟨k1, k2, -⟩ := loopCmdI_call h2
  obtain ⟨k3, k4, -⟩ := loopCmdI_call h4
  exact ⟨(loopBootI_clocked hb validEeprom_m88p).exists (loopCmdsI_stretch h1), k1, k2, loopCmdsI_stretch h3, k3, k4⟩

end Verif
