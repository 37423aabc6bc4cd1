import Verif.Spec.LoopClock
import Verif.Props.Loop
import Verif.Props.Control
/-
The runs of the controllers in the main loop.
-/
namespace Verif
open Spec Props

variable {v : Speed} {c : Conf}

theorem evalBy_le {ch : Nat} (hch : ch < 2) {x : Loop} (h : LoopInv v c x) : evalBy v ch x ≤ x.T + v.period := by
  have hact := (Running.inv (window_inv h.win).1).meas.act
  have := h.conv
  have e1 : avgTime 1 = 50 := rfl
  have e0 : avgTime 0 = 5 := rfl
  unfold evalBy Speed.period
  have ha : x.s.meas.active = 0 ∨ x.s.meas.active = 1 := by omega
  have hc : ch = 0 ∨ ch = 1 := by omega
  rcases ha with ha | ha <;> rcases hc with rfl | rfl <;> rw [ha] <;> split <;> omega

/-- the runs of the controllers in the loop are those of `Clocked` -/
theorem clk_sys {x : Loop} {a b : Nat} (h : LoopClocked v c x a b) :
    LoopRun v c x ∧ Clocked c x.s x.T a b := by
  have notick : ∀ {x y : Loop} {f : Ev}, LoopStep c x (some f) y → f ≠ .tick → y.T = x.T := by
    intro x y f hs hf
    rcases hs.sys with ⟨h, -⟩ | ⟨g, hg, -, -, eT, -⟩
    · cases h
    · cases hg
      rw [eT]
      unfold Loop.after
      simp only []
      rw [if_neg hf]
  have sys : ∀ {x y : Loop} {f : Ev}, LoopStep c x (some f) y → possible x.s f = true ∧ step c x.s f = some y.s := by
    intro x y f hs
    rcases hs.sys with ⟨h, -⟩ | ⟨g, hg, hp, hf, -⟩
    · cases h
    · cases hg; exact ⟨hp, hf⟩
  induction h with
  | boot hv e => exact ⟨LoopRun.boot hv e, Clocked.boot hv e⟩
  | @temp x f y a b _ hs ht hr ih =>
    obtain ⟨hp, hf⟩ := sys hs
    refine ⟨ih.1.step hs ht, ?_⟩
    rw [notick hs (by
      rintro rfl
      rcases hr with ⟨⟨h, -⟩, -⟩ | h
      · cases h
      · have hf : some _ = some y.s := hf
        rw [← Option.some.inj hf] at h
        exact h rfl)]
    exact Clocked.temp ih.2 hp hf hr
  | curr _ hs ht hr ih =>
    obtain ⟨hp, hf⟩ := sys hs
    refine ⟨ih.1.step hs ht, ?_⟩
    rw [notick hs (by rintro rfl; cases hr.1.1)]
    exact Clocked.curr ih.2 hf hr
  | @other x e y a b _ hs ht hn ih =>
    refine ⟨ih.1.step hs ht, ?_⟩
    rcases hs.sys with ⟨-, es, eT, -⟩ | ⟨f, rfl, hp, hf, eT, -⟩
    · rw [es, eT]; exact ih.2
    · by_cases hk : f = .tick
      · subst hk
        rw [eT]
        exact Clocked.tick ih.2 hf
      · obtain ⟨n1, n2, n3⟩ := hn f rfl
        rw [notick hs hk]
        exact Clocked.other ih.2 hp hf hk n1 n2 n3

/-- while regulation is on and the sensor is not lost, the temperature controller is run in time -/
theorem clk_temp (hv : v.Sane) {x : Loop} {a b : Nat} (h : LoopClocked v c x a b) :
    x.s.ct.enabled = true → x.s.ct.emergency = false → evalBy v 1 x ≤ a + v.period := by
  have main : ∀ {x y : Loop} {e : Option Ev} {a : Nat}, LoopRun v c x → LoopStep c x e y → InTime v y →
      (x.s.ct.enabled = true → x.s.ct.emergency = false → evalBy v 1 x ≤ a + v.period) →
      (∀ f, e = some f → y.s.ct.enabled = x.s.ct.enabled ∧ ¬ RunsTemp x.s f y.s) →
      y.s.ct.enabled = true → y.s.ct.emergency = false → evalBy v 1 y ≤ a + v.period := by
    intro x y e a hr hs ht ih hn hen hem
    have hinv := hr.inv hv
    have hi := Running.inv hr.running
    by_cases hev : EvaluatesCh 1 x e y
    · obtain ⟨rfl, h1, h2⟩ := hev
      obtain ⟨n1, n2⟩ := hn _ rfl
      exact absurd ⟨⟨rfl, h1, h2⟩, n1 ▸ hen, hem⟩ n2
    · refine Nat.le_trans (evalBy_step (by decide) hinv hs hev) ?_
      rcases hs.sys with ⟨-, es, -⟩ | ⟨f, rfl, hp, hf, -⟩
      · rw [es] at hen hem
        exact ih hen hem
      · have hen' := (hn f rfl).1
        refine ih (hen' ▸ hen) ?_
        rcases step_eff hi hf with ⟨-, hc⟩ | ⟨rfl, hav, p, pl, hm⟩
        · exact hc.emerg ▸ hem
        · have ha : x.s.meas.active = 0 := by
            have := hi.meas.act
            have : x.s.meas.active ≠ 1 := fun hh => hev ⟨rfl, hav, hh⟩
            omega
          obtain ⟨-, f, hcf⟩ := hm.curr ha
          rw [← hem]
          exact (congrArg ContrTemp.emergency hcf.ct :).symm
  induction h with
  | boot hv e => exact fun _ _ => (ReadInv.boot (ch := 1) (by decide) hv e).next
  | @temp x f y a b h hs ht hr ih =>
    intro _ _
    have hinv := (clk_sys h).1.inv hv
    have hinv' := hinv.step hv hs ht
    have e1 := evalBy_le (ch := 1) (by decide) hinv'
    rcases hr with ⟨⟨rfl, -⟩, -⟩ | hr
    · rcases hs.sys with ⟨h, -⟩ | ⟨g, hg, -, -, eT, -⟩
      · cases h
      · cases hg
        have eT : y.T = x.T := eT
        omega
    · refine Nat.le_trans (evalBy_step (by decide) hinv hs ?_) (evalBy_le (by decide) hinv)
      rintro ⟨he, hav, hac⟩
      cases he
      rcases hs.sys with ⟨h, -⟩ | ⟨g, hg, -, hf, -⟩
      · cases h
      cases hg
      rcases measureWork_eff (Running.inv (clk_sys h).1.running) hf with ⟨h, -⟩ | ⟨-, p, pl, hm⟩
      · rw [hav] at h; cases h
      · exact hr (hm.temp hac).enabled
  | @curr x f y a b h hs ht hr ih =>
    refine main (clk_sys h).1 hs ht ih fun g hg => ?_
    cases hg
    obtain ⟨⟨rfl, hav, hac⟩, -⟩ := hr
    refine ⟨?_, fun hh => ?_⟩
    · rcases hs.sys with ⟨h, -⟩ | ⟨g, hg, -, hf, -⟩
      · cases h
      cases hg
      rcases measureWork_eff (Running.inv (clk_sys h).1.running) hf with ⟨h, -⟩ | ⟨-, p, pl, hm⟩
      · rw [hav] at h; cases h
      · obtain ⟨-, f, hcf⟩ := hm.curr hac
        exact (congrArg ContrTemp.enabled hcf.ct :)
    · have := hh.1.2.2
      omega
  | other h hs ht hn ih =>
    exact main (clk_sys h).1 hs ht ih fun f hf => ⟨(hn f hf).1, (hn f hf).2.1⟩

theorem clk_exists {P : Loop → Option Ev → Loop → Prop} {x y : Loop} {a b : Nat} (h : LoopClocked v c x a b)
    (hs : Stretch v c P x y) : ∃ a' b', LoopClocked v c y a' b' := by
  induction hs with
  | start => exact ⟨a, b, h⟩
  | @step y e z _ hs ht _ ih =>
    obtain ⟨a', b', ih⟩ := ih
    by_cases hh : ∃ f, e = some f ∧ (RunsTemp y.s f z.s ∨ z.s.ct.enabled ≠ y.s.ct.enabled)
    · obtain ⟨f, rfl, hr⟩ := hh
      exact ⟨_, _, ih.temp hs ht hr⟩
    · by_cases hc : ∃ f, e = some f ∧ RunsCurr y.s f z.s
      · obtain ⟨f, rfl, hr⟩ := hc
        exact ⟨_, _, ih.curr hs ht hr⟩
      · refine ⟨a', b', ih.other hs ht fun f hf => ⟨?_, fun hr => hh ⟨f, hf, Or.inl hr⟩, fun hr => hc ⟨f, hf, hr⟩⟩⟩
        by_contra hne
        exact hh ⟨f, hf, Or.inr hne⟩

theorem run_clocked {x : Loop} (h : LoopRun v c x) : ∃ a b, LoopClocked v c x a b := by
  induction h with
  | boot hv e => exact ⟨0, 0, LoopClocked.boot hv e⟩
  | step _ hs ht ih =>
    obtain ⟨a, b, ih⟩ := ih
    exact clk_exists ih (Stretch.step (P := fun _ _ _ => False) Stretch.start hs ht id)

end Verif
