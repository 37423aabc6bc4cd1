import Verif.Spec.FreshIn
import Verif.Proofs.Once
import Verif.Proofs.CurrIn
import Verif.Props.LoopIn
import Verif.Props.Fresh
/-
The display contents in the main loop with interrupts inside the work functions.
-/
namespace Verif
open Spec Props

variable {v : Speed} {c : Conf}

theorem Timeless.view {s t : Sys} (h : Timeless s t) : viewOf t = viewOf s ∧ t.menu.updReq = s.menu.updReq ∧
    t.disp.digit = s.disp.digit ∧ t.mtPrev = s.mtPrev ∧ t.ct.feedback = s.ct.feedback ∧ t.menu.dispErr = s.menu.dispErr :=
  ⟨(congrArg viewOf h :), (congrArg (·.menu.updReq) h :), (congrArg (·.disp.digit) h :), (congrArg (·.mtPrev) h :),
    (congrArg (·.ct.feedback) h :), (congrArg (·.menu.dispErr) h :)⟩

theorem Timeless.kept {s t : Sys} (h : Timeless s t) : ViewKept s t :=
  (ViewKept.refl s).same h.view.2.1 h.view.1

theorem Timeless.kept' {s t : Sys} (h : Timeless s t) : ViewKept t s :=
  (ViewKept.refl t).same h.view.2.1.symm h.view.1.symm

/-- the display contents at every moment -/
theorem Spec.LoopIRun.shown {x : LoopI} (hv : v.SaneI) (h : LoopIRun v c x) : Shown x.s := by
  induction h with
  | boot he e => exact Running.shown (Running.boot he e)
  | step h hs ht ih =>
    rcases hs.once hv (h.inv hv) ht with ⟨-, h1⟩ | ⟨f, t, t', -, it, -, h1, h2, h3⟩
    · rw [h1]; exact ih
    · exact ((ih.kept h1.kept).step it h2).kept h3.kept'

theorem Spec.LoopIReads.run {x : LoopI} {h : List (Nat × Int × Bool)} (hh : LoopIReads v c x h) : LoopIRun v c x := by
  induction hh with
  | boot hv e => exact LoopIRun.boot hv e
  | reads _ hs ht _ _ ih => exact ih.step hs ht
  | other _ hs ht _ ih => exact ih.step hs ht

/-- the temperature controller has the latest plausible temperature -/
theorem Spec.LoopIReads.value {x : LoopI} {h : List (Nat × Int × Bool)} (hv : v.SaneI) (hh : LoopIReads v c x h) :
    x.s.mtPrev = ((latest h).map fun r => r.2.1).getD 0 ∧ x.s.ct.feedback = x.s.mtPrev := by
  induction hh with
  | boot hv e =>
    obtain ⟨-, st, -, b, t, hb, ⟨-, ht⟩, rfl⟩ := (boot_ok hv).elim e
    exact ⟨hb.mt, hb.fb.trans hb.mt.symm⟩
  | @reads x y h t b hx hs ht hr hb ih =>
    obtain ⟨hav, ha, hval⟩ := hr
    obtain ⟨_, t1, t1', p, pl, -, -, -, -, -, hi, sb, -, hm, sb'⟩ := hs.evaluates hv (hx.run.inv hv) ht hav
    obtain ⟨a1, -, a3, a4, a5, a6, -⟩ := sb.same
    have hav' := a1.trans hav
    have ha' := a3.trans ha
    obtain ⟨w, ⟨-, -, hw⟩, ⟨h1, h2⟩, -⟩ := hm.tempValue hi hav' ha'
    rw [a4, a5, a6] at hw
    obtain rfl := TempValue.unique hval hw
    have e1 := (hm.temp ha').mtPrev
    have e2 := (hm.temp ha').feedback
    have q1 : t1.mtPrev = x.s.mtPrev := (congrArg (·.mtPrev) sb.rest :)
    have q2 : t1.ct.feedback = x.s.ct.feedback := (congrArg (·.ct.feedback) sb.rest :)
    rw [show t1'.mtPrev = y.s.mtPrev from (congrArg (·.mtPrev) sb'.rest :)] at e1
    rw [show t1'.ct.feedback = y.s.ct.feedback from (congrArg (·.ct.feedback) sb'.rest :)] at e2
    by_cases hp : PlausibleTemp t
    · have hpl := h1.mpr hp
      have hpt : p = t := h2.2.2.2.2 hp.1 hp.2
      obtain rfl : b = true := hb.mpr hp
      rw [if_pos hpl] at e1
      rw [hpl] at e2
      exact ⟨e1.trans hpt, e2.trans e1.symm⟩
    · have hpl : pl ≠ .plausible := fun hh => hp (h1.mp hh)
      obtain rfl : b = false := by
        cases b with
        | false => rfl
        | true => exact absurd (hb.mp rfl) hp
      rw [if_neg hpl] at e1
      refine ⟨(e1.trans q1).trans ih.1, ?_⟩
      rw [e2, e1]
      cases pl with
      | plausible => exact absurd rfl hpl
      | notPlausible => rfl
      | timeout => exact q2.trans (ih.2.trans q1.symm)
  | @other x e y h hx hs ht hn ih =>
    have hi := hx.run.inv hv
    rcases hs.once hv hi ht with ⟨-, h1⟩ | ⟨f, t, t', rfl, it, -, h1, hst, h2⟩
    · rw [h1]; exact ih
    have e1 := h1.view.2.2.2
    have e2 := h2.view.2.2.2
    rcases step_eff it hst with ⟨-, hc⟩ | ⟨rfl, h3, p, pl, hm⟩
    · rw [← e2.1, ← e2.2.1, hc.mtPrev, hc.feedback, e1.1, e1.2.1]; exact ih
    · have hact : t.meas.active = 0 ∨ t.meas.active = 1 := by have := it.meas.act; omega
      rcases hact with ha | ha
      · obtain ⟨-, f, hc⟩ := hm.curr ha
        rw [← e2.1, ← e2.2.1, hc.mtPrev, hc.ct, e1.1, e1.2.1]; exact ih
      · exact absurd ⟨rfl, h1.same.1.symm.trans h3, h1.same.2.1.symm.trans ha⟩ hn

/-- between two calls of the menu's work function a changed view means that an update is requested -/
theorem Spec.StretchI.view {x y : LoopI} (hv : v.SaneI) (hx : LoopIRun v c x) (hs : StretchI v c (CallsI .menu) x y) :
    ViewKept x.s y.s := by
  induction hs with
  | start => exact ViewKept.refl _
  | @step y e z hst hs ht hn ih =>
    rcases hs.once hv ((hst.run hx).inv hv) ht with ⟨-, h1⟩ | ⟨f, t, t', rfl, it, -, h1, hf, h2⟩
    · rw [h1]; exact ih
    · exact ((ih.trans h1.kept).trans (ViewKept.step it (fun he => hn ⟨f, 0, rfl, by rw [he]; rfl⟩) hf)).trans h2.kept'

/-- the latest call of the menu's work function -/
theorem Spec.LoopIReads.menu {x : LoopI} {h : List (Nat × Int × Bool)} (hh : LoopIReads v c x h) :
    (∃ z, LoopIRun v c z ∧ z.T = 0 ∧ StretchI v c (CallsI .menu) z x) ∨
    ∃ w z h', LoopIRun v c w ∧ LoopIStep c w (some .menuWork) z ∧ InTimeI v z ∧ LoopIReads v c z h' ∧ (∀ r ∈ h', r ∈ h) ∧
      StretchI v c (CallsI .menu) z x := by
  induction hh with
  | @boot ee pinb s hv e => exact Or.inl ⟨_, LoopIRun.boot hv e, rfl, StretchI.start⟩
  | @reads x y h t b hx hs ht hr hb ih =>
    have hn : ¬ CallsI .menu x (some .measureWork) y := by
      rintro ⟨f, pinb, h1, h2⟩
      cases h1
      cases h2
    rcases ih with ⟨z, h1, h2, h3⟩ | ⟨w, z, h', h1, h2, k, h3, h4, h5⟩
    · exact Or.inl ⟨z, h1, h2, h3.step hs ht hn⟩
    · exact Or.inr ⟨w, z, h', h1, h2, k, h3, fun r hr => List.mem_cons_of_mem _ (h4 r hr), h5.step hs ht hn⟩
  | @other x e y h hx hs ht hne ih =>
    by_cases hn : CallsI .menu x e y
    · obtain ⟨f, pinb, rfl, h2⟩ := hn
      cases h2
      exact Or.inr ⟨x, y, h, hx.run, hs, ht, LoopIReads.other hx hs ht hne, fun _ => id, StretchI.start⟩
    · rcases ih with ⟨z, h1, h2, h3⟩ | ⟨w, z, h', h1, h2, k, h3, h4, h5⟩
      · exact Or.inl ⟨z, h1, h2, h3.step hs ht hn⟩
      · exact Or.inr ⟨w, z, h', h1, h2, k, h3, h4, h5.step hs ht hn⟩

/-- the temperatures are in the order of time -/
theorem Spec.LoopIReads.sorted {x : LoopI} {h : List (Nat × Int × Bool)} (hh : LoopIReads v c x h) :
    (∀ r ∈ h, r.1 ≤ x.T) ∧ h.Pairwise fun r q => q.1 ≤ r.1 := by
  induction hh with
  | boot _ _ => exact ⟨fun r hr => (by cases hr), List.Pairwise.nil⟩
  | @reads x y h t b hx hs _ _ _ ih =>
    have := hs.time
    refine ⟨fun r hr => ?_, List.pairwise_cons.mpr ⟨fun r hr => ih.1 r hr, ih.2⟩⟩
    rcases List.mem_cons.mp hr with rfl | hr
    · exact this
    · exact Nat.le_trans (ih.1 r hr) this
  | other _ hs _ _ ih => exact ⟨fun r hr => Nat.le_trans (ih.1 r hr) hs.time, ih.2⟩

/-- the latest evaluation of the temperature -/
theorem Spec.LoopIReads.last {x : LoopI} {h : List (Nat × Int × Bool)} (hv : v.SaneI) (hh : LoopIReads v c x h) :
    ∃ z, LoopIRun v c z ∧ StretchI v c (EvaluatesI 1) z x ∧
      ((h = [] ∧ z.T = 0) ∨ ∃ t val b h', h = (t, val, b) :: h' ∧ z.T ≤ t + v.W) := by
  induction hh with
  | boot hv e => exact ⟨_, LoopIRun.boot hv e, StretchI.start, Or.inl ⟨rfl, rfl⟩⟩
  | @reads x y h t b hx hs ht hr _ _ =>
    refine ⟨y, hx.run.step hs ht, StretchI.start, Or.inr ⟨x.T, t, b, h, rfl, ?_⟩⟩
    obtain ⟨_, _, _, _, _, k1, k2, -⟩ := hs.evaluates hv (hx.run.inv hv) ht hr.1
    omega
  | other hx hs ht hn ih =>
    obtain ⟨z, h1, h2, h3⟩ := ih
    exact ⟨z, h1, h2.step hs ht hn, h3⟩

/-- the latest plausible temperature -/
theorem Spec.LoopIReads.good {x : LoopI} {h : List (Nat × Int × Bool)} (hv : v.SaneI) (hh : LoopIReads v c x h) :
    ∃ z, LoopIRun v c z ∧ StretchI v c (GoodTempI c) z x ∧ (z.T = 0 ∨ ∃ r ∈ h, r.2.2 = true ∧ z.T ≤ r.1 + v.W) := by
  induction hh with
  | boot hv e => exact ⟨_, LoopIRun.boot hv e, StretchI.start, Or.inl rfl⟩
  | @reads x y h t b hx hs ht hr hb ih =>
    cases b with
    | true =>
      refine ⟨y, hx.run.step hs ht, StretchI.start, Or.inr ⟨(x.T, t, true), List.mem_cons_self, rfl, ?_⟩⟩
      obtain ⟨_, _, _, _, _, k1, k2, -⟩ := hs.evaluates hv (hx.run.inv hv) ht hr.1
      show y.T ≤ x.T + v.W
      omega
    | false =>
      obtain ⟨z, h1, h2, h3⟩ := ih
      refine ⟨z, h1, h2.step hs ht ?_, h3.imp_right fun ⟨r, k1, k2⟩ => ⟨r, List.mem_cons_of_mem _ k1, k2⟩⟩
      rintro ⟨-, t', k1, k2⟩
      obtain rfl := TempValue.unique hr.2.2 k1.2.2
      exact absurd (hb.mpr k2) (by decide)
  | other hx hs ht hn ih =>
    obtain ⟨z, h1, h2, h3⟩ := ih
    exact ⟨z, h1, h2.step hs ht fun hg => hn hg.1, h3⟩

/-! ### for concrete runs -/

/-- a command, with the history of temperatures -/
def readCmdI (v : Speed) (c : Conf) (x : LoopI × List (Nat × Int × Bool)) (a : CmdI) :
    Option (LoopI × List (Nat × Int × Bool)) :=
  match a with
  | .call .measureWork g =>
    if x.1.s.meas.resultAvail = true ∧ x.1.s.meas.active = 1 then
      let a := (480 - 150) * 64 * (x.1.s.meas.avgSum / x.1.s.meas.avgCount - (sensorRaw c).1)
      let b := (sensorRaw c).2 - (sensorRaw c).1
      if NearestAway a b (nearest a b) then
        (loopCmdI v c NeverI x.1 (.call .measureWork g)).map fun y =>
          let t := 150 * 64 + nearest a b - adjInForce c x.1.s.set.cache
          (y, (x.1.T, t, decide (PlausibleTemp t)) :: x.2)
      else none
    else (loopCmdI v c (EvaluatesI 1) x.1 (.call .measureWork g)).map fun y => (y, x.2)
  | a => (loopCmdI v c (EvaluatesI 1) x.1 a).map fun y => (y, x.2)

theorem readCmdI_reads {x y : LoopI × List (Nat × Int × Bool)} {a : CmdI} (hx : LoopIReads v c x.1 x.2)
    (h : readCmdI v c x a = some y) : LoopIReads v c y.1 y.2 := by
  have other : ∀ a, (loopCmdI v c (EvaluatesI 1) x.1 a).map (fun z => (z, x.2)) = some y → LoopIReads v c y.1 y.2 := by
    intro a h
    obtain ⟨z, h1, h2⟩ := Option.map_eq_some_iff.mp h
    cases h2
    obtain ⟨e, k1, k2, k3⟩ := loopCmdI_stretch h1
    exact .other hx k1 k2 k3
  unfold readCmdI at h
  split at h
  · split at h
    · rename_i hh
      simp only [] at h
      split at h
      · rename_i hn
        obtain ⟨z, h1, h2⟩ := Option.map_eq_some_iff.mp h
        cases h2
        obtain ⟨h3, h4, -⟩ := loopCmdI_call h1
        exact .reads hx h3 h4 ⟨hh.1, hh.2, _, hn, rfl⟩ (by simp)
      · cases h
    · exact other _ h
  · exact other _ h

def readCmdsI (v : Speed) (c : Conf) (pinb : BitVec 8) (l : List CmdI) : Option (LoopI × List (Nat × Int × Bool)) :=
  (loopBootI c pinb).bind fun x => l.foldlM (readCmdI v c) (x, [])

theorem readCmdsI_reads {pinb : BitVec 8} {l : List CmdI} {y : LoopI × List (Nat × Int × Bool)}
    (hv : ValidEeprom c (shippedEeprom c)) (h : readCmdsI v c pinb l = some y) : LoopIReads v c y.1 y.2 := by
  obtain ⟨x, h1, h2⟩ := Option.bind_eq_some_iff.mp h
  obtain ⟨s, h3, rfl⟩ := Option.map_eq_some_iff.mp h1
  exact foldlM_inv (P := fun x => LoopIReads v c x.1 x.2) (fun x a y hx h => readCmdI_reads hx h) l
    (LoopIReads.boot hv h3) h2

end Verif
