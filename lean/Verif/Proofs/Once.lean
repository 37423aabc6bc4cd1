import Verif.Proofs.ClockInLoop
import Verif.Proofs.UiInSample
/-
A step of the main loop with interrupts inside the work functions, in terms of a step at one instant; the time between
two evaluations of a measurement.
-/
namespace Verif
open Spec Props

variable {v : Speed} {c : Conf}

/-- nothing but the times differs -/
def Timeless (s t : Sys) : Prop := t = timeSet (timesOf t) s

theorem Timeless.now (s : Sys) (n : Int) : Timeless s { s with now := n } := by
  show _ = { timeSet (timesOf s) s with now := n }
  rw [timeSet_self]

theorem Timeless.refl (s : Sys) : Timeless s s := (timeSet_self s).symm

/-- what a state and a timeless copy have in common -/
theorem Timeless.same {s t : Sys} (h : Timeless s t) :
    t.meas.resultAvail = s.meas.resultAvail ∧ t.meas.active = s.meas.active ∧ t.cc.emerg = s.cc.emerg ∧
    t.cc.pid = s.cc.pid ∧ t.cc.feedback = s.cc.feedback ∧ t.ct.pid = s.ct.pid ∧ t.ct.emergency = s.ct.emergency ∧
    t.ct.enabled = s.ct.enabled ∧ t.ct.boost = s.ct.boost ∧ t.ocr = s.ocr :=
  ⟨(congrArg (·.meas.resultAvail) h :), (congrArg (·.meas.active) h :), (congrArg (·.cc.emerg) h :),
    (congrArg (·.cc.pid) h :), (congrArg (·.cc.feedback) h :), (congrArg (·.ct.pid) h :), (congrArg (·.ct.emergency) h :),
    (congrArg (·.ct.enabled) h :), (congrArg (·.ct.boost) h :), (congrArg (·.ocr) h :)⟩

/-- a step in terms of a step at one instant -/
theorem LoopIStep.once {x y : LoopI} {e : Option Ev} (hv : v.SaneI) (h : LoopIInv v c x) (hs : LoopIStep c x e y)
    (ht : InTimeI v y) : (e = none ∧ y.s = x.s) ∨ ∃ f t t', e = some f ∧ Inv c t ∧ Inv c t' ∧ Timeless x.s t ∧
      step c t f = some t' ∧ Timeless y.s t' := by
  cases hs with
  | reset | pass => exact Or.inl ⟨rfl, rfl⟩
  | tick _ hs => exact Or.inr ⟨_, _, _, rfl, h.inv, (h.inv.step rfl).elim hs, .refl _, hs, .refl _⟩
  | ee he hp hs => exact Or.inr ⟨_, _, _, rfl, h.inv, (h.inv.step hp).elim hs, .refl _, hs, .refl _⟩
  | @adc raw hp =>
    generalize hn : toU16 (x.s.now - (x.T - x.D : Nat)) = n at *
    have i1 : Inv c { x.s with now := n } := { h.inv with now := (by
      show 0 ≤ n ∧ n ≤ 65535
      rw [← hn]
      unfold toU16
      omega) }
    exact Or.inr ⟨_, { x.s with now := n }, _, rfl, i1, (i1.step (e := .adc raw) hp).elim rfl, .now _ _, rfl,
      Timeless.now { x.s with meas := adcIsr n x.s.meas raw } n⟩
  | @call f g s' pinb hD hc hw =>
    have hd : x.T + g.sum ≤ x.reset + v.W := ht.1
    have hres := h.reset
    have hW := hv.1
    obtain ⟨t, t', it, -, sb, -, et, sb', it', -⟩ := work_at h.inv (call_work hc) (by omega) hw
    exact Or.inr ⟨_, t, t', rfl, it, it', sb.rest, et, sb'.rest⟩

/-! ### the time between two evaluations -/

theorem arm_avg {T ms : Nat} {t : Int} (hms : timerMsToCount ms = some ms ∧ (toU16 ms : Int) = ms)
    (h : timerArm (nowAt T) ms = some t) : t = nowAt (T + ms) := by
  unfold timerArm at h
  rw [hms.1] at h
  cases h
  rw [hms.2]
  unfold nowAt toU16
  omega

theorem triggerT_avg {s : Sys} {T : Nat} (hn : s.now = nowAt T) : SimT (adcTriggerNextT c s) T fun T' s' =>
    s'.meas.active < 2 → s'.meas.avgTimer = nowAt (T' + avgTime s'.meas.active) := by
  refine SimT.bind (SimT.tick hn) fun T1 s1 _ e1 => SimT.bindV fun m em => SimT.pure fun ha => ?_
  subst e1
  unfold adcTriggerNext at em
  obtain ⟨cfg, h1, em⟩ := Option.bind_eq_some_iff.mp em
  obtain ⟨t, h2, em⟩ := Option.bind_eq_some_iff.mp em
  cases em
  show t = nowAt (T1 + avgTime (ringNext s.meas.active 1))
  have ha : ringNext s.meas.active 1 < 2 := ha
  generalize ringNext s.meas.active 1 = a at *
  have ha : a = 0 ∨ a = 1 := by omega
  rcases ha with rfl | rfl
  · cases h1
    exact arm_avg (by decide) h2
  · cases h1
    exact arm_avg (by decide) h2

/-- an evaluation starts the averaging of the next measurement at its end -/
theorem workT_avg {s s' : Sys} {T : Nat} {g : List Nat} (hi : Inv c s) (hn : s.now = nowAt T)
    (hw : workT c s .measureWork g = some (s', [])) (hav : s.meas.resultAvail = true) (ha : s'.meas.active < 2) :
    s'.meas.avgTimer = nowAt (T + g.sum + avgTime s'.meas.active) := by
  have fin : SimT (measureWorkT c s) T fun T' s' =>
      s'.meas.active < 2 → s'.meas.avgTimer = nowAt (T' + avgTime s'.meas.active) := by
    unfold measureWorkT
    simp only [hav, if_true]
    refine SimV.bind (measHandleT_later (s := { s with meas := { s.meas with resultAvail := false } }) hn)
      fun T1 r hT1 h1 => ?_
    obtain ⟨s1, p, pl⟩ := r
    have h1 : Later _ T1 s1 := h1
    have ecc : s1.cc = s.cc := h1.cc
    simp only []
    split
    · exact SimT.bind (meastempResultT_res h1.now p pl) fun T2 s2 hT2 h2 => triggerT_avg h2.1
    · exact SimT.bind (meascurrResultT_res h1.now (by rw [ecc]; exact hi.cc.en) p pl) fun T2 s2 hT2 h2 => triggerT_avg h2.1
  obtain ⟨T', -, k2, k3⟩ := fin _ _ _ hw
  have k2 : T' = T + g.sum := by simpa using k2
  subst k2
  exact k3 ha

/-- the averaging of the measurement is not over before its time -/
structure LateI (x : LoopI) : Prop where
  avg : x.s.meas.avgTimer = nowAt (x.sel + avgTime x.s.meas.active)
  late : x.s.meas.resultAvail = true → x.sel + avgTime x.s.meas.active ≤ x.T

theorem LateI.step {x y : LoopI} {e : Option Ev} (hv : v.SaneI) (h : LoopIInv v c x) (hl : LateI x)
    (hs : LoopIStep c x e y) (ht : InTimeI v y) : LateI y := by
  have keep : y.sel = x.sel → stripAdj y.s.meas = stripAdj x.s.meas → x.T ≤ y.T → LateI y := by
    intro h1 h2 h3
    have k1 : y.s.meas.resultAvail = x.s.meas.resultAvail := (congrArg Meas.resultAvail h2 :)
    have k3 : y.s.meas.active = x.s.meas.active := (congrArg Meas.active h2 :)
    have k4 : y.s.meas.avgTimer = x.s.meas.avgTimer := (congrArg Meas.avgTimer h2 :)
    exact ⟨by rw [k4, k3, h1]; exact hl.avg, fun hh => by rw [k3, h1]; have := hl.late (k1 ▸ hh); omega⟩
  have hT := hs.time
  cases hs with
  | reset | pass => exact keep rfl rfl hT
  | tick _ hs => cases hs; exact keep rfl rfl hT
  | ee he hp hs =>
    exact keep rfl (step_meas h.inv hs (by rcases he with rfl | rfl <;> simp) (by rcases he with rfl | rfl <;> simp)) hT
  | @adc raw hp =>
    simp only [possible, Bool.and_eq_true] at hp
    have hon := hp.1.1
    obtain ⟨o1, o2⟩ := h.on hon
    have hav : x.s.meas.resultAvail = false := by
      have := h.adc
      rw [hon] at this
      simpa using this.symm
    have hnow := h.now
    have hconv := h.conv
    have hres := h.reset
    have hA : 5 + 50 + 2 * v.A + 4 * v.W ≤ 29000 := hv.2
    have havg := hl.avg
    generalize hn : toU16 (x.s.now - (x.T - x.D : Nat)) = n at *
    have hn' : (n - x.D) % 65536 = 0 ∧ 0 ≤ n ∧ n < 65536 := by
      rw [← hn]
      unfold toU16
      omega
    have hpos : avgTime x.s.meas.active ≤ 50 := by unfold avgTime; split <;> omega
    have hx : timerExpired n x.s.meas.avgTimer = decide (x.sel + avgTime x.s.meas.active ≤ x.D) := by
      rw [havg, Bool.eq_iff_iff]
      unfold timerExpired timerCountSince toU16 toS16 nowAt
      simp only [ge_iff_le, decide_eq_true_eq]
      omega
    have hact : (adcIsr n x.s.meas raw).active = x.s.meas.active ∧ (adcIsr n x.s.meas raw).avgTimer = x.s.meas.avgTimer := by
      unfold adcIsr
      simp only []
      split <;> exact ⟨rfl, rfl⟩
    have hres2 : (adcIsr n x.s.meas raw).resultAvail = decide (x.sel + avgTime x.s.meas.active ≤ x.D) := by
      unfold adcIsr
      simp only [hx]
      split
      · rename_i hh; rw [hh]
      · rename_i hh
        rw [eq_false_of_ne_true hh]
        exact hav
    refine ⟨?_, fun hh => ?_⟩
    · show (adcIsr n x.s.meas raw).avgTimer = nowAt (x.sel + avgTime (adcIsr n x.s.meas raw).active)
      rw [hact.1, hact.2]
      exact havg
    · have hh : (adcIsr n x.s.meas raw).resultAvail = true := hh
      show x.sel + avgTime (adcIsr n x.s.meas raw).active ≤ x.T
      rw [hres2, decide_eq_true_eq] at hh
      rw [hact.1]
      omega
  | @call f g s' pinb hD hc hw =>
    by_cases hf : f = .measureWork
    · subst hf
      cases hav : x.s.meas.resultAvail
      · have hev : x.evaluates .measureWork = false := by unfold LoopI.evaluates; rw [hav]; rfl
        refine keep ?_ (by show stripAdj s'.meas = _; rw [(work_none hav hw).1]) hT
        show (if x.evaluates .measureWork then _ else _) = _
        rw [hev]; rfl
      · have hev : x.evaluates .measureWork = true := by unfold LoopI.evaluates; rw [hav]; rfl
        obtain ⟨_, t, t', p, pl, -, -, -, -, -, -, -, -, hm, sb'⟩ :=
          LoopIStep.evaluates hv h (.call hD hc hw) ht hav
        obtain ⟨b1, -, b3, -⟩ := sb'.same
        obtain ⟨_, _, _, -, km⟩ := hm.meas
        have k1 : s'.meas.resultAvail = false := by show _ = _; rw [← b1, km]
        have k3 : s'.meas.active < 2 := by
          rw [← b3, km]
          show 1 - _ < 2
          omega
        refine ⟨?_, fun hh => ?_⟩
        · show s'.meas.avgTimer = nowAt ((if x.evaluates .measureWork then x.T + g.sum else _) + _)
          rw [hev]
          exact workT_avg h.inv h.now hw hav k3
        · have hh : s'.meas.resultAvail = true := hh
          rw [k1] at hh; cases hh
    · have hev : x.evaluates f = false := by
        unfold LoopI.evaluates
        simp [hf]
      refine keep ?_ (workT_meas hf hw) hT
      show (if x.evaluates f then _ else _) = _
      rw [hev]; rfl

theorem Spec.LoopIRun.late {x : LoopI} (hv : v.SaneI) (h : LoopIRun v c x) : LateI x := by
  induction h with
  | boot hv e =>
    have hw := window_inv (Window.boot hv e)
    obtain ⟨-, st, -, b, t, hb, ⟨-, ht⟩, rfl⟩ := (boot_ok hv).elim e
    have h0 : b.meas.resultAvail = false := hb.avail
    exact ⟨hw.2.2.1, fun hh => by
      have hh : b.meas.resultAvail = true := hh
      rw [h0] at hh; cases hh⟩
  | step h hs ht ih => exact ih.step hv (h.inv hv) hs ht

/-- `a` was an evaluation of channel `ch`, or before -/
def SpacedI (ch a : Nat) (x : LoopI) : Prop :=
  (x.s.meas.active ≠ ch ∧ a ≤ x.sel) ∨ (x.s.meas.active = ch ∧ a + avgTime (1 - ch) ≤ x.sel)

theorem SpacedI.eval {x y : LoopI} {ch : Nat} (hv : v.SaneI) (hch : ch < 2) (h : LoopIInv v c x)
    (hs : LoopIStep c x (some .measureWork) y) (ht : InTimeI v y) (hav : x.s.meas.resultAvail = true)
    (hac : x.s.meas.active = ch) : SpacedI ch y.T y := by
  obtain ⟨_, t, t', p, pl, -, -, k, -, -, -, sb, -, hm, sb'⟩ := hs.evaluates hv h ht hav
  obtain ⟨-, -, a3, -⟩ := sb.same
  obtain ⟨-, -, b3, -⟩ := sb'.same
  obtain ⟨_, _, _, -, km⟩ := hm.meas
  have k3 : y.s.meas.active = 1 - x.s.meas.active := by rw [← b3, km, ← a3]
  exact Or.inl ⟨by omega, by omega⟩

theorem SpacedI.step {x y : LoopI} {e : Option Ev} {ch a : Nat} (hv : v.SaneI) (hch : ch < 2) (hr : LoopIRun v c x)
    (h : SpacedI ch a x) (hs : LoopIStep c x e y) (ht : InTimeI v y) : SpacedI ch a y := by
  have hi := hr.inv hv
  have hact := hi.inv.meas.act
  by_cases hev : e = some .measureWork ∧ x.s.meas.resultAvail = true
  · obtain ⟨rfl, hav⟩ := hev
    have hT := hs.time
    have hl := (hr.late hv).late hav
    by_cases hac : x.s.meas.active = ch
    · have := SpacedI.eval hv hch hi hs ht hav hac
      rcases h with ⟨h, -⟩ | ⟨-, h⟩
      · exact absurd hac h
      · rcases this with ⟨k, k'⟩ | ⟨k, k'⟩
        · exact Or.inl ⟨k, by omega⟩
        · exact Or.inr ⟨k, by omega⟩
    · have hac : x.s.meas.active = 1 - ch := by omega
      have := SpacedI.eval hv (by omega : 1 - ch < 2) hi hs ht hav hac
      rw [hac] at hl
      rcases h with ⟨-, h⟩ | ⟨h, -⟩
      · rcases this with ⟨k, k'⟩ | ⟨k, k'⟩
        · have hact' := (hi.step hv hs ht).inv.meas.act
          exact Or.inr ⟨by omega, by omega⟩
        · exact Or.inl ⟨by omega, by omega⟩
      · omega
  · obtain ⟨k1, k2, -⟩ := hs.other hv hi ht hev
    unfold SpacedI
    rw [k1, k2]
    exact h

theorem SpacedI.late {x : LoopI} {ch a : Nat} (hv : v.SaneI) (hch : ch < 2) (hr : LoopIRun v c x)
    (h : SpacedI ch a x) (hav : x.s.meas.resultAvail = true) (hac : x.s.meas.active = ch) : a + 55 ≤ x.T := by
  have hl := (hr.late hv).late hav
  have e1 : avgTime 1 = 50 := rfl
  have e0 : avgTime 0 = 5 := rfl
  have hc : ch = 0 ∨ ch = 1 := by omega
  rcases h with ⟨h, -⟩ | ⟨-, h⟩
  · exact absurd hac h
  · rcases hc with rfl | rfl <;> rw [hac] at hl <;> (simp only [Nat.sub_zero, Nat.sub_self] at h) <;> omega

theorem SpacedI.curr {x : LoopI} {a b : During} (hv : v.SaneI) (h : LoopIClocked v c x a b) : SpacedI 0 b.stop x := by
  induction h with
  | @boot ee pinb s hv' e =>
    obtain ⟨-, st, -, b, t, hb, -, rfl⟩ := (boot_ok hv').elim e
    exact Or.inl ⟨by show (1 : Nat) ≠ 0; decide, Nat.le_refl _⟩
  | temp h hs ht _ ih => exact ih.step hv (by decide) (ClockI.of hv h).run hs ht
  | @curr x f y a b h hs ht hr ih =>
    obtain ⟨⟨rfl, hav, hac⟩, -⟩ := hr
    exact SpacedI.eval hv (by decide) ((ClockI.of hv h).run.inv hv) hs ht hav hac
  | other h hs ht _ ih => exact ih.step hv (by decide) (ClockI.of hv h).run hs ht

end Verif
