import Verif.Proofs.LoopInDemo
import Verif.Props.Current
import Verif.Spec.CurrIn
/-
The measured currents in the main loop with interrupts inside the work functions.
-/
namespace Verif
open Spec Props

variable {v : Speed} {c : Conf}

/-! ### the channel of the current -/

/-- the channel of the current: left alone by the other one, and its timer while it keeps running -/
def ChanOk0 (m : Meas) (l : Vector MeasChan 2) : Prop :=
  (m.active = 1 → l[0] = m.chan[0]) ∧
  (m.active = 0 → m.chan[0].timerRunning = true → l[0].timerRunning = true → l[0].timer = m.chan[0].timer)

theorem measHandleT_chan0 (s : Sys) : PostT (measHandleT c s) fun r => ChanOk0 s.meas r.1.meas.chan := by
  unfold measHandleT
  refine PostT.bindV fun cfg _ => PostT.bindV fun raw _ => ?_
  simp only []
  refine PostT.bindV fun phys _ => ?_
  split
  · rename_i ha
    refine PostT.bind (P := fun r => s.meas.chan[s.meas.active].timerRunning = true → r.2.1.timerRunning = true →
      r.2.1.timer = s.meas.chan[s.meas.active].timer) ?_ fun r hr => PostT.pure ⟨fun h0 => ?_, fun h1 => ?_⟩
    · by_cases hrun : s.meas.chan[s.meas.active].timerRunning = true
      · exact fun g x g' e _ => measPlausT_timer hrun g x g' e
      · exact fun _ _ _ _ h => absurd h hrun
    · show (s.meas.chan.set s.meas.active r.2.1)[0] = _
      exact Vector.getElem_set_ne _ _ (by omega)
    · show s.meas.chan[0].timerRunning = true → (s.meas.chan.set s.meas.active r.2.1)[0].timerRunning = true →
        (s.meas.chan.set s.meas.active r.2.1)[0].timer = s.meas.chan[0].timer
      have e1 : (s.meas.chan.set s.meas.active r.2.1)[0] = r.2.1 := by
        rw [Vector.getElem_set]
        rw [if_pos h1]
      have e2 : s.meas.chan[s.meas.active] = s.meas.chan[0] := by
        congr 1
      rw [e1, ← e2]
      exact hr
  · exact PostT.fail

theorem measureWorkT_chan0 {s s' : Sys} {g g' : List Nat} (h : workT c s .measureWork g = some (s', g')) :
    ChanOk0 s.meas s'.meas.chan := by
  by_cases hav : s.meas.resultAvail = true
  · have h : measureWorkT c s g = some (s', g') := h
    revert h
    unfold measureWorkT
    simp only [hav, if_true]
    have key : PostT (measHandleT c { s with meas := { s.meas with resultAvail := false } } >>= fun x =>
        if x.1.meas.active = 1 then do
          let s ← meastempResultT x.1 x.2.1 x.2.2
          adcTriggerNextT c s
        else do
          let s ← meascurrResultT x.1 x.2.1 x.2.2
          adcTriggerNextT c s) fun s' => ChanOk0 s.meas s'.meas.chan := by
      refine PostT.bind (measHandleT_chan0 _) fun x hx => ?_
      have fin : ∀ s2 : Sys, s2.meas = x.1.meas → PostT (adcTriggerNextT c s2) fun s' => ChanOk0 s.meas s'.meas.chan := by
        intro s2 h2
        refine PostT.bind (tick_meas s2) fun s3 h3 => PostT.bindV fun m hm => PostT.pure ?_
        obtain ⟨_, -, hm⟩ := Option.bind_eq_some_iff.mp hm
        obtain ⟨_, -, hm⟩ := Option.bind_eq_some_iff.mp hm
        cases hm
        show ChanOk0 s.meas s3.meas.chan
        rw [h3, h2]
        exact hx
      exact PostT.ite (fun _ => PostT.bind (meastempResultT_meas _ _ _) fin) fun _ =>
        PostT.bind (meascurrResultT_meas _ _ _) fin
    intro h
    exact key _ _ _ h
  · rw [(work_none (by simpa using hav) h).1]
    exact ⟨fun _ => rfl, fun _ _ _ => rfl⟩

/-! ### one evaluation of the current -/

theorem Spec.SameBut.chan0 {n : Nat} {s t : Sys} (h : SameBut n s t) :
    t.meas.chan[0].timerRunning = s.meas.chan[0].timerRunning ∧
    t.meas.chan[0].plausTimeout = s.meas.chan[0].plausTimeout :=
  ⟨(congrArg (·.meas.chan[0].timerRunning) h.rest :), (congrArg (·.meas.chan[0].plausTimeout) h.rest :)⟩

theorem Spec.SameBut.mem {n : Nat} {s t : Sys} (h : SameBut n s t) : t.mcurr = s.mcurr ∧ t.cc.feedback = s.cc.feedback :=
  ⟨(congrArg (·.mcurr) h.rest :), (congrArg (·.cc.feedback) h.rest :)⟩

/-- a step which does not evaluate a current -/
theorem LoopIStep.currOther {x y : LoopI} {e : Option Ev} (hv : v.SaneI) (h : LoopIInv v c x) (hs : LoopIStep c x e y)
    (ht : InTimeI v y) (hn : ¬ EvaluatesI 0 x e y) :
    (y.s.meas.chan[0].timerRunning = x.s.meas.chan[0].timerRunning ∧ y.s.meas.chan[0].timer = x.s.meas.chan[0].timer ∧
      y.s.meas.chan[0].plausTimeout = x.s.meas.chan[0].plausTimeout) ∧ y.s.cc.emerg.getLsbD 0 = x.s.cc.emerg.getLsbD 0 ∧
    y.s.mcurr = x.s.mcurr ∧ y.s.cc.feedback = x.s.cc.feedback := by
  by_cases hev : e = some .measureWork ∧ x.s.meas.resultAvail = true
  · obtain ⟨rfl, hav⟩ := hev
    obtain ⟨g, t, t', p, pl, -, hT, hsel, hd, hw, it, sb, tn, hm, sb'⟩ := hs.evaluates hv h ht hav
    have ha : x.s.meas.active = 1 := by
      have := h.inv.meas.act
      have : x.s.meas.active ≠ 0 := fun hh => hn ⟨rfl, hav, hh⟩
      omega
    have k := (measureWorkT_chan0 hw).1 ha
    obtain ⟨a1, a2, a3, a4, a5, a6, a7, a8, -⟩ := sb.same
    obtain ⟨b1, b2, b3, b4, b5, b6, b7, b8, -⟩ := sb'.same
    have hte := hm.temp (a3.trans ha)
    obtain ⟨w, hw⟩ := hte.cc
    rw [k]
    refine ⟨⟨rfl, rfl, rfl⟩, ?_, ?_, ?_⟩
    · rw [← b7, ← a7, hte.flags]
      generalize t.cc.emerg = q
      have b0 : ∀ x : BitVec 8, (x &&& ~~~2#8).getLsbD 0 = x.getLsbD 0 := by decide
      have b1 : ∀ x : BitVec 8, (x ||| 2#8).getLsbD 0 = x.getLsbD 0 := by decide
      split
      · split
        · rw [b1]
        · rw [b0]
      · rfl
    · exact sb'.mem.1.symm.trans (hte.mcurr.trans sb.mem.1)
    · exact sb'.mem.2.symm.trans ((congrArg ContrCurr.feedback hw :).trans sb.mem.2)
  · obtain ⟨-, -, h3, h4, h5⟩ := hs.other hv h ht hev
    have e1 : (stripAdj y.s.meas).chan[0] = (stripAdj x.s.meas).chan[0] := by rw [h3]
    unfold stripAdj at e1
    simp only [Vector.getElem_map] at e1
    refine ⟨⟨(congrArg MeasChan.timerRunning e1 :), (congrArg MeasChan.timer e1 :),
      (congrArg MeasChan.plausTimeout e1 :)⟩, by rw [h4], ?_⟩
    have calm : ∀ {f : Ev} {s s' : Sys}, Inv c s → step c s f = some s' →
        ¬ (f = .measureWork ∧ s.meas.resultAvail = true) → s'.mcurr = s.mcurr ∧ s'.cc.feedback = s.cc.feedback := by
      intro f s s' hi hs hf
      rcases step_eff hi hs with ⟨-, hc⟩ | ⟨h1, h2, -⟩
      · exact ⟨hc.mcurr, (congrArg ContrCurr.feedback hc.cc :)⟩
      · exact absurd ⟨h1, h2⟩ hf
    cases hs with
    | reset | pass | adc => exact ⟨rfl, rfl⟩
    | tick _ hs => exact calm h.inv hs (by simp)
    | ee he hp hs => exact calm h.inv hs (by rcases he with rfl | rfl <;> simp)
    | @call e g s' pinb hD hc hw =>
      have he := call_work hc
      have hd : x.T + g.sum ≤ x.reset + v.W := ht.1
      have hres := h.reset
      have hW := hv.1
      obtain ⟨t, t', it, is', sb, tn, et, sb', it', -⟩ := work_at h.inv he (by omega) hw
      obtain ⟨k1, k2⟩ := calm it et fun hh => hev ⟨congrArg some hh.1, sb.same.1 ▸ hh.2⟩
      exact ⟨sb'.mem.1.symm.trans (k1.trans sb.mem.1), sb'.mem.2.symm.trans (k2.trans sb.mem.2)⟩

/-- what an evaluation of an implausible current does; the times are read up to `n` ticks apart -/
structure BadCurr (n : Nat) (x y : LoopI) : Prop where
  run : y.s.meas.chan[0].timerRunning = true
  kept : x.s.meas.chan[0].timerRunning = true → y.s.meas.chan[0].timer = x.s.meas.chan[0].timer ∧
    ∃ j : Int, -n ≤ j ∧ j ≤ n ∧ (y.s.meas.chan[0].plausTimeout = (x.s.meas.chan[0].plausTimeout ||
      timerExpired x.s.now (toU16 (x.s.meas.chan[0].timer + j))))
  arm : x.s.meas.chan[0].timerRunning = false → y.s.meas.chan[0].plausTimeout = x.s.meas.chan[0].plausTimeout ∧
    ∃ j : Int, -n ≤ j ∧ j ≤ n ∧ (y.s.meas.chan[0].timer - (x.T + 3000 + j)) % 65536 = 0
  flag : y.s.cc.emerg.getLsbD 0 = (y.s.meas.chan[0].plausTimeout || x.s.cc.emerg.getLsbD 0)
  feedback : y.s.cc.feedback = x.s.cc.feedback

theorem LoopIStep.currEval {x y : LoopI} {e : Option Ev} {xs : List Int} (hv : v.SaneI) (h : LoopIInv v c x)
    (hk : CurrMem x.s xs) (hs : LoopIStep c x e y) (ht : InTimeI v y) (hev : EvaluatesI 0 x e y) :
    CurrMem y.s (x.s.meas.avgSum / x.s.meas.avgCount :: xs) ∧
    ∃ (n : Nat) (w : Int), n ≤ v.W ∧ y.T = x.T + n ∧ CurrReady x.s xs w ∧
      ((PlausibleCurr w ∧ y.s.meas.chan[0].timerRunning = false ∧ y.s.meas.chan[0].plausTimeout = false ∧
        y.s.cc.emerg.getLsbD 0 = false ∧ y.s.cc.feedback = w) ∨
       (¬ PlausibleCurr w ∧ BadCurr n x y)) := by
  obtain ⟨rfl, hav, ha⟩ := hev
  obtain ⟨g, t, t', p, pl, hn, hT, hsel, hd, hw, it, sb, tn, hm, sb'⟩ := hs.evaluates hv h ht hav
  obtain ⟨a1, a2, a3, a4, a5, a6, a7, a8, a9, -⟩ := sb.same
  obtain ⟨b1, b2, b3, b4, b5, b6, b7, b8, -⟩ := sb'.same
  obtain ⟨c1, c2⟩ := sb.chan0
  obtain ⟨d1, d2⟩ := sb'.chan0
  have hk' : CurrMem t xs := hk.same sb.mem.1 sb.mem.2
  obtain ⟨w, ch, f, ⟨-, -, hw1⟩, h1, h2, hst, hch, k, hc⟩ := Props.currEval it (a1.trans hav) (a3.trans ha) hk' hm
  rw [a4, a5] at k hw1
  refine ⟨k.same sb'.mem.1.symm sb'.mem.2.symm, g.sum, w, hn, hT, ⟨hav, ha, hw1⟩, ?_⟩
  have hch1 : t'.meas.chan[0] = ch := by rw [hch]; exact Vector.getElem_set_self ..
  have hfl := hc.flags
  have hfb := hc.feedback
  have hb0 : ∀ x : BitVec 8, (x &&& ~~~1#8).getLsbD 0 = false := by decide
  have hb1 : ∀ x : BitVec 8, (x ||| 1#8).getLsbD 0 = true := by decide
  unfold plausStep at hst
  split at hst
  · rename_i hbad
    have hnp : ¬ PlausibleCurr w := by
      rintro ⟨q1, q2⟩
      have e1 : meascurrConfig.negLim = 0 := rfl
      have e2 : meascurrConfig.posLim = 3200 := rfl
      omega
    refine .inr ⟨hnp, ?_⟩
    obtain ⟨ch0, hch0, hst⟩ := Option.map_eq_some_iff.mp hst
    simp only [Prod.mk.injEq] at hst
    obtain ⟨q1, -, q3⟩ := hst
    have hrun0 : ch0.timerRunning = true := by
      split at hch0
      · cases hch0; assumption
      · obtain ⟨_, -, hch0⟩ := Option.map_eq_some_iff.mp hch0
        rw [← hch0]
    have r1 : ch.timerRunning = true := by rw [← q1]; exact hrun0
    have r2 : ch.plausTimeout = (ch0.plausTimeout || timerExpired t.now ch0.timer) := by rw [← q1]
    have r3 : ch.timer = ch0.timer := by rw [← q1]
    have hrun : y.s.meas.chan[0].timerRunning = true := by rw [← d1, hch1, r1]
    have hpt : y.s.meas.chan[0].plausTimeout = (ch0.plausTimeout || timerExpired t.now ch0.timer) := by
      rw [← d2, hch1, r2]
    refine ⟨hrun, fun hr => ?_, fun hr => ?_, ?_, ?_⟩
    · refine ⟨(measureWorkT_chan0 hw).2 ha hr hrun, ?_⟩
      rw [c1, hr, if_pos rfl] at hch0
      cases hch0
      obtain ⟨k, k1, k2, k3⟩ := sb.plaus0
      refine ⟨-k, by omega, by omega, ?_⟩
      rw [hpt, c2, tn]
      congr 1
      unfold timerExpired timerCountSince
      congr 2
      unfold toU16 toS16
      generalize t.meas.chan[0].timer = a at *
      generalize x.s.meas.chan[0].timer = b at *
      generalize x.s.now = n0 at *
      have : (n0 - a) % 65536 = (n0 - (b + -k) % 65536) % 65536 := by omega
      rw [this]
    · rw [c1, hr, if_neg (by decide)] at hch0
      have harm : timerArm t.now meascurrConfig.timeoutMs = some (toU16 (t.now + 3000)) := by
        show timerArm t.now 3000 = _
        rfl
      rw [harm] at hch0
      cases hch0
      have hne : timerExpired t.now (toU16 (t.now + 3000)) = false := by
        unfold timerExpired timerCountSince toU16 toS16
        rw [decide_eq_false_iff_not]
        omega
      refine ⟨?_, ?_⟩
      · rw [hpt]
        show (t.meas.chan[0].plausTimeout || timerExpired t.now (toU16 (t.now + 3000))) = _
        rw [hne, c2, Bool.or_false]
      · obtain ⟨k, k1, k2, k3⟩ := sb'.plaus0
        refine ⟨k, k1, k2, ?_⟩
        rw [hch1, r3] at k3
        have k3 : (y.s.meas.chan[0].timer - toU16 (t.now + 3000) - k) % 65536 = 0 := k3
        rw [tn, h.now] at k3
        unfold toU16 at k3
        omega
    · rw [← b7, hfl, ← q3, hpt, ← a7]
      show (Plaus.pick _ (t.cc.emerg &&& ~~~1#8) t.cc.emerg (t.cc.emerg ||| 1#8)).getLsbD 0 = (_ || t.cc.emerg.getLsbD 0)
      cases hh : (ch0.plausTimeout || timerExpired t.now ch0.timer)
      · rfl
      · exact hb1 _
    · rw [← sb'.mem.2, hfb, ← sb.mem.2, ← q3]
      cases hh : (ch0.plausTimeout || timerExpired t.now ch0.timer)
      · exact hk'.fb
      · rfl
  · rename_i hgood
    simp only [Option.some.injEq, Prod.mk.injEq] at hst
    obtain ⟨q1, q2, q3⟩ := hst
    refine .inl ⟨h1.mp q3.symm, by rw [← d1, hch1, ← q1], by rw [← d2, hch1, ← q1], ?_, ?_⟩
    · rw [← b7, hfl, ← q3]
      exact hb0 _
    · rw [← sb'.mem.2, hfb, ← q3, ← q2]
      rfl

/-! ### the history -/

/-- the time of the latest evaluation -/
def lastEval (h : List (Nat × Bool)) : Nat := (h.map (·.1)).headD 0

/-- what is known about the currents in the main loop -/
structure CurrIInv (v : Speed) (c : Conf) (x : LoopI) (xs : List Int) (h : List (Nat × Bool)) : Prop where
  run : LoopIRun v c x
  inv : LoopIInv v c x
  mem : CurrMem x.s xs
  past : lastEval h ≤ x.T
  gaps : GapsBy (v.W + v.period) (h.map (·.1))
  next : evalByI v 0 x ≤ lastEval h + v.W + v.period
  flag : x.s.cc.emerg.getLsbD 0 = x.s.meas.chan[0].plausTimeout
  calm : disturbedSince h = none → x.s.meas.chan[0].timerRunning = false ∧ x.s.meas.chan[0].plausTimeout = false
  busy : ∀ t, disturbedSince h = some t → x.s.meas.chan[0].timerRunning = true ∧ ∃ d : Nat,
    (x.s.meas.chan[0].timer - d) % 65536 = 0 ∧ t + 3000 ≤ d + v.W ∧ d ≤ t + 3000 + v.W ∧
    (x.s.meas.chan[0].plausTimeout = true → d ≤ x.T + v.W) ∧
    (x.s.meas.chan[0].plausTimeout = false → lastEval h ≤ d + v.W)

theorem Spec.LoopICurrs.inv {x : LoopI} {xs : List Int} {h : List (Nat × Bool)} (hv : v.SaneI)
    (hh : LoopICurrs v c x xs h) : CurrIInv v c x xs h := by
  have hW : v.W < 1000 := hv.1
  have hP : v.period ≤ 29000 := hv.2
  induction hh with
  | boot hee e =>
    have hr := LoopIRun.boot (v := v) hee e
    have hi := hr.inv hv
    have hle := hi.evalBy_le (ch := 0) (by decide)
    obtain ⟨-, st, -, b, t, hb, -, rfl⟩ := (boot_ok hee).elim e
    refine ⟨hr, hi, ⟨?_, by simp, fun _ => hb.init, fun hh => absurd rfl hh⟩, Nat.le_refl _, trivial, ?_, ?_, fun _ => hb.fresh0,
      fun t hh => by cases hh⟩
    · show b.mcurr.prevFeedback = b.cc.feedback
      rw [hb.mcurr, hb.cc]
      rfl
    · refine Nat.le_trans hle ?_
      show 0 + v.period ≤ 0 + v.W + v.period
      omega
    · show b.cc.emerg.getLsbD 0 = b.meas.chan[0].plausTimeout
      rw [hb.cc, hb.fresh0.2]
      rfl
  | @reads x y xs h t b _ hs ht hr hb ih =>
    have hev : EvaluatesI 0 x (some .measureWork) y := ⟨rfl, hr.1, hr.2.1⟩
    have hy := ih.inv.step hv hs ht
    have hle := hy.evalBy_le (ch := 0) (by decide)
    have hlt := ih.inv.lt_evalBy 0
    have hnext := ih.next
    have hpast := ih.past
    obtain ⟨k, n, w, hn, hT, hw, hd⟩ := hs.currEval hv ih.inv ih.mem ht hev
    obtain rfl := CurrValue.unique hr.2.2 hw.2.2
    have e1 : lastEval ((x.T, b) :: h) = x.T := rfl
    refine ⟨ih.run.step hs ht, hy, k, by rw [e1]; omega, ih.gaps.cons ih.past (by show x.T < lastEval h + _; omega),
      by rw [e1]; omega, ?_, ?_, ?_⟩
    · rcases hd with ⟨-, -, d1, d2, -⟩ | ⟨-, hbd⟩
      · rw [d1, d2]
      · have hsticky : x.s.meas.chan[0].plausTimeout = true → y.s.meas.chan[0].plausTimeout = true := by
          intro hp
          cases hr0 : x.s.meas.chan[0].timerRunning with
          | true => obtain ⟨-, j, -, -, j3⟩ := hbd.kept hr0; rw [j3, hp]; rfl
          | false => rw [(hbd.arm hr0).1, hp]
        rw [hbd.flag, ih.flag]
        cases hp : x.s.meas.chan[0].plausTimeout
        · rw [Bool.or_false]
        · rw [hsticky hp]; rfl
    · intro hnone
      cases b with
      | false => cases hnone
      | true =>
        rcases hd with ⟨-, d1, d2, -⟩ | ⟨hnp, -⟩
        · exact ⟨d1, d2⟩
        · exact absurd (hb.mp rfl) hnp
    · intro t' hsome
      cases b with
      | true => cases hsome
      | false =>
        rcases hd with ⟨hp, -⟩ | ⟨-, hbd⟩
        · exact absurd (hb.mpr hp) (by decide)
        refine ⟨hbd.run, ?_⟩
        have hsome : some ((disturbedSince h).getD x.T) = some t' := hsome
        cases hq : disturbedSince h with
        | none =>
          rw [hq] at hsome
          cases hsome
          obtain ⟨r1, r2⟩ := ih.calm hq
          obtain ⟨p1, j, j1, j2, j3⟩ := hbd.arm r1
          refine ⟨(x.T + 3000 + j).toNat, by omega, by show x.T + 3000 ≤ _; omega, by show _ ≤ x.T + 3000 + _; omega,
            fun hh => ?_, fun _ => ?_⟩
          · rw [p1, r2] at hh; cases hh
          · rw [e1]; omega
        | some t0 =>
          rw [hq] at hsome
          cases hsome
          obtain ⟨r1, d, d1, d2, d3, d4, d5⟩ := ih.busy _ hq
          have ht0 := disturbed_head ih.gaps hq
          have ht0 : t0 ≤ lastEval h := ht0
          obtain ⟨p1, j, j1, j2, j3⟩ := hbd.kept r1
          refine ⟨d, by rw [p1]; exact d1, d2, d3, fun hh => ?_, fun hh => ?_⟩
          · cases hp : x.s.meas.chan[0].plausTimeout with
            | true => have := d4 hp; omega
            | false =>
              have := d5 hp
              rw [j3, hp, Bool.false_or, ih.inv.now] at hh
              generalize x.s.meas.chan[0].timer = m at *
              unfold timerExpired timerCountSince toU16 toS16 at hh
              rw [decide_eq_true_eq] at hh
              omega
          · rw [j3] at hh
            obtain ⟨hp, hh⟩ := Bool.or_eq_false_iff.mp hh
            have := d5 hp
            rw [ih.inv.now] at hh
            generalize x.s.meas.chan[0].timer = m at *
            unfold timerExpired timerCountSince toU16 toS16 at hh
            rw [decide_eq_false_iff_not] at hh
            rw [e1]
            omega
  | @other x e y xs h _ hs ht hn ih =>
    obtain ⟨⟨h1, h2, h3⟩, h4, h5, h6⟩ := hs.currOther hv ih.inv ht hn
    have hxy := hs.time
    refine ⟨ih.run.step hs ht, ih.inv.step hv hs ht, ih.mem.same h5 h6, Nat.le_trans ih.past hxy, ih.gaps,
      Nat.le_trans (evalByI_step hv (by decide) ih.inv hs ht hn) ih.next, by rw [h4, h3]; exact ih.flag,
      fun hh => by rw [h1, h3]; exact ih.calm hh, fun t hh => ?_⟩
    obtain ⟨r1, d, d1, d2, d3, d4, d5⟩ := ih.busy t hh
    exact ⟨h1.trans r1, d, by rw [h2]; exact d1, d2, d3, fun hp => (by have := d4 (h3 ▸ hp); omega),
      fun hp => d5 (h3 ▸ hp)⟩

/-! ### concrete runs -/

/-- a command, with the history of currents -/
def currCmdI (v : Speed) (c : Conf) (x : LoopI × List Int × List (Nat × Bool)) (a : CmdI) :
    Option (LoopI × List Int × List (Nat × Bool)) :=
  match a with
  | .call .measureWork g =>
    if x.1.s.meas.resultAvail = true ∧ x.1.s.meas.active = 0 then
      let xs := x.1.s.meas.avgSum / x.1.s.meas.avgCount :: x.2.1
      let a := 11 * 64 * (smooth xs).2
      if NearestAway a 65 (nearest a 65) then
        (loopCmdI v c NeverI x.1 (.call .measureWork g)).map fun y =>
          (y, xs, (x.1.T, decide (PlausibleCurr (nearest a 65))) :: x.2.2)
      else none
    else (loopCmdI v c (EvaluatesI 0) x.1 (.call .measureWork g)).map fun y => (y, x.2)
  | a => (loopCmdI v c (EvaluatesI 0) x.1 a).map fun y => (y, x.2)

theorem currCmdI_currs {x y : LoopI × List Int × List (Nat × Bool)} {a : CmdI} (hx : LoopICurrs v c x.1 x.2.1 x.2.2)
    (h : currCmdI v c x a = some y) : LoopICurrs v c y.1 y.2.1 y.2.2 := by
  have other : ∀ a, (loopCmdI v c (EvaluatesI 0) x.1 a).map (fun z => (z, x.2)) = some y →
      LoopICurrs v c y.1 y.2.1 y.2.2 := by
    intro a h
    obtain ⟨z, h1, h2⟩ := Option.map_eq_some_iff.mp h
    cases h2
    obtain ⟨e, k1, k2, k3⟩ := loopCmdI_stretch h1
    exact .other hx k1 k2 k3
  unfold currCmdI at h
  split at h
  · split at h
    · rename_i hh
      simp only [] at h
      split at h
      · rename_i hn
        obtain ⟨z, h1, h2⟩ := Option.map_eq_some_iff.mp h
        cases h2
        obtain ⟨h3, h4, -⟩ := loopCmdI_call h1
        exact .reads hx h3 h4 ⟨hh.1, hh.2, hn⟩ (by simp)
      · cases h
    · exact other _ h
  · exact other _ h

def currCmdsI (v : Speed) (c : Conf) (pinb : BitVec 8) (l : List CmdI) : Option (LoopI × List Int × List (Nat × Bool)) :=
  (loopBootI c pinb).bind fun x => l.foldlM (currCmdI v c) (x, [], [])

theorem currCmdsI_currs {pinb : BitVec 8} {l : List CmdI} {y : LoopI × List Int × List (Nat × Bool)}
    (hv : ValidEeprom c (shippedEeprom c)) (h : currCmdsI v c pinb l = some y) : LoopICurrs v c y.1 y.2.1 y.2.2 := by
  obtain ⟨x, h1, h2⟩ := Option.bind_eq_some_iff.mp h
  obtain ⟨s, h3, rfl⟩ := Option.map_eq_some_iff.mp h1
  exact foldlM_inv (P := fun x => LoopICurrs v c x.1 x.2.1 x.2.2) (fun x a y hx h => currCmdI_currs hx h) l
    (LoopICurrs.boot hv h3) h2

end Verif
