import Verif.Proofs.InsideWork
/-
`measure_work` with ticks inside, compared to a call at one instant.
-/
namespace Verif
open Spec

variable {N : Nat} {Q : Int → Int → Int → Int → Int → Prop} {B : Int → Int → Int → Prop} {g : List Nat} {a : Sys}
  {τ : Times} {c : Conf} {n0 : Int}

theorem contrcurrSetEmerg_in (h : Close N Q B g a τ) (f : BitVec 8) :
    Lk N Q B g (contrcurrSetEmerg a f) (contrcurrSetEmerg (timeSet τ a) f) := by
  unfold contrcurrSetEmerg
  refine Lk.ite (P := f ≠ a.cc.emerg) (fun _ => ?_) fun _ => Lk.pure h
  have h1 : Close N Q B g { a with cc := { a.cc with emerg := f } } τ := { h with }
  refine Lk.ite (fun _ => ?_) fun _ => Lk.pure h1
  unfold pwmcurrSet
  cases pwmDuty CURR_NEGLIM with
  | none => exact .inl ⟨rfl, rfl⟩
  | some d => exact .inr ⟨_, τ, rfl, rfl, { h with }⟩

theorem contrcurrRun_in (h : Close N Q B g a τ) (r : Int)
    (hr : (toU16 (a.now + g.headD 0) - a.cc.timer - (τ.now - τ.curr)) % 65536 = 0) :
    Sim N Q B (contrcurrRunT a r) (contrcurrRun (timeSet τ a) r) g := by
  unfold contrcurrRunT contrcurrRun
  refine Sim.ite (P := (!a.cc.enabled) = true) (fun _ => Sim.pure h) fun _ =>
    Sim.ite (P := a.cc.emerg ≠ 0) (fun _ => Sim.pure h) fun _ => ?_
  refine Sim.tick h fun n hn h => ?_
  subst hn
  rw [show elapsedDt (timeSet τ a).now (timeSet τ a).cc.timer =
    elapsedDt (toU16 (a.now + g.headD 0)) a.cc.timer from (elapsedDt_congr hr).symm]
  refine Sim.bindV fun dt _ => Sim.tick h fun n hn h => ?_
  refine Sim.bindV (o := contrcurrSelect a.cc r) fun x _ => ?_
  refine Sim.bindV (o := pidRun a.cc.pid dt x.1) fun z _ => Sim.lift ?_
  unfold pwmcurrSet
  simp only []
  show (((pwmDuty (if a.cc.restricted then (if z.2 > 1280 then 1280 else z.2) else z.2)).bind _ = none ∧
    (pwmDuty (if a.cc.restricted then (if z.2 > 1280 then 1280 else z.2) else z.2)).bind _ = none) ∨ ∃ a' τ',
    (pwmDuty (if a.cc.restricted then (if z.2 > 1280 then 1280 else z.2) else z.2)).bind _ = some a' ∧
    (pwmDuty (if a.cc.restricted then (if z.2 > 1280 then 1280 else z.2) else z.2)).bind _ = some (timeSet τ' a') ∧ _)
  cases pwmDuty (if a.cc.restricted then (if z.2 > 1280 then 1280 else z.2) else z.2) with
  | none => exact .inl ⟨rfl, rfl⟩
  | some d => exact .inr ⟨_, { τ with curr := τ.now }, rfl, rfl, { h with curr := h.nowApart }⟩

theorem contrtempRun_in (h : Close N Q B g a τ) (r : Int)
    (hr : (toU16 (a.now + g.headD 0) - a.ct.dtTimer - (τ.now - τ.temp)) % 65536 = 0) :
    Sim N Q B (contrtempRunT a r) (contrtempRun (timeSet τ a) r) g := by
  unfold contrtempRunT contrtempRun
  refine Sim.ite (P := (!a.ct.enabled) = true) (fun _ => Sim.pure h) fun _ =>
    Sim.ite (P := a.ct.emergency = true) (fun _ => Sim.pure h) fun _ => ?_
  refine Sim.tick h fun n hn h => ?_
  subst hn
  rw [show elapsedDt (timeSet τ a).now (timeSet τ a).ct.dtTimer =
    elapsedDt (toU16 (a.now + g.headD 0)) a.ct.dtTimer from (elapsedDt_congr hr).symm]
  refine Sim.bindV fun dt _ => Sim.tick h fun n hn h => ?_
  refine Sim.bindV (o := pidRun a.ct.pid dt r) fun z _ => Sim.bindV (o := tempToAmps z.2) fun y _ => ?_
  let a1 : Sys := { a with now := n, ct := { a.ct with dtTimer := timerSetNow n, pid := z.1 } }
  have h1 : Close N Q B g.tail.tail a1 { τ with temp := τ.now } := { h with temp := h.nowApart }
  let f := if r > 30720 then a.cc.emerg ||| 2#8 else a.cc.emerg &&& ~~~2#8
  let y' := if r > 30720 then CURR_NEGLIM else y
  have hs : Sim N Q B (liftM (contrcurrSetEmerg a1 f) >>= fun s => Pure.pure (contrcurrSetSetpoint s y'))
      ((contrcurrSetEmerg (timeSet { τ with temp := τ.now } a1) f).bind fun s => some (contrcurrSetSetpoint s y'))
      g.tail.tail := by
    refine Sim.bind (Sim.lift (contrcurrSetEmerg_in h1 f)) fun a' _ τ' _ h => ?_
    have h2 : Close N Q B _ (contrcurrSetSetpoint a' y') τ' := { h with }
    exact Sim.pure h2
  by_cases hgt : r > 30720
  · simp only [f, y', if_pos hgt] at hs
    simp only [if_pos hgt]
    exact hs
  · simp only [f, y', if_neg hgt] at hs
    simp only [if_neg hgt]
    exact hs

theorem contrtempSetFeedback_in (h : Close N Q B g a τ) (r : Int)
    (hr : (toU16 (a.now + g.headD 0) - a.ct.dtTimer - (τ.now - τ.temp)) % 65536 = 0) :
    Sim N Q B (contrtempSetFeedbackT a r) (contrtempSetFeedback (timeSet τ a) r) g := by
  unfold contrtempSetFeedbackT contrtempSetFeedback
  by_cases hf : r ≠ a.ct.feedback
  · rw [if_pos hf, if_pos (show r ≠ (timeSet τ a).ct.feedback from hf)]
    have h1 : Close N Q B g (menuRequestUpdate { a with ct := { a.ct with feedback := r } }) τ := { h with }
    exact contrtempRun_in h1 r hr
  · rw [if_neg hf, if_neg (show ¬ r ≠ (timeSet τ a).ct.feedback from hf)]
    exact contrtempRun_in h r hr

theorem contrtempSetEmerg_in (h : Close N Q B g a τ) (e : Bool) :
    contrtempSetEmerg (timeSet τ a) e = timeSet τ (contrtempSetEmerg a e) ∧ Close N Q B g (contrtempSetEmerg a e) τ ∧
      (contrtempSetEmerg a e).now = a.now ∧ (contrtempSetEmerg a e).ct.dtTimer = a.ct.dtTimer := by
  unfold contrtempSetEmerg
  by_cases hf : e ≠ a.ct.emergency
  · rw [if_pos hf, if_pos (show e ≠ (timeSet τ a).ct.emergency from hf)]
    unfold contrtempDoSetEmerg
    cases e
    · exact ⟨rfl, { h with }, rfl, rfl⟩
    · exact ⟨rfl, { h with }, rfl, rfl⟩
  · rw [if_neg hf, if_neg (show ¬ e ≠ (timeSet τ a).ct.emergency from hf)]
    exact ⟨rfl, h, rfl, rfl⟩

theorem meastempResult_in (h : Close N Q B g a τ) (phys : Int) (p : Plaus)
    (hr : (toU16 (a.now + g.headD 0) - a.ct.dtTimer - (τ.now - τ.temp)) % 65536 = 0) :
    Sim N Q B (meastempResultT a phys p) (meastempResult (timeSet τ a) phys p) g := by
  unfold meastempResultT meastempResult
  cases p with
  | plausible =>
    obtain ⟨e, h, hn, ht⟩ := contrtempSetEmerg_in h false
    simp only [e]
    have h1 : Close N Q B g (contrcurrSetRestricted { contrtempSetEmerg a false with mtPrev := phys } (phys < 6400)) τ :=
      { h with }
    refine contrtempSetFeedback_in h1 phys ?_
    show (toU16 ((contrtempSetEmerg a false).now + g.headD 0) - (contrtempSetEmerg a false).ct.dtTimer - _) % 65536 = 0
    rw [hn, ht]
    exact hr
  | notPlausible => exact contrtempSetFeedback_in h _ hr
  | timeout =>
    obtain ⟨e, h, -⟩ := contrtempSetEmerg_in h true
    simp only [e]
    exact Sim.pure h

theorem contrcurrSetEmerg_keep {s s' : Sys} {f : BitVec 8} (e : contrcurrSetEmerg s f = some s') :
    s'.now = s.now ∧ s'.cc.timer = s.cc.timer ∧ s'.mcurr = s.mcurr := by
  unfold contrcurrSetEmerg at e
  split at e
  · simp only [] at e
    split at e
    · unfold pwmcurrSet at e
      obtain ⟨d, -, e⟩ := Option.bind_eq_some_iff.mp e
      cases e; exact ⟨rfl, rfl, rfl⟩
    · cases e; exact ⟨rfl, rfl, rfl⟩
  · cases e; exact ⟨rfl, rfl, rfl⟩

theorem contrcurrSetEmerg_curr {s s' : Sys} {f : BitVec 8} {τ τ' : Times} (e : contrcurrSetEmerg s f = some s')
    (e' : contrcurrSetEmerg (timeSet τ s) f = some (timeSet τ' s')) : τ'.curr = τ.curr ∧ τ'.now = τ.now := by
  have := contrcurrSetEmerg_keep e'
  exact ⟨this.2.1, this.1⟩

theorem meascurrResult_in (h : Close N Q B g a τ) (phys : Int) (p : Plaus)
    (hr : (toU16 (a.now + g.headD 0) - a.cc.timer - (τ.now - τ.curr)) % 65536 = 0) :
    Sim N Q B (meascurrResultT a phys p) (meascurrResult (timeSet τ a) phys p) g := by
  unfold meascurrResultT meascurrResult
  simp only []
  let f := match p with
    | .plausible => a.cc.emerg &&& ~~~1#8
    | .timeout => a.cc.emerg ||| 1#8
    | .notPlausible => a.cc.emerg
  have fin : ∀ {a' g' τ'}, Close N Q B g' a' τ' →
      Sim N Q B (Pure.pure { a' with mcurr := { a'.mcurr with initialized := true } })
        (some { timeSet τ' a' with mcurr := { (timeSet τ' a').mcurr with initialized := true } }) g' := by
    intro a' g' τ' h
    have h1 : Close N Q B g' { a' with mcurr := { a'.mcurr with initialized := true } } τ' := { h with }
    exact Sim.pure h1
  show Sim N Q B (liftM (contrcurrSetEmerg a f) >>= fun s => _) ((contrcurrSetEmerg (timeSet τ a) f).bind fun s => _) g
  rcases contrcurrSetEmerg_in h f with ⟨e, e'⟩ | ⟨a', τ', e, e', h'⟩
  · rw [e, e']; exact .inl ⟨rfl, rfl⟩
  · obtain ⟨k1, k2, k3⟩ := contrcurrSetEmerg_keep e
    obtain ⟨k4, k5⟩ := contrcurrSetEmerg_curr e e'
    have hr' : (toU16 (a'.now + g.headD 0) - a'.cc.timer - (τ'.now - τ'.curr)) % 65536 = 0 := by
      rw [k1, k2, k4, k5]; exact hr
    rw [e, e']
    refine Sim.someV ?_
    simp only [Option.bind_some]
    cases p with
    | plausible =>
      let a2 : Sys := { a' with mcurr := { a'.mcurr with prevFeedback := phys }, cc := { a'.cc with feedback := phys } }
      have h1 : Close N Q B g a2 τ' := { h' with }
      exact Sim.bind (contrcurrRun_in h1 phys hr') fun _ _ _ _ h => fin h
    | notPlausible =>
      let a2 : Sys := { a' with cc := { a'.cc with feedback := a'.mcurr.prevFeedback } }
      have h1 : Close N Q B g a2 τ' := { h' with }
      exact Sim.bind (contrcurrRun_in h1 _ hr') fun _ _ _ _ h => fin h
    | timeout => exact fin h'

theorem adcTriggerNext_in (h : Close N Q B g a τ) :
    Sim N Q B (adcTriggerNextT c a) (do
      let m ← adcTriggerNext c (timeSet τ a).now (timeSet τ a).meas
      return { timeSet τ a with meas := m }) g := by
  unfold adcTriggerNextT
  refine Sim.tick h fun n hn h => ?_
  unfold adcTriggerNext
  show Sim N Q B (liftM ((measConfig c (ringNext a.meas.active 1)).bind _) >>= _)
    (((measConfig c (ringNext a.meas.active 1)).bind _).bind _) _
  cases measConfig c (ringNext a.meas.active 1) with
  | none => exact .inl ⟨rfl, rfl⟩
  | some cfg =>
    simp only [Option.bind_some, timerArm]
    cases timerMsToCount cfg.avgMs with
    | none => exact .inl ⟨rfl, rfl⟩
    | some k =>
      exact .inr ⟨_, _, { τ with avg := toU16 (τ.now + toU16 k) }, rfl, rfl, { h with avg := h.armApart _ }⟩

/-- the time of an instant inside the call -/
def Inside (N : Nat) (g : List Nat) (now n : Int) : Prop :=
  (∃ k : Nat, (now - n - k) % 65536 = 0 ∧ k + g.sum = N) ∧ (0 ≤ n ∧ n ≤ 65535 → 0 ≤ now ∧ now ≤ 65535)

theorem Inside.tick {now n : Int} (h : Inside N g now n) : Inside N g.tail (toU16 (now + g.headD 0)) n := by
  obtain ⟨⟨k, e, hk⟩, hr⟩ := h
  refine ⟨⟨k + g.headD 0, ?_, ?_⟩, fun _ => toU16_rng _⟩
  · unfold toU16; omega
  · cases g <;> simp at * <;> omega

theorem not_expired_inside {now n m : Int} (h : Inside N g now n) (hN : N < 1000) (hm : (m - n) % 65536 < 1000) :
    timerExpired now (toU16 (m + toU16 3000)) = false := by
  obtain ⟨⟨k, e, hk⟩, hr⟩ := h
  unfold timerExpired timerCountSince
  refine decide_eq_false ?_
  unfold toS16 toU16
  omega

theorem tm_some {α β : Type} (r : α) (f : α → TM β) : ((liftM (some r) : TM α) >>= f) = f r := rfl
theorem tm_pure {α β : Type} (r : α) (f : α → TM β) : ((Pure.pure r : TM α) >>= f) = f r := rfl
theorem tm_tick {β : Type} (s : Sys) (f : Sys → TM β) (g : List Nat) :
    (tickIn s >>= f) g = f { s with now := toU16 (s.now + g.headD 0) } g.tail := rfl
theorem tm_ret {α : Type} (r : α) (g : List Nat) : (Pure.pure r : TM α) g = some (r, g) := rfl

theorem measPlaus_in0 {cfg : MeasConfig} {ch : MeasChan} {phys n y : Int} (h0 : c.adj = false) (hN : N < 1000)
    (hc : cfg.timeoutMs = 3000) (hn : Inside N g a.now n) (ha : Apart N ch.timer y)
    (hy : (toU16 (a.now + g.headD 0) - ch.timer - (n - y)) % 65536 = 0) :
    ∃ n' g' ch' y' r p, measPlausT c cfg a ch phys g = some (({ a with now := n' }, ch', r, p), g') ∧
        measPlaus c cfg n { ch with timer := y } phys = some ({ ch' with timer := y' }, r, p) ∧
        Inside N g' n' n ∧ Apart N ch'.timer y' := by
  have ar := fun m => timerArm_eq m (show (0 : Int) ≤ 3000 by decide) (show (3000 : Int) ≤ 32767 by decide)
  have bad : ∀ r, (r = cfg.negLim ∧ phys < cfg.negLim) ∨ (r = cfg.posLim ∧ ¬ phys < cfg.negLim ∧ phys > cfg.posLim) →
      ∃ n' g' ch' y' r p, measPlausT c cfg a ch phys g = some (({ a with now := n' }, ch', r, p), g') ∧
        measPlaus c cfg n { ch with timer := y } phys = some ({ ch' with timer := y' }, r, p) ∧
        Inside N g' n' n ∧ Apart N ch'.timer y' := by
    intro r hr
    obtain ⟨adj, pt, tr, tm⟩ := ch
    simp only at ha hy
    have e1 : (if phys < cfg.negLim then ((⟨adj, pt, tr, tm⟩ : MeasChan), cfg.negLim, Plaus.notPlausible)
        else if phys > cfg.posLim then (⟨adj, pt, tr, tm⟩, cfg.posLim, Plaus.notPlausible)
        else (⟨adj, false, false, tm⟩, phys, Plaus.plausible)) = (⟨adj, pt, tr, tm⟩, r, Plaus.notPlausible) := by
      rcases hr with ⟨e, h1⟩ | ⟨e, h1, h2⟩
      · rw [if_pos h1, e]
      · rw [if_neg h1, if_pos h2, e]
    have e2 : (if phys < cfg.negLim then ((⟨adj, pt, tr, y⟩ : MeasChan), cfg.negLim, Plaus.notPlausible)
        else if phys > cfg.posLim then (⟨adj, pt, tr, y⟩, cfg.posLim, Plaus.notPlausible)
        else (⟨adj, false, false, y⟩, phys, Plaus.plausible)) = (⟨adj, pt, tr, y⟩, r, Plaus.notPlausible) := by
      rcases hr with ⟨e, h1⟩ | ⟨e, h1, h2⟩
      · rw [if_pos h1, e]
      · rw [if_neg h1, if_pos h2, e]
    unfold measPlausT measPlaus
    rw [h0]
    simp only [Bool.false_eq_true, if_false, tm_some, e1, e2, hc, Option.bind_eq_bind, Option.bind_some]
    cases tr
    · simp only [Bool.not_false, and_true, reduceCtorEq, ne_eq, not_false_eq_true, if_true, tm_tick, ar, tm_some, tm_pure,
        tm_ret, Option.bind_some, Option.bind_eq_bind, Option.pure_def, Bool.true_and]
      have hi1 := hn.tick
      have hi2 := hi1.tick
      obtain ⟨⟨k1, hk1, hk1'⟩, -⟩ := hi1
      have hi0 : Inside N [N] n n := ⟨⟨0, by omega, by simp⟩, id⟩
      rw [not_expired_inside (m := toU16 (a.now + g.headD 0)) hi2 hN (by omega),
        not_expired_inside (m := n) hi0 hN (by omega)]
      refine ⟨_, _, ⟨adj, pt, true, _⟩, _, _, _, rfl, rfl, hi2, ⟨k1, by omega, by omega, ?_⟩⟩
      simp only []
      unfold toU16 at *
      omega
    · simp only [Bool.not_true, and_false, Bool.false_eq_true, if_false, if_true, tm_tick, tm_some, tm_pure, tm_ret,
        Option.bind_some, Option.bind_eq_bind, Option.pure_def, Bool.true_and]
      rw [expired_congr hy]
      refine ⟨_, _, ⟨adj, if timerExpired n y then true else pt, true, tm⟩, y, r,
        if (if timerExpired n y then true else pt) then .timeout else .notPlausible, ?_, ?_, hn.tick, ha⟩
      · cases timerExpired n y <;> rfl
      · cases timerExpired n y <;> rfl
  by_cases h1 : phys < cfg.negLim
  · exact bad cfg.negLim (.inl ⟨rfl, h1⟩)
  by_cases h2 : phys > cfg.posLim
  · exact bad cfg.posLim (.inr ⟨rfl, h1, h2⟩)
  refine ⟨a.now, g, { ch with timerRunning := false, plausTimeout := false }, y, phys, .plausible, ?_, ?_, hn, ha⟩
  · unfold measPlausT
    rw [h0]
    simp only [Bool.false_eq_true, if_false, tm_some, if_neg h1, if_neg h2]
    rfl
  · unfold measPlaus
    rw [h0]
    simp only [Bool.false_eq_true, if_false, Option.bind_eq_bind, Option.bind_some, if_neg h1, if_neg h2]
    rfl

theorem measPlaus_in {cfg : MeasConfig} {ch : MeasChan} {phys n y : Int} (hN : N < 1000)
    (hc : cfg.timeoutMs = 3000) (hn : Inside N g a.now n) (ha : Apart N ch.timer y)
    (hy : (toU16 (a.now + g.headD 0) - ch.timer - (n - y)) % 65536 = 0) :
    (measPlausT c cfg a ch phys g = none ∧ measPlaus c cfg n { ch with timer := y } phys = none) ∨
      ∃ n' g' ch' y' r p, measPlausT c cfg a ch phys g = some (({ a with now := n' }, ch', r, p), g') ∧
        measPlaus c cfg n { ch with timer := y } phys = some ({ ch' with timer := y' }, r, p) ∧
        Inside N g' n' n ∧ Apart N ch'.timer y' := by
  cases hadj : c.adj
  · exact .inr (measPlaus_in0 hadj hN hc hn ha hy)
  · let c0 : Conf := { c with adj := false }
    have eT : measPlausT c cfg a ch phys = (liftM (fixptSub phys ch.adj) >>= fun x => measPlausT c0 cfg a ch x) := by
      unfold measPlausT; rw [hadj]; rfl
    have e : measPlaus c cfg n { ch with timer := y } phys =
        (fixptSub phys ch.adj).bind fun x => measPlaus c0 cfg n { ch with timer := y } x := by
      unfold measPlaus; rw [hadj]; rfl
    rw [eT, e]
    cases fixptSub phys ch.adj with
    | none => exact .inl ⟨rfl, rfl⟩
    | some x => exact .inr (measPlaus_in0 (c := c0) rfl hN hc hn ha hy)

theorem measConfig_timeout {k : Nat} {cfg : MeasConfig} (h : measConfig c k = some cfg) : cfg.timeoutMs = 3000 := by
  unfold measConfig at h
  split at h
  · cases h; rfl
  · split at h
    · cases h; rfl
    · cases h

theorem measHandleT_0 (h : a.meas.active = 0) : measHandleT c a = (do
    let raw ← measRaw a.meas
    let phys ← scale (toS16 (meascurrFilter a.mcurr raw).2) (toS16 meascurrConfig.rawLo) (toS16 meascurrConfig.rawHi)
      meascurrConfig.physLo meascurrConfig.physHi
    let (s', ch, phys, plaus) ← measPlausT c meascurrConfig a a.meas.chan[0] phys
    return ({ s' with meas := { a.meas with chan := a.meas.chan.set 0 ch }, mcurr := (meascurrFilter a.mcurr raw).1 },
      phys, plaus)) := by
  obtain ⟨_, _, ⟨_, act, _, _, _, _, _⟩, _, _, _, _, _, _, _, _, _, _⟩ := a
  simp only at h
  subst h
  rfl

theorem measHandleT_1 (h : a.meas.active = 1) : measHandleT c a = (do
    let raw ← measRaw a.meas
    let phys ← scale (toS16 raw) (toS16 (meastempConfig c).rawLo) (toS16 (meastempConfig c).rawHi)
      (meastempConfig c).physLo (meastempConfig c).physHi
    let (s', ch, phys, plaus) ← measPlausT c (meastempConfig c) a a.meas.chan[1] phys
    return ({ s' with meas := { a.meas with chan := a.meas.chan.set 1 ch }, mcurr := a.mcurr }, phys, plaus)) := by
  obtain ⟨_, _, ⟨_, act, _, _, _, _, _⟩, _, _, _, _, _, _, _, _, _, _⟩ := a
  simp only at h
  subst h
  rfl

theorem measHandle_0 {n : Int} {m : Meas} {mc : MeasCurr} (h : m.active = 0) : measHandle c n m mc = (do
    let raw ← measRaw m
    let phys ← scale (toS16 (meascurrFilter mc raw).2) (toS16 meascurrConfig.rawLo) (toS16 meascurrConfig.rawHi)
      meascurrConfig.physLo meascurrConfig.physHi
    let (ch, phys, plaus) ← measPlaus c meascurrConfig n m.chan[0] phys
    return ({ m with chan := m.chan.set 0 ch }, (meascurrFilter mc raw).1, phys, plaus)) := by
  obtain ⟨_, act, _, _, _, _, _⟩ := m
  simp only at h
  subst h
  rfl

theorem measHandle_1 {n : Int} {m : Meas} {mc : MeasCurr} (h : m.active = 1) : measHandle c n m mc = (do
    let raw ← measRaw m
    let phys ← scale (toS16 raw) (toS16 (meastempConfig c).rawLo) (toS16 (meastempConfig c).rawHi)
      (meastempConfig c).physLo (meastempConfig c).physHi
    let (ch, phys, plaus) ← measPlaus c (meastempConfig c) n m.chan[1] phys
    return ({ m with chan := m.chan.set 1 ch }, mc, phys, plaus)) := by
  obtain ⟨_, act, _, _, _, _, _⟩ := m
  simp only at h
  subst h
  rfl

theorem tm_of {α β : Type} {x : TM α} {r : α} {g g' : List Nat} (h : x g = some (r, g')) (f : α → TM β) :
    (x >>= f) g = f r g' := by
  show (x g).bind (fun p => f p.1 p.2) = _
  rw [h]; rfl

theorem tm_none {α β : Type} {x : TM α} {g : List Nat} (h : x g = none) (f : α → TM β) : (x >>= f) g = none := by
  show (x g).bind (fun p => f p.1 p.2) = _
  rw [h]; rfl

theorem measHandle_in (hN : N < 1000) (h : Close N Q B g a τ) (hact : a.meas.active = 0 ∨ a.meas.active = 1)
    (h0 : a.meas.active = 0 → (toU16 (a.now + g.headD 0) - a.meas.chan[0].timer - (τ.now - τ.plaus0)) % 65536 = 0)
    (h1 : a.meas.active = 1 → (toU16 (a.now + g.headD 0) - a.meas.chan[1].timer - (τ.now - τ.plaus1)) % 65536 = 0) :
    (measHandleT c a g = none ∧ measHandle c τ.now (timeSet τ a).meas a.mcurr = none) ∨
      ∃ n' g' m mc r p x0 x1, measHandleT c a g = some (({ a with now := n', meas := m, mcurr := mc }, r, p), g') ∧
        measHandle c τ.now (timeSet τ a).meas a.mcurr =
          some ((timeSet { τ with plaus0 := x0, plaus1 := x1 } { a with meas := m }).meas, mc, r, p) ∧
        m.active = a.meas.active ∧
        Close N Q B g' { a with now := n', meas := m, mcurr := mc } { τ with plaus0 := x0, plaus1 := x1 } := by
  have hn : Inside N g a.now τ.now := ⟨h.now, h.rng⟩
  have er : measRaw (timeSet τ a).meas = measRaw a.meas := rfl
  rcases hact with ha | ha
  · rw [measHandleT_0 ha, measHandle_0 (show (timeSet τ a).meas.active = 0 from ha), er]
    cases measRaw a.meas with
    | none => exact .inl ⟨rfl, rfl⟩
    | some raw =>
    simp only [tm_some, Option.bind_eq_bind, Option.bind_some]
    cases scale (toS16 (meascurrFilter a.mcurr raw).2) (toS16 meascurrConfig.rawLo) (toS16 meascurrConfig.rawHi)
      meascurrConfig.physLo meascurrConfig.physHi with
    | none => exact .inl ⟨rfl, rfl⟩
    | some x =>
    simp only [tm_some, Option.bind_some]
    rcases measPlaus_in (c := c) (cfg := meascurrConfig) (phys := x) hN rfl hn h.plaus0 (h0 ha) with
      ⟨e1, e2⟩ | ⟨n', g', ch', y', r, p, e1, e2, hi, hap⟩
    · refine .inl ⟨tm_none e1 _, ?_⟩
      rw [show (timeSet τ a).meas.chan[0] = { a.meas.chan[0] with timer := τ.plaus0 } from rfl, e2]
      rfl
    · refine .inr ⟨n', g', { a.meas with chan := a.meas.chan.set 0 ch' }, _, r, p, y', τ.plaus1, tm_of e1 _, ?_, rfl, ?_⟩
      · rw [show (timeSet τ a).meas.chan[0] = { a.meas.chan[0] with timer := τ.plaus0 } from rfl, e2]
        simp [timeSet]
      · exact { h with now := hi.1, rng := hi.2, plaus0 := by simpa using hap, plaus1 := by simpa using h.plaus1 }
  · rw [measHandleT_1 ha, measHandle_1 (show (timeSet τ a).meas.active = 1 from ha), er]
    cases measRaw a.meas with
    | none => exact .inl ⟨rfl, rfl⟩
    | some raw =>
    simp only [tm_some, Option.bind_eq_bind, Option.bind_some]
    cases scale (toS16 raw) (toS16 (meastempConfig c).rawLo) (toS16 (meastempConfig c).rawHi)
      (meastempConfig c).physLo (meastempConfig c).physHi with
    | none => exact .inl ⟨rfl, rfl⟩
    | some x =>
    simp only [tm_some, Option.bind_some]
    rcases measPlaus_in (c := c) (cfg := meastempConfig c) (phys := x) hN rfl hn h.plaus1 (h1 ha) with
      ⟨e1, e2⟩ | ⟨n', g', ch', y', r, p, e1, e2, hi, hap⟩
    · refine .inl ⟨tm_none e1 _, ?_⟩
      rw [show (timeSet τ a).meas.chan[1] = { a.meas.chan[1] with timer := τ.plaus1 } from rfl, e2]
      rfl
    · refine .inr ⟨n', g', { a.meas with chan := a.meas.chan.set 1 ch' }, _, r, p, τ.plaus0, y', tm_of e1 _, ?_, rfl, ?_⟩
      · rw [show (timeSet τ a).meas.chan[1] = { a.meas.chan[1] with timer := τ.plaus1 } from rfl, e2]
        simp [timeSet]
      · exact { h with now := hi.1, rng := hi.2, plaus0 := by simpa using h.plaus0, plaus1 := by simpa using hap }

theorem measureWork_atOnce (c : Conf) (s : Sys) (g : List Nat) (hN : g.sum < 1000) : AtOnce c s .measureWork g := by
  have h0 : Close g.sum (AtQ s.now) AnyB g s (timesOf s) := Close.refl g s rfl trivial
  by_cases hav : s.meas.resultAvail = true
  case neg =>
    refine AtOnce.of (timesOf s) rfl h0 ?_
    show Sim _ _ _ (measureWorkT c s) (measureWork c (timeSet (timesOf s) s)) g
    unfold measureWorkT measureWork
    have e1 : s.meas.resultAvail = false := Bool.eq_false_iff.mpr hav
    simp only [show (timeSet (timesOf s) s).meas.resultAvail = false from e1, e1, Bool.false_eq_true, if_false]
    have h1 : Close g.sum (AtQ s.now) AnyB g { s with meas := { s.meas with resultAvail := false } } (timesOf s) :=
      { h0 with }
    exact Sim.pure h1
  case pos =>
  let a : Sys := { s with meas := { s.meas with resultAvail := false } }
  let κ : Int := toU16 (s.now + g.headD 0)
  let τ1 : Times := { timesOf s with
    plaus0 := if s.meas.active = 0 then s.meas.chan[0].timer - (κ - s.now) else s.meas.chan[0].timer
    plaus1 := if s.meas.active = 1 then s.meas.chan[1].timer - (κ - s.now) else s.meas.chan[1].timer }
  have mv : ∀ x : Int, Apart g.sum x (x - (κ - s.now)) := fun x =>
    apart_moved (head_le_sum g) _ (d := κ - s.now) (by simp only [κ]; unfold toU16; omega) rfl
  have h1 : Close g.sum (AtQ s.now) AnyB g s τ1 :=
    { h0 with
      plaus0 := by
        show Apart _ _ (if s.meas.active = 0 then s.meas.chan[0].timer - (κ - s.now) else s.meas.chan[0].timer)
        split
        · exact mv _
        · exact apart_refl _ _
      plaus1 := by
        show Apart _ _ (if s.meas.active = 1 then s.meas.chan[1].timer - (κ - s.now) else s.meas.chan[1].timer)
        split
        · exact mv _
        · exact apart_refl _ _ }
  have ha1 : Close g.sum (AtQ s.now) AnyB g a τ1 := { h1 with }
  by_cases hact : a.meas.active = 0 ∨ a.meas.active = 1
  case neg =>
    have hcfg : measConfig c s.meas.active = none := by
      unfold measConfig
      rw [if_neg fun e => hact (.inl e), if_neg fun e => hact (.inr e)]
    refine AtOnce.of (timesOf s) rfl h0 (.inl ⟨?_, ?_⟩)
    · show measureWorkT c s g = none
      unfold measureWorkT measHandleT
      simp only [hav, if_true, hcfg]
      rfl
    · show measureWork c (timeSet (timesOf s) s) = none
      have hav' : (timeSet (timesOf s) s).meas.resultAvail = true := hav
      have hcfg' : measConfig c (timeSet (timesOf s) s).meas.active = none := hcfg
      unfold measureWork measHandle
      simp only [hav', if_true, hcfg']
      rfl
  case pos =>
  have p0 : a.meas.active = 0 → ∀ y : Int, y = τ1.plaus0 →
      (toU16 (a.now + g.headD 0) - a.meas.chan[0].timer - (s.now - y)) % 65536 = 0 := by
    intro e y hy
    have : τ1.plaus0 = s.meas.chan[0].timer - (κ - s.now) := if_pos e
    rw [hy, this]
    show (κ - s.meas.chan[0].timer - _) % 65536 = 0
    omega
  have p1 : a.meas.active = 1 → ∀ y : Int, y = τ1.plaus1 →
      (toU16 (a.now + g.headD 0) - a.meas.chan[1].timer - (s.now - y)) % 65536 = 0 := by
    intro e y hy
    have : τ1.plaus1 = s.meas.chan[1].timer - (κ - s.now) := if_pos e
    rw [hy, this]
    show (κ - s.meas.chan[1].timer - _) % 65536 = 0
    omega
  -- the instant at which the controller looks at its timer
  obtain ⟨κ2, k2, hk2, hκ2, hread⟩ : ∃ (κ2 : Int) (k2 : Nat), k2 ≤ g.sum ∧ (κ2 - s.now - k2) % 65536 = 0 ∧
      ∀ a' g', measHandleT c a g = some (a', g') → κ2 = toU16 (a'.1.now + g'.headD 0) := by
    rcases measHandle_in (c := c) hN ha1 hact (fun e => p0 e _ rfl) (fun e => p1 e _ rfl) with
      ⟨hx, -⟩ | ⟨n', g', m, mc, r, p, x0, x1, hx, -, -, hc⟩
    · exact ⟨s.now, 0, by omega, by omega, fun a' g' hh => by rw [hx] at hh; cases hh⟩
    · obtain ⟨k, e, hk⟩ := hc.now
      have hb : τ1.now = s.now := rfl
      have := head_le_sum g'
      refine ⟨toU16 (n' + g'.headD 0), k + g'.headD 0, by omega, ?_, fun a'' g'' hh => ?_⟩
      · simp only [hb] at e
        unfold toU16; omega
      · rw [hx] at hh; cases hh; rfl
  let τ : Times := { τ1 with curr := s.cc.timer - (κ2 - s.now), temp := s.ct.dtTimer - (κ2 - s.now) }
  have h : Close g.sum (AtQ s.now) AnyB g s τ :=
    { h1 with
      curr := apart_moved hk2 _ (d := κ2 - s.now) (by omega) rfl
      temp := apart_moved hk2 _ (d := κ2 - s.now) (by omega) rfl }
  have ha : Close g.sum (AtQ s.now) AnyB g a τ := { h with }
  refine AtOnce.of τ rfl h ?_
  show Sim _ _ _ (measureWorkT c s) (measureWork c (timeSet τ s)) g
  unfold measureWorkT measureWork
  have hav' : (timeSet τ s).meas.resultAvail = true := hav
  simp only [hav, hav', if_true]
  show Sim _ _ _ (measHandleT c a >>= _) ((measHandle c τ.now (timeSet τ a).meas a.mcurr).bind _) g
  rcases measHandle_in (c := c) hN ha hact (fun e => p0 e _ rfl) (fun e => p1 e _ rfl) with
    ⟨e1, e2⟩ | ⟨n', g', m, mc, r, p, x0, x1, e1, e2, em, hc⟩
  · exact .inl ⟨tm_none e1 _, by rw [e2]; rfl⟩
  · have hr := hread _ _ e1
    simp only at hr
    unfold Sim
    rw [tm_of e1, e2]
    show Sim _ _ _ _ _ g'
    simp only [Option.bind_some]
    let a2 : Sys := { a with now := n', meas := m, mcurr := mc }
    let τ2 : Times := { τ with plaus0 := x0, plaus1 := x1 }
    have ht : (toU16 (a2.now + g'.headD 0) - a2.ct.dtTimer - (τ2.now - τ2.temp)) % 65536 = 0 := by
      show (toU16 (n' + g'.headD 0) - s.ct.dtTimer - (s.now - (s.ct.dtTimer - (κ2 - s.now)))) % 65536 = 0
      omega
    have hcr : (toU16 (a2.now + g'.headD 0) - a2.cc.timer - (τ2.now - τ2.curr)) % 65536 = 0 := by
      show (toU16 (n' + g'.headD 0) - s.cc.timer - (s.now - (s.cc.timer - (κ2 - s.now)))) % 65536 = 0
      omega
    refine Sim.ite (P := m.active = 1) (fun _ => ?_) fun _ => ?_
    · exact Sim.bind (meastempResult_in (a := a2) (τ := τ2) hc r p ht) fun a3 g3 τ3 _ h3 => adcTriggerNext_in h3
    · exact Sim.bind (meascurrResult_in (a := a2) (τ := τ2) hc r p hcr) fun a3 g3 τ3 _ h3 => adcTriggerNext_in h3

theorem work_atOnce (c : Conf) (s : Sys) (e : Ev) (g : List Nat) (he : e = .measureWork ∨ e = .menuWork ∨
    (∃ pinb, e = .buttonsWork pinb) ∨ e = .displayWork ∨ e = .settingsWork) (hN : g.sum < 1000) : AtOnce c s e g := by
  rcases he with rfl | rfl | ⟨pinb, rfl⟩ | rfl | rfl
  · exact measureWork_atOnce c s g hN
  · exact menuWork_atOnce c s g
  · exact buttonsWork_atOnce c s g pinb hN
  · exact displayWork_atOnce c s g
  · exact settingsWork_atOnce c s g

end Verif
