import Verif.Proofs.Inside
import Verif.Proofs.Quiet
/-
The work functions other than `measure_work`, with ticks inside, leave the measurement alone.
-/
namespace Verif
open Spec

/-- every result of a computation with ticks inside has the property -/
def PostT {α : Type} (m : TM α) (P : α → Prop) : Prop := ∀ g x g', m g = some (x, g') → P x

namespace PostT
variable {α β : Type} {P : α → Prop} {Q : β → Prop}

theorem pure {x : α} (h : P x) : PostT (Pure.pure x) P := by
  intro g y g' e
  have e : some (x, g) = some (y, g') := e
  cases e
  exact h

theorem fail : PostT (failure : TM α) P := fun _ _ _ e => by cases e

theorem lift {o : Option α} (h : ∀ x, o = some x → P x) : PostT (liftM o) P := by
  intro g y g' e
  cases o with
  | none => cases e
  | some x =>
    have e : some (x, g) = some (y, g') := e
    cases e
    exact h _ rfl

theorem bind {m : TM α} {f : α → TM β} (h : PostT m P) (hf : ∀ x, P x → PostT (f x) Q) : PostT (m >>= f) Q := by
  intro g y g' e
  have e : (m g).bind (fun p => f p.1 p.2) = some (y, g') := e
  obtain ⟨⟨x, g1⟩, e1, e⟩ := Option.bind_eq_some_iff.mp e
  exact hf x (h _ _ _ e1) _ _ _ e

theorem bindV {o : Option α} {f : α → TM β} (hf : ∀ x, o = some x → PostT (f x) Q) : PostT (liftM o >>= f) Q :=
  bind (P := fun x => o = some x) (lift fun _ h => h) hf

theorem ite {p : Prop} [Decidable p] {x y : TM α} (h : p → PostT x P) (h' : ¬ p → PostT y P) :
    PostT (if p then x else y) P := by
  split
  · exact h ‹_›
  · exact h' ‹_›

theorem foldl {γ : Type} {f : α → γ → TM α} (hf : ∀ x y, P x → PostT (f x y) P) :
    ∀ (l : List γ) {x : α}, P x → PostT (l.foldlM f x) P
  | [], _, h => pure h
  | y :: l, _, h => bind (hf _ y h) fun _ h => foldl hf l h
end PostT

/-- the state has this measurement, apart from the adjustment, and this current controller, apart from the setpoint -/
def Keep (m : Meas × ContrCurr) (s : Sys) : Prop := (stripAdj s.meas, stripSp s.cc) = m

variable {m : Meas × ContrCurr} {s : Sys}

theorem Keep.quiet {s' : Sys} (h : Keep m s) (q : Quiet s s') : Keep m s' := (Prod.ext q.meas q.cc).trans h

theorem Keep.tick (h : Keep m s) : PostT (tickIn s) (Keep m) := by
  intro g y g' e
  cases e
  exact h

theorem Keep.post {o : Option Sys} (h : Keep m s) (q : Post o (Quiet s)) : PostT (liftM o) (Keep m) :=
  PostT.lift fun _ e => h.quiet (q _ e)

theorem Keep.store (h : Keep m s) : PostT (sysStoreT s) (Keep m) :=
  PostT.bind h.tick fun s h => h.post (Quiet.refl s).sysStore

theorem Keep.setCache (h : Keep m s) (x : Settings) : Keep m (setCache s x) := h

theorem Keep.update (h : Keep m s) : Keep m (menuRequestUpdate s) := h

theorem Keep.setpoint (h : Keep m s) : PostT (liftM (contrtempUpdateSetpoint s)) (Keep m) :=
  h.post (Quiet.refl s).updateSetpoint

theorem Keep.idleSetpoint (h : Keep m s) (c : Conf) (w : Int) : PostT (contrtempSetIdleSetpointT c s w) (Keep m) :=
  PostT.ite (fun _ => PostT.bind (h.setCache _).setpoint fun _ h => h.store) fun _ => PostT.pure h

theorem Keep.enabled (h : Keep m s) (c : Conf) (b : Bool) : PostT (contrtempSetEnabledT c s b) (Keep m) := by
  refine PostT.ite (fun hb => ?_) fun _ => PostT.pure h
  intro g s' g' e
  have e : (contrtempDoSetEnabledT c s b) g = some (s', g') := e
  have e : ((contrtempDoSetEnabled c { s with now := toU16 (s.now + g.headD 0) } b).bind fun s => some (s, g.tail)) =
      some (s', g') := by
    rw [← e]
    show _ = (liftM (contrtempDoSetEnabled c { s with now := toU16 (s.now + g.headD 0) } b) : TM Sys) g.tail
    cases contrtempDoSetEnabled c { s with now := toU16 (s.now + g.headD 0) } b <;> rfl
  obtain ⟨s1, e1, e⟩ := Option.bind_eq_some_iff.mp e
  cases e
  have q := (Quiet.refl { s with now := toU16 (s.now + g.headD 0) }).setEnabled c b s'
  unfold contrtempSetEnabled at q
  rw [if_pos hb] at q
  exact (Prod.ext (q e1).meas (q e1).cc).trans h

theorem Keep.iron (h : Keep m s) (c : Conf) (b : Button) (e : BState) : PostT (contrtempButtonT c s b e) (Keep m) :=
  PostT.ite (fun _ => PostT.bind h.tick fun s h => h.post ((Quiet.refl s).ironButton c b e)) fun _ =>
    h.post ((Quiet.refl s).ironButton c b e)

theorem Keep.presetsStore (h : Keep m s) : PostT (presetsStoreT s) (Keep m) :=
  PostT.bind h.store fun _ h => PostT.bind h.setpoint fun _ h => PostT.pure h.update

theorem Keep.presetsSet (h : Keep m s) (v : Int) : PostT (presetsSetActiveT s v) (Keep m) :=
  PostT.bindV fun _ _ => (h.setCache _).presetsStore

theorem Keep.adjust (h : Keep m s) (c : Conf) (a : Int) : PostT (meastempAdjustSetT c s a) (Keep m) := by
  refine PostT.ite (fun hc => ?_) fun _ => PostT.pure h
  have h1 : Keep m (Verif.setCache (measureAdjustSet c s a) { (measureAdjustSet c s a).set.cache with adj := a }) := by
    unfold measureAdjustSet
    rw [if_pos hc]
    exact (congrArg (fun q => (q, stripSp s.cc)) (stripAdj_set s.meas a)).trans h
  exact PostT.bind h1.store fun _ h => PostT.pure h.update

theorem Keep.debug (h : Keep m s) (c : Conf) (b : Bool) : PostT (debugEnableT c s b) (Keep m) :=
  PostT.bind h.tick fun s h => h.post ((Quiet.refl s).debugEnable c b)

theorem Keep.arm (h : Keep m s) (ms : Int) : PostT (menuArmT s ms) (Keep m) :=
  PostT.bind h.tick fun s h => h.post ((Quiet.refl s).menuArm ms)

theorem Keep.enter (h : Keep m s) (c : Conf) (st : MenuState) : PostT (menuEnterT c s st) (Keep m) := by
  cases st <;> unfold menuEnterT <;> simp only [] <;> first
    | exact PostT.pure h
    | exact h.arm _
    | exact h.enabled c _
    | exact PostT.ite (fun _ => PostT.pure h) fun _ => h.enabled c _
    | exact PostT.ite (fun _ => PostT.pure h) fun _ => PostT.bind (h.arm _) fun _ h => h.enabled c _

theorem Keep.setState (h : Keep m s) (c : Conf) (st : MenuState) : PostT (menuSetStateT c s st) (Keep m) :=
  PostT.ite (fun _ => PostT.pure h) fun _ =>
    PostT.bind (Keep.enter (s := { s with menu := { s.menu with state := st } }) h c st) fun _ h => PostT.pure h.update

theorem Keep.rampK (h : Keep m s) (c : Conf) (get : PidK → Int) (put : PidK → Int → PidK) (inc hi : Int) (up : Bool) :
    PostT (doRampKT c s get put inc hi up) (Keep m) := by
  unfold doRampKT
  simp only []
  split
  · split
    all_goals
      exact PostT.bindV fun _ _ => PostT.bindV fun _ _ => PostT.bind (h.setCache _).store fun s h =>
        h.post ((Quiet.refl s).setBoost c _)
  · exact PostT.fail

theorem Keep.rampHandler (h : Keep m s) (c : Conf) (r : RampHandler) (up : Bool) :
    PostT (rampHandlerT c s r up) (Keep m) := by
  cases r <;> unfold rampHandlerT <;> simp only []
  · exact PostT.bindV fun _ _ => PostT.bindV fun _ _ => PostT.bind (h.presetsSet _) fun _ h => h.setState c _
  · exact PostT.bindV fun _ _ => h.idleSetpoint c _
  · exact PostT.bindV fun _ _ => h.adjust c _
  all_goals exact h.rampK c _ _ _ _ _

theorem Keep.startRamping (h : Keep m s) (up pre : Bool) (r : Option RampHandler) :
    PostT (startRampingT s up pre r) (Keep m) := by
  unfold startRampingT
  split
  · exact PostT.bind h.tick fun s (h : Keep m s) => PostT.bindV fun _ _ => PostT.bind (PostT.pure (P := Keep m) h)
      fun _ h => PostT.bind (Keep.tick h) fun s (h : Keep m s) => PostT.pure (P := Keep m) h
  · exact PostT.bind (PostT.pure (P := Keep m) h) fun _ h => PostT.bind (Keep.tick h) fun s (h : Keep m s) =>
      PostT.pure (P := Keep m) h

theorem Keep.startRampingButton (h : Keep m s) (b : Button) (e : BState) (pre : Bool) (r : RampHandler) :
    PostT (startRampingButtonT s b e pre r) (Keep m) := by
  unfold startRampingButtonT
  repeat' split
  all_goals first
    | exact PostT.pure h
    | exact h.startRamping _ _ _

theorem Keep.screen (h : Keep m s) (c : Conf) (b : Button) (e : BState) : PostT (menuButtonScreenT c s b e) (Keep m) := by
  unfold menuButtonScreenT
  split
  · refine PostT.bind (h.startRampingButton _ _ _ _) fun _ h => PostT.ite (fun _ => h.setState c _) fun _ => PostT.pure h
  · refine PostT.bind (h.arm _) fun s h => ?_
    have k : ∀ s, Keep m s → PostT (startRampingButtonT s b e true RampHandler.settemp) (Keep m) := fun s h =>
      h.startRampingButton _ _ _ _
    refine PostT.ite (fun _ => ?_) fun _ => PostT.bind (PostT.pure h) k
    have k2 : ∀ s, Keep m s → PostT (if b = Button.minus then do
        let s ← presetsStoreT (Verif.setCache s s.set.cache.presetsPrev)
        startRampingButtonT s b e true RampHandler.settemp
      else do
        let s ← pure s
        startRampingButtonT s b e true RampHandler.settemp) (Keep m) := fun s h =>
      PostT.ite (fun _ => PostT.bind (h.setCache _).presetsStore k) fun _ => PostT.bind (PostT.pure h) k
    exact PostT.ite (fun _ => PostT.bind (h.setCache _).presetsStore k2) fun _ => PostT.bind (PostT.pure h) k2
  · exact PostT.bind (h.arm _) fun _ h => h.startRampingButton _ _ _ _
  · exact PostT.ite (fun _ => PostT.pure h) fun _ => PostT.bind (h.arm _) fun _ h => h.startRampingButton _ _ _ _
  · refine PostT.ite (fun _ => PostT.pure h) fun _ => PostT.ite (fun _ => ?_) fun _ => PostT.pure h
    have k : ∀ s, Keep m s → PostT (if b = Button.minus then do
        let s ← debugEnableT c s false
        pure (menuRequestUpdate s)
      else pure s) (Keep m) := fun s h =>
      PostT.ite (fun _ => PostT.bind (h.debug c _) fun _ h => PostT.pure h.update) fun _ => PostT.pure h
    exact PostT.ite (fun _ => PostT.bind (h.debug c _) k) fun _ => PostT.bind (PostT.pure h) k
  · exact PostT.pure h
  · exact PostT.pure h
  · exact PostT.pure h
  · exact PostT.pure h
  all_goals exact PostT.ite (fun _ => PostT.pure h) fun _ => h.startRampingButton _ _ _ _

theorem Keep.menuButton (h : Keep m s) (c : Conf) (b : Button) (e : BState) : PostT (menuButtonT c s b e) (Keep m) := by
  refine PostT.ite (fun _ => PostT.pure h) fun _ => PostT.bind (h.screen c b e) fun s h => ?_
  refine PostT.ite (fun _ => ?_) fun _ => PostT.pure h
  have h : Keep m (stopRamping s) := h
  exact PostT.ite (fun _ => PostT.ite (fun _ => h.setState c _) fun _ => PostT.pure h) fun _ => PostT.pure h

theorem Keep.timeouts (h : Keep m s) (c : Conf) : PostT (menuTimeoutsT c s) (Keep m) := by
  unfold menuTimeoutsT
  split
  all_goals first
    | exact PostT.pure h
    | skip
  all_goals
    refine PostT.bind h.tick fun s h => PostT.ite (fun _ => ?_) fun _ => PostT.pure h
    have k : ∀ s, Keep m s → PostT (pure (stopRamping s)) (Keep m) := fun s h =>
      PostT.pure (P := Keep m) (x := stopRamping s) h
    exact PostT.ite (fun _ => PostT.bind (h.setState c _) k) fun _ => PostT.bind (h.setState c _) k

theorem Keep.ramp (h : Keep m s) (c : Conf) : PostT (menuRampT c s) (Keep m) := by
  unfold menuRampT
  split
  · exact PostT.pure h
  · exact PostT.bind h.tick fun s h => PostT.ite (fun _ => h.startRamping _ _ _) fun _ => PostT.pure h
  · exact PostT.bind h.tick fun s h => PostT.ite (fun _ => h.startRamping _ _ _) fun _ => PostT.pure h
  all_goals
    refine PostT.bind h.tick fun s h => PostT.ite (fun _ => ?_) fun _ => PostT.pure h
    exact PostT.bindV fun _ _ => PostT.bind (h.rampHandler c _ _) fun s h => PostT.bindV fun _ _ =>
      PostT.pure (P := Keep m) h

theorem Keep.menuWork (h : Keep m s) (c : Conf) : PostT (menuWorkT c s) (Keep m) := by
  refine PostT.bind (h.timeouts c) fun s h => ?_
  have h1 : Keep m (menuIndicate s) := h.quiet (Quiet.refl s).menuIndicate
  refine PostT.bind (h1.ramp c) fun s h => PostT.lift fun s' e => ?_
  unfold menuRefresh at e
  split at e
  · have q : Quiet s { s with menu := { s.menu with updReq := false } } := { Quiet.refl s with }
    exact h.quiet (q.menuUpdateDisplay c _ e)
  · cases e
    exact h

theorem Keep.buttonsWork (h : Keep m s) (c : Conf) (pinb : BitVec 8) : PostT (buttonsWorkT c s pinb) (Keep m) := by
  refine PostT.bind h.tick fun s h => PostT.bindV fun b _ => ?_
  refine PostT.foldl (P := Keep m) (fun s x h => ?_) b.2 (x := { s with btn := b.1 }) h
  exact PostT.bind (h.iron c _ _) fun _ h => h.menuButton c _ _

/-- the work functions other than `measure_work` leave the measurement alone, apart from the adjustment, and the
    current controller, apart from the setpoint -/
theorem workT_keep {c : Conf} {s s' : Sys} {e : Ev} {g g' : List Nat} (he : e ≠ .measureWork)
    (h : workT c s e g = some (s', g')) : Keep (stripAdj s.meas, stripSp s.cc) s' := by
  have h0 : Keep (stripAdj s.meas, stripSp s.cc) s := rfl
  cases e with
  | menuWork => exact h0.menuWork c _ _ _ h
  | buttonsWork pinb => exact h0.buttonsWork c pinb _ _ _ h
  | displayWork =>
    refine PostT.bind (Q := Keep (stripAdj s.meas, stripSp s.cc)) h0.tick (fun s h => PostT.lift fun s' e => ?_) _ _ _ h
    obtain ⟨_, -, e⟩ := Option.bind_eq_some_iff.mp e
    cases e
    exact h
  | settingsWork =>
    refine PostT.bind (Q := Keep (stripAdj s.meas, stripSp s.cc)) h0.tick (fun s h => PostT.lift fun s' e => ?_) _ _ _ h
    cases e
    exact h
  | measureWork => exact absurd rfl he
  | _ => cases h

theorem workT_meas {c : Conf} {s s' : Sys} {e : Ev} {g g' : List Nat} (he : e ≠ .measureWork)
    (h : workT c s e g = some (s', g')) : stripAdj s'.meas = stripAdj s.meas := congrArg Prod.fst (workT_keep he h)

theorem workT_cc {c : Conf} {s s' : Sys} {e : Ev} {g g' : List Nat} (he : e ≠ .measureWork)
    (h : workT c s e g = some (s', g')) : stripSp s'.cc = stripSp s.cc := congrArg Prod.snd (workT_keep he h)

end Verif
