import Verif.Proofs.UiInSample
import Verif.Proofs.UiInWork
import Verif.Proofs.LoopIn
/-
The main loop with ticks inside the work functions, beside the user interface.
-/
namespace Verif
open Spec Props

variable {v : Speed} {c : Conf} {s a : Sys} {u : Ui} {T : Nat}

/-! ### the other work functions leave the menu alone -/

/-- the menu, the buttons, the settings, the display and the debug switch are those of `a` -/
def Alone (a s : Sys) : Prop :=
  s.btn = a.btn ∧ s.debugEn = a.debugEn ∧ s.set = a.set ∧ s.disp = a.disp ∧ s.ports = a.ports ∧
    ∃ w, s.menu = { a.menu with updReq := w }

theorem Alone.refl (s : Sys) : Alone s s := ⟨rfl, rfl, rfl, rfl, rfl, _, rfl⟩

theorem Alone.trans {s1 s2 s3 : Sys} (h : Alone s1 s2) (k : Alone s2 s3) : Alone s1 s3 := by
  obtain ⟨h1, h2, h3, h5, h6, w, h4⟩ := h
  obtain ⟨k1, k2, k3, k5, k6, w', k4⟩ := k
  exact ⟨k1.trans h1, k2.trans h2, k3.trans h3, k5.trans h5, k6.trans h6, w', by rw [k4, h4]⟩

theorem tick_alone (s : Sys) : PostT (tickIn s) (Alone s) := by
  intro g x g' e
  cases e
  exact ⟨rfl, rfl, rfl, rfl, rfl, _, rfl⟩

theorem setEmerg_alone {s s' : Sys} {f : BitVec 8} (e : contrcurrSetEmerg s f = some s') : Alone s s' := by
  unfold contrcurrSetEmerg at e
  split at e
  · simp only [] at e
    split at e
    · unfold pwmcurrSet at e
      obtain ⟨d, -, e⟩ := Option.bind_eq_some_iff.mp e
      cases e; exact ⟨rfl, rfl, rfl, rfl, rfl, _, rfl⟩
    · cases e; exact ⟨rfl, rfl, rfl, rfl, rfl, _, rfl⟩
  · cases e; exact Alone.refl s

theorem currRunT_alone (s : Sys) (r : Int) : PostT (contrcurrRunT s r) (Alone s) := by
  unfold contrcurrRunT
  refine PostT.ite (fun _ => PostT.pure (Alone.refl s)) fun _ => PostT.ite (fun _ => PostT.pure (Alone.refl s)) fun _ => ?_
  refine PostT.bind (tick_alone s) fun s1 h1 => PostT.bindV fun _ _ => PostT.bind (tick_alone s1) fun s2 h2 =>
    PostT.bindV fun _ _ => PostT.bindV fun _ _ => PostT.lift fun s' e => ?_
  unfold pwmcurrSet at e
  obtain ⟨d, -, e⟩ := Option.bind_eq_some_iff.mp e
  cases e
  exact (h1.trans h2).trans ⟨rfl, rfl, rfl, rfl, rfl, _, rfl⟩

theorem tempRunT_alone (s : Sys) (r : Int) : PostT (contrtempRunT s r) (Alone s) := by
  unfold contrtempRunT
  refine PostT.ite (fun _ => PostT.pure (Alone.refl s)) fun _ => PostT.ite (fun _ => PostT.pure (Alone.refl s)) fun _ => ?_
  refine PostT.bind (tick_alone s) fun s1 h1 => PostT.bindV fun _ _ => PostT.bind (tick_alone s1) fun s2 h2 =>
    PostT.bindV fun _ _ => PostT.bindV fun _ _ => ?_
  simp only []
  split
  all_goals
    refine PostT.bindV fun s3 e3 => PostT.pure ((h1.trans h2).trans ?_)
    have k := setEmerg_alone e3
    exact Alone.trans (Alone.trans (s2 := { s2 with ct := _ }) ⟨rfl, rfl, rfl, rfl, rfl, _, rfl⟩ k) ⟨rfl, rfl, rfl, rfl, rfl, _, rfl⟩

theorem tempFeedbackT_alone (s : Sys) (r : Int) : PostT (contrtempSetFeedbackT s r) (Alone s) := by
  unfold contrtempSetFeedbackT
  simp only []
  split
  · intro g x g' e
    exact Alone.trans (s2 := menuRequestUpdate { s with ct := { s.ct with feedback := r } }) ⟨rfl, rfl, rfl, rfl, rfl, true, rfl⟩
      (tempRunT_alone _ r g x g' e)
  · exact tempRunT_alone _ r

theorem meastempResultT_alone (s : Sys) (p : Int) (pl : Plaus) : PostT (meastempResultT s p pl) (Alone s) := by
  have hset : ∀ b, Alone s (contrtempSetEmerg s b) := by
    intro b
    unfold contrtempSetEmerg contrtempDoSetEmerg
    repeat' split
    all_goals exact ⟨rfl, rfl, rfl, rfl, rfl, _, rfl⟩
  cases pl <;> unfold meastempResultT <;> simp only []
  · intro g x g' e
    refine Alone.trans ?_ (tempFeedbackT_alone _ p _ _ _ e)
    refine Alone.trans (hset false) ?_
    unfold contrcurrSetRestricted
    exact ⟨rfl, rfl, rfl, rfl, rfl, _, rfl⟩
  · exact tempFeedbackT_alone _ _
  · exact PostT.pure (hset true)

theorem meascurrResultT_alone (s : Sys) (p : Int) (pl : Plaus) : PostT (meascurrResultT s p pl) (Alone s) := by
  unfold meascurrResultT
  cases pl <;> simp only []
  · exact PostT.bindV fun s1 e1 => PostT.bind (currRunT_alone _ p) fun s2 h2 =>
      PostT.pure (((setEmerg_alone e1).trans (Alone.trans (s2 := _) ⟨rfl, rfl, rfl, rfl, rfl, _, rfl⟩ h2)).trans ⟨rfl, rfl, rfl, rfl, rfl, _, rfl⟩)
  · exact PostT.bindV fun s1 e1 => PostT.bind (currRunT_alone _ _) fun s2 h2 =>
      PostT.pure (((setEmerg_alone e1).trans (Alone.trans (s2 := _) ⟨rfl, rfl, rfl, rfl, rfl, _, rfl⟩ h2)).trans ⟨rfl, rfl, rfl, rfl, rfl, _, rfl⟩)
  · exact PostT.bindV fun s1 e1 => PostT.pure ((setEmerg_alone e1).trans ⟨rfl, rfl, rfl, rfl, rfl, _, rfl⟩)

theorem measPlausT_alone {cfg : MeasConfig} {s : Sys} {ch : MeasChan} {phys : Int} :
    PostT (measPlausT c cfg s ch phys) fun r => Alone s r.1 := by
  unfold measPlausT
  have tl : ∀ (s1 : Sys) (ch : MeasChan) (phys : Int) (pl : Plaus), Alone s s1 →
      PostT (if ch.timerRunning = true then do
          let s ← tickIn s1
          let x ← pure (s, if timerExpired s.now ch.timer = true then { ch with plausTimeout := true } else ch)
          pure (x.1, x.2, phys, if x.2.plausTimeout = true then Plaus.timeout else pl)
        else do
          let x ← pure (s1, ch)
          pure (x.1, x.2, phys, if x.2.plausTimeout = true then Plaus.timeout else pl)) fun r : Sys × MeasChan × Int × Plaus => Alone s r.1 := by
    intro s1 ch phys pl h
    refine PostT.ite (fun _ => ?_) fun _ => PostT.pure h
    exact PostT.bind (tick_alone s1) fun s2 h2 => PostT.pure (h.trans h2)
  have mid : ∀ (ch : MeasChan) (phys : Int) (pl : Plaus),
      PostT (if pl ≠ Plaus.plausible ∧ (!ch.timerRunning) = true then do
          let s ← tickIn s
          let t ← liftM (timerArm s.now cfg.timeoutMs)
          let x ← pure (s, { ch with timer := t, timerRunning := true })
          if x.2.timerRunning = true then do
            let s ← tickIn x.1
            let y ← pure (s, if timerExpired s.now x.2.timer = true then { x.2 with plausTimeout := true } else x.2)
            pure (y.1, y.2, phys, if y.2.plausTimeout = true then Plaus.timeout else pl)
          else do
            let y ← pure (x.1, x.2)
            pure (y.1, y.2, phys, if y.2.plausTimeout = true then Plaus.timeout else pl)
        else do
          let x ← pure (s, ch)
          if x.2.timerRunning = true then do
            let s ← tickIn x.1
            let y ← pure (s, if timerExpired s.now x.2.timer = true then { x.2 with plausTimeout := true } else x.2)
            pure (y.1, y.2, phys, if y.2.plausTimeout = true then Plaus.timeout else pl)
          else do
            let y ← pure (x.1, x.2)
            pure (y.1, y.2, phys, if y.2.plausTimeout = true then Plaus.timeout else pl))
        fun r : Sys × MeasChan × Int × Plaus => Alone s r.1 := by
    intro ch phys pl
    refine PostT.ite (fun _ => ?_) fun _ => ?_
    · exact PostT.bind (tick_alone s) fun s1 h1 => PostT.bindV fun t _ => tl s1 { ch with timer := t, timerRunning := true } phys pl h1
    · exact tl s ch phys pl (Alone.refl s)
  split
  · exact PostT.bindV fun phys _ => mid _ _ _
  · exact PostT.bindV fun phys _ => mid _ _ _

theorem measHandleT_alone (s : Sys) : PostT (measHandleT c s) fun r => Alone s r.1 := by
  unfold measHandleT
  refine PostT.bindV fun cfg _ => PostT.bindV fun raw _ => ?_
  simp only []
  refine PostT.bindV fun phys _ => ?_
  split
  · exact PostT.bind measPlausT_alone fun r hr => PostT.pure (hr.trans ⟨rfl, rfl, rfl, rfl, rfl, _, rfl⟩)
  · exact PostT.fail

theorem measureWorkT_alone (s : Sys) : PostT (measureWorkT c s) (Alone s) := by
  unfold measureWorkT
  simp only []
  refine PostT.ite (fun _ => ?_) fun _ => PostT.pure ⟨rfl, rfl, rfl, rfl, rfl, _, rfl⟩
  refine PostT.bind (measHandleT_alone _) fun x hx => ?_
  have fin : ∀ s2 : Sys, Alone x.1 s2 → PostT (adcTriggerNextT c s2) (Alone s) := by
    intro s2 h2
    refine PostT.bind (tick_alone s2) fun s3 h3 => PostT.bindV fun m hm => PostT.pure ?_
    have h0 : Alone s { s with meas := { s.meas with resultAvail := false } } := ⟨rfl, rfl, rfl, rfl, rfl, _, rfl⟩
    exact (((h0.trans hx).trans h2).trans h3).trans ⟨rfl, rfl, rfl, rfl, rfl, _, rfl⟩
  exact PostT.ite (fun _ => PostT.bind (meastempResultT_alone _ _ _) fin) fun _ =>
    PostT.bind (meascurrResultT_alone _ _ _) fin

/-- events other than the menu's work and the sampling of the buttons leave the settings alone -/
theorem step_vals {s' : Sys} {e : Ev} (hi : Inv c s) (hs : step c s e = some s') (h1 : ∀ pinb, e ≠ .buttonsWork pinb)
    (h2 : e ≠ .menuWork) : SameVals s'.set.cache s.set.cache := by
  cases e with
  | tick => cases hs; rfl
  | adc x => cases hs; rfl
  | eeIsr =>
    obtain ⟨x, ex, hs⟩ := Option.bind_eq_some_iff.mp hs
    cases hs
    show SameVals x.cache _
    unfold eeIsr at ex
    obtain ⟨d, -, ex⟩ := Option.bind_eq_some_iff.mp ex
    simp only [] at ex
    by_cases h1 : (if c.eering = true then s.set.eeIndex else 0) < c.nrEe
    · rw [if_pos h1] at ex
      have ex := Option.some.inj ex
      subst ex
      by_cases h2 : eeReadByte c s.set.eeprom ((if c.eering = true then s.set.eeIndex else 0) * 64 + s.set.eeOff) = d
      · simp only [if_pos h2]; rfl
      · simp only [if_neg h2]; rfl
    · rw [if_neg h1] at ex
      cases ex
  | eeDone =>
    cases hs
    show SameVals (eeProgDone s.set).cache _
    unfold eeProgDone
    split <;> rfl
  | measureWork =>
    rcases measureWork_eff hi hs with ⟨-, rfl⟩ | ⟨-, p, pl, hm⟩
    · rfl
    · rw [hm.set]; rfl
  | menuWork => exact absurd rfl h2
  | displayWork => obtain ⟨_, -, hs⟩ := Option.bind_eq_some_iff.mp hs; cases hs; rfl
  | buttonsWork pinb => exact absurd rfl (h1 pinb)
  | settingsWork =>
    cases hs
    show SameVals (settingsWork c s.now s.set).1.cache _
    unfold settingsWork
    split
    · rfl
    · split
      · rfl
      · simp only []
        split <;> rfl

/-- a work function other than those of the menu and of the buttons, with ticks inside -/
theorem workT_rest {e : Ev} {g g' : List Nat} {s' : Sys} (hi : Inv c s) (h : workT c s e g = some (s', g'))
    (h1 : ∀ pinb, e ≠ .buttonsWork pinb) (h2 : e ≠ .menuWork) :
    s'.btn = s.btn ∧ s'.debugEn = s.debugEn ∧ SameVals s'.set.cache s.set.cache ∧ ∃ w, s'.menu = { s.menu with updReq := w } := by
  have later : ∀ f, (f = .displayWork ∨ f = .settingsWork) → (do let s ← tickIn s; liftM (step c s f) : TM Sys) g = some (s', g') →
      s'.btn = s.btn ∧ s'.debugEn = s.debugEn ∧ SameVals s'.set.cache s.set.cache ∧ ∃ w, s'.menu = { s.menu with updReq := w } := by
    intro f hf e
    have k : PostT (do let s ← tickIn s; liftM (step c s f) : TM Sys) fun s' =>
        s'.btn = s.btn ∧ s'.debugEn = s.debugEn ∧ SameVals s'.set.cache s.set.cache ∧ ∃ w, s'.menu = { s.menu with updReq := w } := by
      refine PostT.bind (P := fun s1 => Inv c s1 ∧ ∃ n, s1 = { s with now := n }) ?_ fun s1 ⟨i1, n, e1⟩ => PostT.lift fun s' e => ?_
      · intro g x g' e
        cases e
        exact ⟨{ hi with now := by simp only [toU16]; omega }, _, rfl⟩
      · subst e1
        have n1 : f ≠ .menuWork := by rcases hf with rfl | rfl <;> simp
        have n2 : ∀ pinb, f ≠ .buttonsWork pinb := by rcases hf with rfl | rfl <;> simp
        obtain ⟨q1, q2, q3⟩ := quiet_step i1 e n1 fun pinb hs => n2 pinb hs.1
        exact ⟨q1, q2, (step_vals i1 e n2 n1 :), q3⟩
    exact k _ _ _ e
  cases e with
  | measureWork =>
    obtain ⟨k1, k2, k3, -, -, k4⟩ := measureWorkT_alone s g s' g' h
    exact ⟨k1, k2, by rw [k3]; rfl, k4⟩
  | menuWork => exact absurd rfl h2
  | buttonsWork pinb => exact absurd rfl (h1 pinb)
  | displayWork => exact later _ (Or.inl rfl) h
  | settingsWork => exact later _ (Or.inr rfl) h
  | tick => cases h
  | adc => cases h
  | eeIsr => cases h
  | eeDone => cases h

/-! ### the times -/

/-- as `Behind`, with ticks inside -/
def BehindI (v : Speed) (p : Pc) (x : LoopI) (B : Nat) : Prop :=
  x.reset ≤ if 1 ≤ x.pc.idx ∧ x.pc.idx ≤ p.idx then B + v.W else B

theorem BehindI.le {x : LoopI} {p : Pc} {B : Nat} (h : BehindI v p x B) : x.reset ≤ B + v.W := by
  unfold BehindI at h; split at h <;> omega

theorem BehindI.of {x : LoopI} {p : Pc} {B : Nat} (h : x.reset ≤ B) : BehindI v p x B := by
  unfold BehindI; split <;> omega

theorem BehindI.step {x y : LoopI} {e : Option Ev} {p : Pc} {B : Nat} (hp : p ≠ .reset) (hx : x.T ≤ x.reset + v.W)
    (h : LoopIStep c x e y) (hn : ¬ CallsI p x e y) (hB : BehindI v p x B) : BehindI v p y B := by
  cases h with
  | reset _ h =>
    unfold BehindI at hB ⊢
    rw [if_neg (by rw [h]; rintro ⟨h, -⟩; exact absurd h (by decide))] at hB
    simp only []
    rw [if_pos (by cases p <;> first | exact absurd rfl hp | decide)]
    omega
  | tick | ee | adc | pass => exact hB
  | @call e g s' pinb _ h1 h2 =>
    have hne : x.pc ≠ p := fun hh => hn ⟨e, pinb, rfl, hh ▸ h1⟩
    unfold BehindI at hB ⊢
    show x.reset ≤ if 1 ≤ x.pc.next.idx ∧ x.pc.next.idx ≤ p.idx then B + v.W else B
    have hr : x.pc ≠ .reset := fun hh => by rw [hh] at h1; cases h1
    generalize x.pc = q at hne hr hB
    cases q <;> cases p <;> first
      | exact absurd rfl hr
      | exact absurd rfl hne
      | exact absurd rfl hp
      | exact hB

/-- the times of the user interface are the same as before, or lie between `A` and `B` -/
def KeepsIn (A B : Nat) (u u' : Ui) : Prop :=
  ((u'.screen = u.screen ∧ u'.since = u.since) ∨ (A ≤ u'.since ∧ u'.since ≤ B)) ∧
  ((u'.ramp = u.ramp ∧ u'.rampAt = u.rampAt) ∨ u'.ramp = .none ∨ (A ≤ u'.rampAt ∧ u'.rampAt ≤ B))

theorem KeepsIn.trans {A B : Nat} {u1 u2 u3 : Ui} (h : KeepsIn A B u1 u2) (h' : KeepsIn A B u2 u3) : KeepsIn A B u1 u3 := by
  obtain ⟨a, b⟩ := h
  obtain ⟨a', b'⟩ := h'
  constructor
  · rcases a' with ⟨p, q⟩ | p
    · rw [p, q]; exact a
    · exact Or.inr p
  · rcases b' with ⟨p, q⟩ | p
    · rw [p, q]; exact b
    · exact Or.inr p

theorem KeepsIn.of {A B t : Nat} {u' : Ui} (h : KeepsTimes t u u') (hA : A ≤ t) (hB : t ≤ B) : KeepsIn A B u u' := by
  obtain ⟨a, b⟩ := h
  constructor
  · exact a.imp id fun e => by omega
  · exact b.imp id fun b => b.imp id fun e => by omega

theorem KeepsIn.wide {A B A' B' : Nat} {u' : Ui} (h : KeepsIn A B u u') (hA : A' ≤ A) (hB : B ≤ B') : KeepsIn A' B' u u' := by
  obtain ⟨a, b⟩ := h
  constructor
  · exact a.imp id fun e => by omega
  · exact b.imp id fun b => b.imp id fun e => by omega

theorem Spec.UiButton.times {A B : Nat} {b : Button} {was down : Bool} {u' : Ui} (h : UiButton c A B u b was down u') :
    A ≤ B ∧ KeepsIn A B u u' := by
  cases h with
  | up h => exact ⟨h, .of (KeepsTimes.refl A u) (Nat.le_refl _) h⟩
  | @held t h1 h2 => exact ⟨by omega, .of (KeepsTimes.touch u t) h1 h2⟩
  | @down t t' h1 h2 h3 =>
    exact ⟨by omega, (KeepsIn.of (KeepsTimes.press u t b) h1 (by omega)).trans (.of (KeepsTimes.touch _ t') (by omega) h3)⟩
  | @release t t' h1 h2 h3 =>
    exact ⟨by omega, (KeepsIn.of (KeepsTimes.touch u t) h1 (by omega)).trans (.of (KeepsTimes.release _ c t' b) (by omega) h3)⟩

theorem Spec.UiSample.times {A B : Nat} {pinb : BitVec 8} {u' : Ui} (h : UiSample c A B pinb u u') :
    A ≤ B ∧ KeepsIn A B u u' ∧ u'.pins = pinb := by
  obtain ⟨T1, T2, u1, u2, u3, h1, h2, h3, rfl⟩ := h
  obtain ⟨a1, b1⟩ := h1.times
  obtain ⟨a2, b2⟩ := h2.times
  obtain ⟨a3, b3⟩ := h3.times
  refine ⟨by omega, ?_, rfl⟩
  have k := ((b1.wide (Nat.le_refl _) (by omega)).trans (b2.wide (by omega) (by omega))).trans
    (b3.wide (A' := A) (B' := B) (by omega) (Nat.le_refl _))
  exact k

/-- the loop is not behind the times of the user interface -/
structure UiTimeI (v : Speed) (x : LoopI) (T : Nat) (u : Ui) : Prop where
  since : u.since ≤ T
  hold : ∀ L, holdTime u.screen = some L → BehindI v .menu x (u.since + L)
  wait : u.ramp = .preUp ∨ u.ramp = .preDown → u.rampAt ≤ T ∧ BehindI v .menu x (u.rampAt + 1000)
  going : Ramping u.ramp = true → u.rampAt ≤ T + 400 ∧ BehindI v .menu x u.rampAt

theorem UiTimeI.keeps {x : LoopI} {u' : Ui} {A : Nat} (h : UiTimeI v x T u) (hx : x.reset ≤ A) (k : KeepsIn A T u u') :
    UiTimeI v x T u' := by
  obtain ⟨a, b⟩ := k
  have hs := h.since
  refine ⟨?_, fun L hL => ?_, fun hr => ?_, fun hr => ?_⟩
  · rcases a with ⟨-, a⟩ | a <;> omega
  · rcases a with ⟨a, a'⟩ | a
    · rw [a] at hL
      rw [a']
      exact h.hold L hL
    · exact BehindI.of (by omega)
  · rcases b with ⟨b, b'⟩ | b | b
    · rw [b] at hr
      rw [b']
      exact h.wait hr
    · rw [b] at hr
      rcases hr with hr | hr <;> cases hr
    · exact ⟨by omega, BehindI.of (by omega)⟩
  · rcases b with ⟨b, b'⟩ | b | b
    · rw [b] at hr
      rw [b']
      exact h.going hr
    · rw [b] at hr
      cases hr
    · exact ⟨by omega, BehindI.of (by omega)⟩

theorem UiTimeI.step {x y : LoopI} {e : Option Ev} (h : UiTimeI v x x.T u) (hdog : x.T ≤ x.reset + v.W)
    (hs : LoopIStep c x e y) (hn : ¬ CallsI .menu x e y) : UiTimeI v y y.T u := by
  have hT := hs.time
  refine ⟨by have := h.since; omega, fun L hL => (h.hold L hL).step (by decide) hdog hs hn, fun hr => ?_, fun hr => ?_⟩
  · obtain ⟨h1, h2⟩ := h.wait hr
    exact ⟨by omega, h2.step (by decide) hdog hs hn⟩
  · obtain ⟨h1, h2⟩ := h.going hr
    exact ⟨by omega, h2.step (by decide) hdog hs hn⟩

theorem UiTimeI.reach {x : LoopI} (h : UiTimeI v x x.T u) (hW : v.W ≤ 8191) {t : Nat} (h1 : x.T ≤ t)
    (h2 : t ≤ x.reset + v.W) : InReach u t := by
  refine ⟨Nat.le_trans h.since h1, fun L hL => ?_, fun hr => ?_, fun hr => ?_⟩
  · have := (h.hold L hL).le
    omega
  · obtain ⟨h1, h2⟩ := h.wait hr
    have := h2.le
    omega
  · obtain ⟨h1, h2⟩ := h.going hr
    have := h2.le
    omega

theorem KeepsIn.leave (u : Ui) {A B t t' : Nat} (hA : A ≤ t') (hB : t' ≤ B) : KeepsIn A B u (u.leaveAt t t') := by
  unfold Ui.leaveAt
  repeat' split
  · exact ⟨Or.inr ⟨hA, hB⟩, Or.inr (Or.inl rfl)⟩
  · exact ⟨Or.inl ⟨rfl, rfl⟩, Or.inl ⟨rfl, rfl⟩⟩
  · exact ⟨Or.inl ⟨rfl, rfl⟩, Or.inl ⟨rfl, rfl⟩⟩

/-- after a call of the menu's work function -/
theorem UiTimeI.work {x y : LoopI} {u' : Ui} {f : Bool × Bool} {boost : Nat} (h : UiTimeI v x x.T u) (hx : x.reset ≤ x.T)
    (hy : y.reset = x.reset) (hW : v.W ≤ 25) (hp : Ramping u.ramp = true → Period u.period)
    (hw : UiWork x.T y.T f boost u u') : UiTimeI v y y.T u' := by
  obtain ⟨t1, t2, t3, t4, o1, o2, o3, o4, o5, rfl⟩ := hw
  have hk : KeepsIn x.T y.T u ((u.leaveAt t1 t2).fail f) :=
    (KeepsIn.leave u (by omega) (by omega)).trans (.of (KeepsTimes.fail _ t2 f) (by omega) (by omega))
  have h0 : UiTimeI v x y.T u :=
    ⟨by have := h.since; omega, h.hold, fun hr => ⟨by have := (h.wait hr).1; omega, (h.wait hr).2⟩,
      fun hr => ⟨by have := (h.going hr).1; omega, (h.going hr).2⟩⟩
  have h2 := h0.keeps hx hk
  have hold : ∀ L, holdTime ((u.leaveAt t1 t2).fail f).screen = some L →
      ((u.leaveAt t1 t2).fail f).since = t2 ∨ t1 < ((u.leaveAt t1 t2).fail f).since + L := by
    intro L hL
    have e : ∀ w : Ui, (w.fail f).screen = w.screen ∧ (w.fail f).since = w.since := by
      intro w
      unfold Ui.fail
      split <;> exact ⟨rfl, rfl⟩
    rw [(e _).1] at hL
    rw [(e _).2]
    revert hL
    unfold Ui.leaveAt
    split
    · rename_i L' hL'
      split
      · exact fun _ => Or.inl rfl
      · intro hL
        rw [hL'] at hL
        cases hL
        right; omega
    · rename_i hL'
      intro hL
      rw [hL'] at hL
      cases hL
  have per : Ramping ((u.leaveAt t1 t2).fail f).ramp = true → Period ((u.leaveAt t1 t2).fail f).period := by
    intro hr
    have : ((u.leaveAt t1 t2).fail f).ramp = u.ramp ∧ ((u.leaveAt t1 t2).fail f).period = u.period := by
      revert hr
      unfold Ui.fail Ui.leaveAt
      repeat' split
      all_goals first
        | exact fun _ => ⟨rfl, rfl⟩
        | exact fun hr => by cases hr
    rw [this.1] at hr
    rw [this.2]
    exact hp hr
  generalize (u.leaveAt t1 t2).fail f = w at h2 hold per ⊢
  have hs := h2.since
  have holdB : ∀ L, holdTime w.screen = some L → BehindI v .menu y (w.since + L) := by
    intro L hL
    refine BehindI.of ?_
    rcases hold L hL with h | h <;> omega
  unfold Ui.advanceAt
  cases hr : w.ramp <;> simp only []
  case none =>
    refine ⟨hs, holdB, fun h => ?_, fun h => ?_⟩
    · rw [hr] at h; rcases h with h | h <;> cases h
    · rw [hr] at h; cases h
  case preUp =>
    split
    · refine ⟨hs, holdB, fun h => ?_, fun h => ⟨?_, BehindI.of ?_⟩⟩
      · rcases h with h | h <;> cases h
      · show t4 ≤ y.T + 400
        omega
      · show y.reset ≤ t4
        omega
    · obtain ⟨q1, q2⟩ := h2.wait (Or.inl hr)
      refine ⟨hs, holdB, fun _ => ⟨q1, BehindI.of (by omega)⟩, fun h => ?_⟩
      rw [hr] at h; cases h
  case preDown =>
    split
    · refine ⟨hs, holdB, fun h => ?_, fun h => ⟨?_, BehindI.of ?_⟩⟩
      · rcases h with h | h <;> cases h
      · show t4 ≤ y.T + 400
        omega
      · show y.reset ≤ t4
        omega
    · obtain ⟨q1, q2⟩ := h2.wait (Or.inr hr)
      refine ⟨hs, holdB, fun _ => ⟨q1, BehindI.of (by omega)⟩, fun h => ?_⟩
      rw [hr] at h; cases h
  all_goals
    have hR : Ramping w.ramp = true := by rw [hr]; rfl
    obtain ⟨q1, q2⟩ := h2.going hR
    obtain ⟨-, p2, p3⟩ := (per hR).half
    have q3 := q2.le
    have nw : ¬ (w.ramp = .preUp ∨ w.ramp = .preDown) := by rw [hr]; simp
    split
    · split
      · refine ⟨o5, fun L hL => BehindI.of ?_, fun h => (by rcases h with h | h <;> cases h), fun _ => ⟨?_, BehindI.of ?_⟩⟩
        · show y.reset ≤ t4 + L
          omega
        · show w.rampAt + w.period ≤ y.T + 400
          omega
        · show y.reset ≤ w.rampAt + w.period
          omega
      · refine ⟨hs, holdB, fun h => (by rcases h with h | h <;> cases h), fun _ => ⟨?_, BehindI.of ?_⟩⟩
        · show w.rampAt + w.period ≤ y.T + 400
          omega
        · show y.reset ≤ w.rampAt + w.period
          omega
    · exact ⟨hs, holdB, fun h => absurd h nw, fun _ => ⟨q1, BehindI.of (by omega)⟩⟩

/-! ### the main loop -/

/-- the main loop beside the user interface -/
structure UiInvI (v : Speed) (c : Conf) (x : LoopI) (u : Ui) : Prop where
  inv : LoopIInv v c x
  rel : UiRel x.s u
  pins : ∀ b, x.s.btn.prev.getLsbD (buttonPin b) = Down u.pins b
  time : UiTimeI v x x.T u

theorem UiInvI.boot {ee : Nat → Nat} {pinb : BitVec 8} {s : Sys} (hv : ValidEeprom c ee) (e : boot c ee pinb = some s) :
    UiInvI v c ⟨s, .reset, 0, 0, 0, 0, 0⟩ (uiStart s.set.cache (c.debug && Down pinb .set)) := by
  obtain ⟨d1, d2⟩ := C69_boot c ee pinb s hv e
  have hb : s.menu.ramp = .none ∧ s.menu.dispErr = 0 ∧ s.btn = { prev := 0, debounce := 0 } := by
    obtain ⟨-, st, -, b, t, hb, -, rfl⟩ := (boot_ok hv).elim e
    obtain ⟨t', w, em, -⟩ := hb.menu
    refine ⟨?_, ?_, hb.btn⟩
    · show b.menu.ramp = _; rw [em]
    · show b.menu.dispErr = _; rw [em]
  have hh : holdTime (uiStart s.set.cache (c.debug && Down pinb .set)).screen = none := by
    unfold uiStart
    simp only []
    split <;> rfl
  refine ⟨LoopIInv.boot hv e, ⟨⟨?_, hb.1, rfl, d1⟩, hb.2.1.trans (show 0 = errNo (false, false) by decide), fun L hL => ?_, fun hr => ?_, fun hr => ?_⟩, fun b => ?_,
    ⟨Nat.le_refl _, fun L hL => ?_, fun hr => ?_, fun hr => ?_⟩⟩
  · rw [d2, d1]; rfl
  · rw [hh] at hL; cases hL
  · rcases hr with hr | hr <;> cases hr
  · cases hr
  · show s.btn.prev.getLsbD _ = _
    rw [hb.2.2]
    show (0 : BitVec 8).getLsbD _ = Down 0xFF b
    cases b <;> decide
  · rw [hh] at hL; cases hL
  · rcases hr with hr | hr <;> cases hr
  · cases hr

theorem advanceAt_pins (u : Ui) (t t' boost : Nat) : (u.advanceAt t t' boost).pins = u.pins := by
  unfold Ui.advanceAt
  repeat' split
  all_goals rfl

theorem Spec.UiWork.pins {A B boost : Nat} {f : Bool × Bool} {u' : Ui} (h : UiWork A B f boost u u') : u'.pins = u.pins := by
  obtain ⟨t1, t2, t3, t4, -, -, -, -, -, rfl⟩ := h
  rw [advanceAt_pins]
  unfold Ui.fail Ui.leaveAt
  repeat' split
  all_goals rfl

theorem UiInvI.step {x y : LoopI} {e : Option Ev} (hv : v.SaneI) (hW : v.W ≤ 25) (h : UiInvI v c x u)
    (hs : LoopIStep c x e y) (ht : InTimeI v y) : ∃ u', UiMoves c x e y u u' ∧ UiInvI v c y u' := by
  have hi := h.inv.step hv hs ht
  have rest : ∀ (f : Ev), e = some f → f ≠ .menuWork → (∀ pinb, f ≠ .buttonsWork pinb) →
      (y.s.btn = x.s.btn ∧ y.s.debugEn = x.s.debugEn ∧ SameVals y.s.set.cache x.s.set.cache ∧
        ∃ w, y.s.menu = { x.s.menu with updReq := w }) → ∃ u', UiMoves c x e y u u' ∧ UiInvI v c y u' := by
    intro f hf n1 n2 ⟨k1, k2, k3, k4⟩
    subst hf
    refine ⟨u, .other (by simpa using n1) (by simpa using n2), hi, h.rel.kept k4 k3 k2, by rw [k1]; exact h.pins,
      h.time.step h.inv.dog hs ?_⟩
    rintro ⟨g, p, h1, h2⟩
    cases h1
    cases h2
    exact n1 rfl
  have none : e = none → y.s = x.s → ∃ u', UiMoves c x e y u u' ∧ UiInvI v c y u' := by
    intro he hy
    subst he
    refine ⟨u, .other (by simp) (by simp), hi, by rw [hy]; exact h.rel, by rw [hy]; exact h.pins,
      h.time.step h.inv.dog hs ?_⟩
    rintro ⟨g, p, h1, h2⟩
    cases h1
  have hs' := hs
  cases hs with
  | reset => exact none rfl rfl
  | pass => exact none rfl rfl
  | tick hD es =>
    cases es
    exact rest .tick rfl (by simp) (by simp) ⟨rfl, rfl, rfl, _, rfl⟩
  | @ee e s' he hp es =>
    have n1 : e ≠ .menuWork := by rcases he with rfl | rfl <;> simp
    have n2 : ∀ pinb, e ≠ .buttonsWork pinb := by rcases he with rfl | rfl <;> simp
    obtain ⟨q1, q2, q3⟩ := quiet_step h.inv.inv es n1 fun pinb hs => n2 pinb hs.1
    exact rest e rfl n1 n2 ⟨q1, q2, step_vals h.inv.inv es n2 n1, q3⟩
  | @adc raw hp => exact rest _ rfl (by simp) (by simp) ⟨rfl, rfl, rfl, _, rfl⟩
  | @call e g s' pinb hD hp hw =>
    have hdog : x.T + g.sum ≤ x.reset + v.W := ht.1
    have full : Full c x.T x.s u := Full.of h.inv.inv h.inv.now h.rel
    by_cases hm : e = .menuWork
    · subst hm
      obtain ⟨T', h1, h2, h3, u', h4, h5⟩ := full.work (M := x.T + g.sum)
        (fun t a b => h.time.reach (by omega) a (by omega)) g s' [] (Nat.le_refl _) hw
      have eT : T' = x.T + g.sum := by simpa using h2
      subst eT
      refine ⟨u', .work rfl h4, hi, h5, fun b => ?_, ?_⟩
      · show s'.btn.prev.getLsbD _ = _
        rw [h3, h.pins, h4.pins]
      · exact h.time.work (by have := h.inv.reset; omega) rfl hW (fun hr => (h.rel.going hr).2.2) h4
    · by_cases hb : ∃ pinb, e = .buttonsWork pinb
      · obtain ⟨pinb', rfl⟩ := hb
        obtain ⟨T', h1, h2, t, t1, t2, h3⟩ := full.sample h.pins pinb' g s' [] hw
        have eT : T' = x.T + g.sum := by simpa using h2
        subst eT
        have tm := h.time.step h.inv.dog hs' (by rintro ⟨g, p, h1, h2⟩; cases h1; cases h2)
        rcases h3 with ⟨k1, u', k2, k3, k4⟩ | ⟨k1, k2, k3⟩
        · obtain ⟨-, m1, m2⟩ := k2.times
          refine ⟨u', .sample rfl t1 k1 k2, hi, k3, fun b => by rw [m2]; exact k4 b, ?_⟩
          exact tm.keeps (A := t) (by show x.reset ≤ t; have := h.inv.reset; omega) m1
        · exact ⟨u, .early rfl t1 t2 k1, hi, k2, fun b => by show s'.btn.prev.getLsbD _ = _; rw [k3]; exact h.pins b, tm⟩
      · have n2 : ∀ pinb, e ≠ .buttonsWork pinb := fun p hh => hb ⟨p, hh⟩
        exact rest e rfl hm n2 (workT_rest h.inv.inv hw n2 hm)

/-- beside every execution runs the user interface -/
theorem ui_follow {v : Speed} {c : Conf} (hv : v.SaneI) (hW : v.W ≤ 25) (run : Nat → LoopI) (ev : Nat → Option Ev)
    (u : Ui) (h0 : UiInvI v c (run 0) u) : ∀ N, (∀ n < N, LoopIStep c (run n) (ev n) (run (n + 1)) ∧ InTimeI v (run (n + 1))) →
    ∃ ui : Nat → Ui, ui 0 = u ∧ (∀ n < N, UiMoves c (run n) (ev n) (run (n + 1)) (ui n) (ui (n + 1))) ∧
      ∀ n ≤ N, UiInvI v c (run n) (ui n)
  | 0, _ => ⟨fun _ => u, rfl, fun _ h => absurd h (Nat.not_lt_zero _), fun n h => by
      obtain rfl : n = 0 := by omega
      exact h0⟩
  | N + 1, h => by
    obtain ⟨ui, k0, k1, k2⟩ := ui_follow hv hW run ev u h0 N fun n hn => h n (by omega)
    obtain ⟨hs, ht⟩ := h N (Nat.lt_succ_self N)
    obtain ⟨u', m, i⟩ := (k2 N (Nat.le_refl _)).step hv hW hs ht
    refine ⟨fun n => if n ≤ N then ui n else u', ?_, fun n hn => ?_, fun n hn => ?_⟩
    · simp only []; rw [if_pos (Nat.zero_le _)]; exact k0
    · by_cases e : n = N
      · subst e
        simp only []
        rw [if_pos (Nat.le_refl _), if_neg (by omega)]
        exact m
      · simp only []
        rw [if_pos (by omega), if_pos (by omega)]
        exact k1 n (by omega)
    · by_cases e : n = N + 1
      · subst e
        simp only []
        rw [if_neg (by omega)]
        exact i
      · simp only []
        rw [if_pos (by omega)]
        exact k2 n (by omega)

end Verif
