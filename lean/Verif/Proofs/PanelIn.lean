import Verif.Proofs.UiInLoop
import Verif.Proofs.LoopInDemo
import Verif.Proofs.LoopMux
import Verif.Spec.PanelIn
/-
The samples of the buttons in the main loop with interrupts inside the work functions.
-/
namespace Verif
open Spec Props

variable {v : Speed} {c : Conf} {s : Sys} {u : Ui} {T : Nat}

/-- what a call of `buttons_work` does to the state of the buttons; it reads the time after the first ticks -/
theorem Full.sampleAt (h : Full c T s u) (pinb : BitVec 8) {g g' : List Nat} {s' : Sys}
    (hw : buttonsWorkT c s pinb g = some (s', g')) :
    (timerExpired (nowAt (T + g.headD 0)) s.btn.debounce = true ∧
      s'.btn = { prev := buttonsRaw pinb, debounce := toU16 (s.btn.debounce + 10) }) ∨
    (timerExpired (nowAt (T + g.headD 0)) s.btn.debounce = false ∧ s'.btn = s.btn) := by
  generalize ht : T + g.headD 0 = t
  have hn : toU16 (s.now + g.headD 0) = nowAt t := by
    rw [h.at_.now, ← ht]
    unfold nowAt toU16
    omega
  have hw : (do
      let (b, calls) ← liftM (buttonsSample (toU16 (s.now + g.headD 0)) s.btn pinb)
      calls.foldlM (callButtonHandlersT c) { s with now := toU16 (s.now + g.headD 0), btn := b } : TM Sys) g.tail = some (s', g') := hw
  rw [hn] at hw
  have hrng : 0 ≤ nowAt t ∧ nowAt t ≤ 65535 := by unfold nowAt; omega
  have h0 : ∀ b, Full c t { s with now := nowAt t, btn := b } u := fun b =>
    ⟨{ h.inv with now := hrng }, ⟨rfl, h.at_.menu, h.at_.debug⟩, h.vals⟩
  have key := fun Q hh => SimT.bindV (T := t) (Q := Q) (o := buttonsSample (nowAt t) s.btn pinb)
    (f := fun x => x.2.foldlM (callButtonHandlersT c) { s with now := nowAt t, btn := x.1 }) hh _ _ _ hw
  refine (key (fun _ s1 => (timerExpired (nowAt t) s.btn.debounce = true ∧
      s1.btn = { prev := buttonsRaw pinb, debounce := toU16 (s.btn.debounce + 10) }) ∨
    (timerExpired (nowAt t) s.btn.debounce = false ∧ s1.btn = s.btn)) fun ⟨b, calls⟩ eb => ?_).elim fun _ hh => hh.2.2
  have eb : buttonsSample (nowAt t) s.btn pinb = some (b, calls) := eb
  unfold buttonsSample at eb
  rw [timerAdd_eq _ (by decide) (by decide)] at eb
  cases hx : timerExpired (nowAt t) s.btn.debounce
  · rw [hx] at eb
    simp only [Bool.not_false, if_true] at eb
    cases eb
    exact SimT.pure (Or.inr ⟨rfl, rfl⟩)
  · rw [hx] at eb
    simp only [Bool.not_true, Bool.false_eq_true, if_false, Option.bind_eq_bind, Option.bind_some] at eb
    cases eb
    simp only []
    rw [buttonCalls_split, panelCalls_blocks, List.foldlM_append, List.foldlM_append]
    refine SimT.bind (P := fun T' s' => s'.now = nowAt T' ∧
      s'.btn = { prev := buttonsRaw pinb, debounce := toU16 (s.btn.debounce + 10) }) ?_ fun T3 s3 _ ⟨e3, hb⟩ => ?_
    · refine SimT.bind ((h0 _).block (b := .set) (by decide) _ _) fun T1 s1 _ ⟨e1, u1, k1, f1⟩ => ?_
      rw [List.foldlM_append]
      refine SimT.bind (f1.block (b := .minus) (by decide) _ _) fun T2 s2 _ ⟨e2, u2, k2, f2⟩ => ?_
      refine (f2.block (b := .plus) (by decide) _ _).mono fun T3 s3 _ ⟨e3, u3, k3, f3⟩ => ⟨f3.at_.now, ?_⟩
      rw [e3, e2, e1]
      rfl
    · refine (At.irons (a := s3) _ ?_ (At.refl e3) rfl).mono fun T' s' h4 ⟨ha, hs⟩ => Or.inl ⟨trivial, ha.btn.trans hb⟩
      intro x hx
      obtain ⟨e, -, rfl⟩ := List.mem_map.mp hx
      rfl

/-- the buttons that were down in the last sample -/
def lastRaw : List (Nat × BitVec 8) → BitVec 8
  | [] => 0
  | a :: _ => buttonsRaw a.2

/-- the main loop beside the samples -/
structure SampIInv (v : Speed) (c : Conf) (x : LoopI) (l : List (Nat × BitVec 8)) : Prop where
  ui : ∃ u, UiInvI v c x u
  due : x.s.btn.debounce = nowAt (10 * l.length)
  behind : BehindI v .buttons x (10 * l.length)
  early : 10 * l.length ≤ x.T + 10
  times : ∀ k t p, l.reverse[k]? = some (t, p) → 10 * k ≤ t ∧ t ≤ 10 * k + 2 * v.W
  prev : x.s.btn.prev = lastRaw l

theorem UiInvI.same {x y : LoopI} {e : Option Ev} (hW : v.W ≤ 25) (h : UiInvI v c x u)
    (hs : LoopIStep c x e y) (ht : InTimeI v y) (hb : ∀ pinb, e ≠ some (.buttonsWork pinb)) : y.s.btn = x.s.btn := by
  cases hs with
  | reset => rfl
  | pass => rfl
  | tick hD es => cases es; rfl
  | @ee e s' he hp es =>
    have n1 : e ≠ .menuWork := by rcases he with rfl | rfl <;> simp
    have n2 : ∀ pinb, e ≠ .buttonsWork pinb := by rcases he with rfl | rfl <;> simp
    exact (quiet_step h.inv.inv es n1 fun pinb hs => n2 pinb hs.1).1
  | @adc raw hp => rfl
  | @call e g s' pinb hD hp hw =>
    have hdog : x.T + g.sum ≤ x.reset + v.W := ht.1
    have full : Full c x.T x.s u := Full.of h.inv.inv h.inv.now h.rel
    by_cases hm : e = .menuWork
    · subst hm
      obtain ⟨T', h1, h2, h3, -⟩ := full.work (M := x.T + g.sum)
        (fun t a b => h.time.reach (by omega) a (by omega)) g s' [] (Nat.le_refl _) hw
      exact h3
    · exact (workT_rest h.inv.inv hw (fun p hh => hb p (by rw [hh])) hm).1

theorem nowAt_add (B n : Nat) : toU16 (nowAt B + n) = nowAt (B + n) := by
  unfold nowAt toU16
  omega

theorem expired_due {t B : Nat} (h : t < B + 32768) (h' : B ≤ t + 32768) : timerExpired (nowAt t) (nowAt B) = true ↔ B ≤ t := by
  unfold timerExpired timerCountSince nowAt toU16 toS16
  simp only [decide_eq_true_eq]
  omega

theorem Spec.LoopISamples.inv {x : LoopI} {l : List (Nat × BitVec 8)} (hv : v.SaneI) (hW : v.W ≤ 10)
    (h : LoopISamples v c x l) : SampIInv v c x l := by
  induction h with
  | @boot ee pinb s he hb =>
    have hbtn : s.btn = ({ prev := 0, debounce := 0 } : Buttons) := by
      obtain ⟨-, st, -, b, t, h1, -, rfl⟩ := (boot_ok he).elim hb
      exact h1.btn
    refine ⟨⟨_, UiInvI.boot he hb⟩, ?_, BehindI.of (Nat.zero_le _), by simp, fun k t p hk => by simp at hk, ?_⟩
    · exact congrArg Buttons.debounce hbtn
    · exact congrArg Buttons.prev hbtn
  | @sample x y l g pinb _ hs ht hw hT hne ih =>
    obtain ⟨u, hu⟩ := ih.ui
    obtain ⟨u', -, hu'⟩ := hu.step hv (by omega) hs ht
    have full : Full c x.T x.s u := Full.of hu.inv.inv hu.inv.now hu.rel
    have hpc : x.pc = .buttons ∧ y.reset = x.reset := by
      cases hs with
      | ee he => rcases he with he | he <;> cases he
      | call _ hp _ => exact ⟨by generalize x.pc = q at hp; cases q <;> cases hp; rfl, rfl⟩
    have hr : x.reset ≤ 10 * l.length + v.W := ih.behind.le
    have hg := head_le_sum g
    have hy : y.T ≤ y.reset + v.W := ht.1
    have he := ih.early
    rcases full.sampleAt pinb hw with ⟨k1, k2⟩ | ⟨-, k2⟩
    · rw [ih.due, expired_due (by omega) (by omega)] at k1
      refine ⟨⟨u', hu'⟩, ?_, ?_, ?_, fun k t p hk => ?_, congrArg Buttons.prev k2⟩
      · rw [k2]
        show toU16 (x.s.btn.debounce + 10) = _
        rw [ih.due]
        exact nowAt_add _ 10
      · refine BehindI.of ?_
        rw [List.length_cons]
        omega
      · rw [List.length_cons]
        omega
      · rcases reverse_cons_get hk with hk | ⟨ek, hk⟩
        · exact ih.times k t p hk
        · cases hk
          omega
    · exact absurd (congrArg Buttons.debounce k2) hne
  | @other x e y l _ hs ht heq ih =>
    obtain ⟨u, hu⟩ := ih.ui
    obtain ⟨u', -, hu'⟩ := hu.step hv (by omega) hs ht
    have hT := hs.time
    have he := ih.early
    by_cases hb : ∃ pinb, e = some (.buttonsWork pinb)
    · obtain ⟨pinb, rfl⟩ := hb
      cases hs with
      | ee he => rcases he with he | he <;> cases he
      | @call _ g s' pinb' hD hp hw =>
        have full : Full c x.T x.s u := Full.of hu.inv.inv hu.inv.now hu.rel
        have hg := head_le_sum g
        have hr : x.reset ≤ 10 * l.length + v.W := ih.behind.le
        have hy : x.T + g.sum ≤ x.reset + v.W := ht.1
        have hres := hu.inv.reset
        rcases full.sampleAt pinb hw with ⟨-, k2⟩ | ⟨k1, k2⟩
        · have k3 : toU16 (x.s.btn.debounce + 10) = x.s.btn.debounce := (congrArg Buttons.debounce k2).symm.trans heq
          rw [ih.due] at k3
          unfold toU16 nowAt at k3
          omega
        · have k1 : ¬ timerExpired (nowAt (x.T + g.headD 0)) x.s.btn.debounce = true := by rw [k1]; decide
          rw [ih.due, expired_due (by omega) (by omega)] at k1
          exact ⟨⟨u', hu'⟩, heq.trans ih.due, BehindI.of (by show x.reset ≤ _; omega), by omega, ih.times,
            by show s'.btn.prev = _; rw [k2]; exact ih.prev⟩
    · have hb : ∀ pinb, e ≠ some (.buttonsWork pinb) := fun p hh => hb ⟨p, hh⟩
      refine ⟨⟨u', hu'⟩, heq.trans ih.due, ih.behind.step (by decide) hu.inv.dog hs ?_, by omega, ih.times, ?_⟩
      · rintro ⟨f, p, rfl, h2⟩
        cases h2
        exact hb _ rfl
      · rw [hu.same (by omega) hs ht hb]
        exact ih.prev

/-! ### concrete runs -/

def sampCmdI (v : Speed) (c : Conf) (x : LoopI × List (Nat × BitVec 8)) (a : CmdI) :
    Option (LoopI × List (Nat × BitVec 8)) :=
  (loopCmdI v c NeverI x.1 a).bind fun y =>
    match a with
    | .call (.buttonsWork pinb) g =>
      if y.s.btn.debounce = x.1.s.btn.debounce then some (y, x.2) else some (y, (x.1.T + g.headD 0, pinb) :: x.2)
    | _ => if y.s.btn.debounce = x.1.s.btn.debounce then some (y, x.2) else none

def sampCmdsI (v : Speed) (c : Conf) (pinb : BitVec 8) (l : List CmdI) : Option (LoopI × List (Nat × BitVec 8)) :=
  (loopBootI c pinb).bind fun x => l.foldlM (sampCmdI v c) (x, [])

theorem sampCmdI_samples {x y : LoopI × List (Nat × BitVec 8)} {a : CmdI} (hx : LoopISamples v c x.1 x.2)
    (h : sampCmdI v c x a = some y) : LoopISamples v c y.1 y.2 := by
  unfold sampCmdI at h
  obtain ⟨z, hz, h⟩ := Option.bind_eq_some_iff.mp h
  obtain ⟨e, k1, k2, -⟩ := loopCmdI_stretch hz
  split at h
  · rename_i pinb g
    split at h
    · cases h; exact hx.other k1 k2 ‹_›
    · cases h
      obtain ⟨q1, q2, q3⟩ := loopCmdI_call hz
      refine hx.sample q1 q2 ?_ q3 ‹_›
      unfold loopCmdI at hz
      simp only [] at hz
      split at hz
      · rename_i s' es
        split at hz
        · cases hz; exact es
        · cases hz
      · cases hz
  · split at h
    · cases h; exact hx.other k1 k2 ‹_›
    · cases h

theorem sampCmdsI_samples {pinb : BitVec 8} {l : List CmdI} {y : LoopI × List (Nat × BitVec 8)}
    (hv : ValidEeprom c (shippedEeprom c)) (h : sampCmdsI v c pinb l = some y) : LoopISamples v c y.1 y.2 := by
  obtain ⟨x, hx, h⟩ := Option.bind_eq_some_iff.mp h
  have h0 : LoopISamples v c x [] := by
    obtain ⟨s, h1, rfl⟩ := Option.map_eq_some_iff.mp hx
    exact .boot hv h1
  have key : ∀ (l : List CmdI) {x y : LoopI × List (Nat × BitVec 8)}, LoopISamples v c x.1 x.2 →
      l.foldlM (sampCmdI v c) x = some y → LoopISamples v c y.1 y.2 := by
    intro l
    induction l with
    | nil => intro x y h e; cases e; exact h
    | cons a l ih =>
      intro x y h e
      rw [List.foldlM_cons] at e
      obtain ⟨z, e1, e2⟩ := Option.bind_eq_some_iff.mp e
      exact ih (sampCmdI_samples h e1) e2
  exact key l (x := (x, [])) h0 h

end Verif
