import Verif.Spec.Panel
import Verif.Proofs.Iron
import Verif.Proofs.Demo
import Verif.Props.Timer
/-
C50: the events of the buttons.
-/
namespace Verif.Props
open Spec

private theorem pressCalls_eventsOf (was down : Bool) : pressCalls was down = eventsOf was down := by
  cases was <;> cases down <;> rfl

private theorem down_pin (pinb : BitVec 8) (b : Button) : (!pinb.getLsbD (buttonPin b)) = Down pinb b := by
  cases b <;> rfl

/-- a sample in terms of the module's state -/
private theorem sample_eq {c : Conf} {s : Sys} {pinb : BitVec 8} (hx : timerExpired s.now s.btn.debounce = true) :
    step c s (.buttonsWork pinb) =
      ([Button.set, .minus, .plus, .iron].flatMap fun b =>
        (eventsOf (s.btn.prev.getLsbD (buttonPin b)) (Down pinb b)).map fun e => (b, e)).foldlM
        (fun s x => (contrtempButton c s x.1 x.2).bind fun s => menuButton c s x.1 x.2)
        { s with btn := { prev := buttonsRaw pinb, debounce := toU16 (s.btn.debounce + 10) } } := by
  show buttonsWork c s pinb = _
  unfold buttonsWork buttonsSample
  rw [hx, timerAdd_eq _ (by decide) (by decide)]
  simp only [Bool.not_true, Bool.false_eq_true, if_false, Option.bind_eq_bind, Option.bind_some, pure]
  rw [buttonCalls_eq]
  simp only [pressCalls_eventsOf, down_pin]
  rfl

private theorem sample_btn {c : Conf} {s s' : Sys} {pinb : BitVec 8}
    (hx : timerExpired s.now s.btn.debounce = true) (e : buttonsWork c s pinb = some s') :
    s'.btn = { prev := buttonsRaw pinb, debounce := toU16 (s.btn.debounce + 10) } := by
  unfold buttonsWork at e
  obtain ⟨⟨b, calls⟩, eb, e⟩ := Option.bind_eq_some_iff.mp e
  unfold buttonsSample at eb
  rw [hx] at eb
  simp only [Bool.not_true, Bool.false_eq_true, if_false] at eb
  obtain ⟨t, et, eb⟩ := Option.bind_eq_some_iff.mp eb
  rw [timerAdd_eq _ (by decide) (by decide)] at et
  cases et
  cases eb
  simp only [buttonCalls_split, List.foldlM_append] at e
  obtain ⟨s1, e1, e⟩ := Option.bind_eq_some_iff.mp e
  have hh := Hand.panel s.btn.prev pinb _ e1
  rw [List.foldlM_map] at e
  have : (fun (s : Sys) (e : BState) => callButtonHandlers c s (Button.iron, e)) =
      fun s e => contrtempButton c s .iron e := by
    funext s e
    unfold callButtonHandlers menuButton
    simp
  rw [this] at e
  rw [(irons_kept _ e).btn, hh.btn]
  rfl

private theorem pin_inv {c : Conf} {s : Sys} {T : Nat} {l : List (Nat × BitVec 8)} (h : PinHist c s T l) :
    Running c s ∧ s.now = nowAt T ∧ s.btn.debounce = nowAt (10 * l.length) ∧ 10 * l.length ≤ T + 10 ∧
    (∀ b, s.btn.prev.getLsbD (buttonPin b) = WasDown l b) ∧
    (∀ i t p, l[i]? = some (t, p) → 10 * (l.length - 1 - i) ≤ t ∧ t ≤ T) := by
  induction h with
  | boot hv e =>
    obtain ⟨-, st, -, b, t, hb, -, rfl⟩ := (boot_ok hv).elim e
    refine ⟨Running.boot hv e, hb.now, ?_, by simp, ?_, by simp⟩
    · show b.btn.debounce = _
      rw [hb.btn]
      rfl
    · intro b'
      show b.btn.prev.getLsbD _ = _
      rw [hb.btn]
      cases b' <;> rfl
  | @tick s s' T l _ hs ih =>
    obtain ⟨i1, i2, i3, i4, i5, i6⟩ := ih
    refine ⟨i1.step (e := .tick) rfl hs, ?_, ?_, by omega, ?_, fun i t p hi => ?_⟩
    · cases hs
      show timerTick s.now = _
      rw [i2]
      unfold timerTick nowAt toU16
      omega
    · cases hs; exact i3
    · cases hs; exact i5
    · have := i6 i t p hi
      omega
  | @sample s s' T l pinb _ hx hs ih =>
    obtain ⟨i1, i2, i3, i4, i5, i6⟩ := ih
    have hb := sample_btn hx.2 hs
    have hT : 10 * l.length ≤ T := by
      have he := hx.2
      rw [i2, i3] at he
      revert he
      unfold timerExpired timerCountSince toU16 toS16 nowAt
      simp only [ge_iff_le, decide_eq_true_eq]
      omega
    refine ⟨i1.step (e := .buttonsWork pinb) rfl hs,
      (step_now (Running.inv i1) hs (by intro h; cases h)).trans i2, ?_, ?_, ?_, fun i t p hi => ?_⟩
    · rw [hb]
      show toU16 (s.btn.debounce + 10) = _
      rw [i3, List.length_cons]
      unfold nowAt toU16
      omega
    · rw [List.length_cons]; omega
    · intro b
      rw [hb]
      show (buttonsRaw pinb).getLsbD _ = _
      rw [buttonsRaw_bit, down_pin]
      rfl
    · cases i with
      | zero =>
        cases hi
        rw [List.length_cons]
        omega
      | succ i =>
        have := i6 i t p hi
        rw [List.length_cons]
        omega
  | @other s e s' T l _ hp hs hn hx ih =>
    obtain ⟨i1, i2, i3, i4, i5, i6⟩ := ih
    have hi := Running.inv i1
    have hb : s'.btn = s.btn := by
      cases e with
      | tick => exact absurd rfl hn
      | adc x => cases hs; rfl
      | eeIsr => obtain ⟨_, -, hs⟩ := Option.bind_eq_some_iff.mp hs; cases hs; rfl
      | eeDone => cases hs; rfl
      | measureWork =>
        rcases measureWork_eff hi hs with ⟨-, rfl⟩ | ⟨hav, p', pl, hm⟩
        · rfl
        · exact hm.btn
      | menuWork => exact (Hand.menuWork hi s' hs).btn
      | displayWork => obtain ⟨_, -, hs⟩ := Option.bind_eq_some_iff.mp hs; cases hs; rfl
      | buttonsWork pinb =>
        have : timerExpired s.now s.btn.debounce = false := by
          cases h : timerExpired s.now s.btn.debounce
          · rfl
          · exact absurd ⟨rfl, h⟩ (hx pinb)
        rw [buttonsWork_early this hs]
      | settingsWork => cases hs; rfl
    exact ⟨i1.step hp hs, (step_now hi hs hn).trans i2, by rw [hb, i3], i4, by rw [hb]; exact i5, i6⟩

/-- For every history of samples: the next sample calls both handlers, for each button in turn, with an
    edge exactly if the button changed since the sample before (the buttons count as up at boot) and
    with `pressed` exactly if the button is down, after the edge. -/
theorem C50_sample (c : Conf) (s : Sys) (T : Nat) (l : List (Nat × BitVec 8)) (pinb : BitVec 8)
    (h : PinHist c s T l) (hx : Samples s (.buttonsWork pinb) pinb) :
    ∃ btn, step c s (.buttonsWork pinb) =
      ([Button.set, .minus, .plus, .iron].flatMap fun b =>
        (eventsOf (WasDown l b) (Down pinb b)).map fun e => (b, e)).foldlM
        (fun s x => (contrtempButton c s x.1 x.2).bind fun s => menuButton c s x.1 x.2)
        { s with btn := btn } := by
  obtain ⟨-, -, -, -, i5, -⟩ := pin_inv h
  refine ⟨{ prev := buttonsRaw pinb, debounce := toU16 (s.btn.debounce + 10) }, ?_⟩
  rw [sample_eq hx.2]
  simp only [i5]

/-- Without a sample no handler is called. -/
theorem C50_no_sample (c : Conf) (s : Sys) (pinb : BitVec 8) (hx : ¬ Samples s (.buttonsWork pinb) pinb) :
    step c s (.buttonsWork pinb) = some s := by
  have : timerExpired s.now s.btn.debounce = false := by
    cases h : timerExpired s.now s.btn.debounce
    · rfl
    · exact absurd ⟨rfl, h⟩ hx
  show buttonsWork c s pinb = _
  unfold buttonsWork buttonsSample
  rw [this]
  rfl

/-- The events of every button over all samples are well formed: press and release edges alternate,
    beginning with a press, and `pressed` comes only between a press and its release.  A sample
    contains `pressed` exactly if the button is down. -/
theorem C50_events (b : Button) (ps : List (BitVec 8)) :
    WellFormed false (eventStream b false ps) ∧
    ∀ was down, BState.pressed ∈ eventsOf was down ↔ down = true := by
  refine ⟨?_, by decide⟩
  have : ∀ was, WellFormed was (eventStream b was ps) := by
    induction ps with
    | nil => intro was; cases was <;> trivial
    | cons p ps ih =>
      intro was
      have := ih (Down p b)
      unfold eventStream
      generalize Down p b = d at *
      cases was <;> cases d <;> exact this
  exact this false

/-- A sample is due exactly from 10 ms after the due time of the sample before; the first one at once
    (unless the main loop is 32.8 s late, when the 16-bit time wraps). -/
theorem C50_due (c : Conf) (s : Sys) (T : Nat) (l : List (Nat × BitVec 8)) (pinb : BitVec 8)
    (h : PinHist c s T l) (hT : T < 10 * l.length + 32768) :
    Samples s (.buttonsWork pinb) pinb ↔ 10 * l.length ≤ T := by
  obtain ⟨-, i2, i3, i4, -⟩ := pin_inv h
  constructor
  · rintro ⟨-, he⟩
    rw [i2, i3] at he
    revert he
    unfold timerExpired timerCountSince toU16 toS16 nowAt
    simp only [ge_iff_le, decide_eq_true_eq]
    omega
  · intro hh
    refine ⟨rfl, ?_⟩
    rw [i2, i3]
    unfold timerExpired timerCountSince toU16 toS16 nowAt
    simp only [ge_iff_le, decide_eq_true_eq]
    omega

/-- The full claim about the rate: consecutive samples are at least 10 ms apart. -/
def C50_Full : Prop :=
  ∀ (c : Conf) (s : Sys) (T t1 t2 : Nat) (p1 p2 : BitVec 8) (l : List (Nat × BitVec 8)),
    PinHist c s T ((t1, p1) :: (t2, p2) :: l) → t2 + 10 ≤ t1

/-- At most one sample per 10 ms since boot: the sample number `k` (from 0) is not taken before `10 k` ms.  So
    a sample is at least 10 ms after the one before it, less the time by which that one was late.
    Missing for the full claim: after a late sample the next one may follow earlier (`C50_false`). -/
theorem C50_spacing_partial (c : Conf) (s : Sys) (T : Nat) (l : List (Nat × BitVec 8)) (h : PinHist c s T l) :
    (∀ k t p, l.reverse[k]? = some (t, p) → 10 * k ≤ t) ∧
    ∀ t1 p1 t2 p2 l', l = (t1, p1) :: (t2, p2) :: l' → t2 + 10 ≤ t1 + (t2 - 10 * l'.length) := by
  obtain ⟨-, -, -, -, -, i6⟩ := pin_inv h
  constructor
  · intro k t p hk
    have hlt : k < l.length := by
      have := (List.getElem?_eq_some_iff.mp hk).1
      simpa using this
    rw [List.getElem?_reverse hlt] at hk
    have := i6 _ _ _ hk
    omega
  · rintro t1 p1 t2 p2 l' rfl
    have h1 := i6 0 t1 p1 rfl
    have h2 := i6 1 t2 p2 rfl
    simp only [List.length_cons] at h1 h2
    omega

/-- a run with its samples -/
private def withHist (c : Conf) : Sys × Nat × List (Nat × BitVec 8) → List Ev →
    Option (Sys × Nat × List (Nat × BitVec 8))
  | x, [] => some x
  | (s, T, l), e :: es =>
    if possible s e then
      (step c s e).bind fun s' =>
        match e with
        | .tick => withHist c (s', T + 1, l) es
        | .buttonsWork p => withHist c (s', T, if timerExpired s.now s.btn.debounce then (T, p) :: l else l) es
        | _ => withHist c (s', T, l) es
    else none

private theorem withHist_ok {c : Conf} {es : List Ev} {s s' : Sys} {T T' : Nat} {l l' : List (Nat × BitVec 8)}
    (h : PinHist c s T l) (e : withHist c (s, T, l) es = some (s', T', l')) : PinHist c s' T' l' := by
  induction es generalizing s T l with
  | nil => cases e; exact h
  | cons x xs ih =>
    unfold withHist at e
    split at e
    · rename_i hp
      obtain ⟨t, e1, e2⟩ := Option.bind_eq_some_iff.mp e
      cases x with
      | tick => exact ih (h.tick e1) e2
      | buttonsWork p =>
        simp only [] at e2
        split at e2
        · rename_i hx
          exact ih (h.sample ⟨rfl, hx⟩ e1) e2
        · rename_i hx
          exact ih (h.other hp e1 (by intro h; cases h) fun p' hh => hx hh.2) e2
      | _ => exact ih (h.other hp e1 (by intro h; cases h) fun p' hh => by cases hh.1) e2
    · cases e

private theorem demoHist_any {c : Conf} {pinb : BitVec 8} {es : List Ev}
    {P : Sys × Nat × List (Nat × BitVec 8) → Bool} (hv : ValidEeprom c (shippedEeprom c))
    (h : ((boot c (shippedEeprom c) pinb).bind fun s => withHist c (s, 0, []) es).any P = true) :
    ∃ s T l, PinHist c s T l ∧ P (s, T, l) = true := by
  match e : boot c (shippedEeprom c) pinb with
  | none => rw [e] at h; cases h
  | some b =>
    rw [e, Option.bind_some] at h
    match e' : withHist c (b, 0, []) es with
    | none => rw [e'] at h; cases h
    | some (s, T, l) => rw [e'] at h; exact ⟨s, T, l, withHist_ok (PinHist.boot hv e) e', h⟩

set_option maxRecDepth 100000 in
/-- The full claim does not hold: when the main loop comes round after 25 ms, three samples follow each
    other at once (buttons.c:101-103: the deadline advances by 10 ms from the missed one). -/
theorem C50_false : ¬ C50_Full := by
  intro hf
  obtain ⟨s, T, l, h, hP⟩ := demoHist_any (c := .m88p) (pinb := 0xFF)
    (es := ticks 25 ++ [.buttonsWork 0xFB, .buttonsWork 0xFF]) (P := fun x => decide (x.2.2 = [(25, 0xFF), (25, 0xFB)]))
    validEeprom_m88p (by decide)
  obtain rfl := of_decide_eq_true hP
  have := hf _ _ _ _ _ _ _ _ h
  omega

set_option maxRecDepth 100000 in
/-- the hypotheses are met by the third sample of this run, which sees the release of SET: its events are
    one release edge, which opens the next menu screen -/
example : ∃ s s' l, PinHist .m88p s 20 l ∧ l = [(12, 0xFB), (0, 0xFF)] ∧ Samples s (.buttonsWork 0xFF) 0xFF ∧
    20 < 10 * l.length + 32768 ∧ step .m88p s (.buttonsWork 0xFF) = some s' ∧ s'.menu.state ≠ s.menu.state ∧
    eventsOf (WasDown l .set) (Down 0xFF .set) = [.negedge] ∧
    eventStream .set false [0xFF, 0xFB, 0xFF] = [.posedge, .pressed, .negedge] := by
  obtain ⟨s, T, l, h, hP⟩ := demoHist_any (c := .m88p) (pinb := 0xFF)
    (es := [.buttonsWork 0xFF] ++ ticks 5 ++ [.buttonsWork 0xFB] ++ ticks 7 ++ [.buttonsWork 0xFB] ++ ticks 8)
    (P := fun x => decide (x.2.1 = 20) && decide (x.2.2 = [(12, 0xFB), (0, 0xFF)]) &&
      timerExpired x.1.now x.1.btn.debounce &&
      (step .m88p x.1 (.buttonsWork 0xFF)).any fun s' => decide (s'.menu.state ≠ x.1.menu.state))
    validEeprom_m88p (by decide)
  simp only [Bool.and_eq_true, decide_eq_true_eq] at hP
  obtain ⟨⟨⟨p1, p2⟩, p3⟩, p4⟩ := hP
  subst p1
  subst p2
  match e : step .m88p s (.buttonsWork 0xFF) with
  | none => rw [e] at p4; cases p4
  | some s' =>
    rw [e] at p4
    simp only [Option.any_some, decide_eq_true_eq] at p4
    exact ⟨s, s', _, h, rfl, ⟨rfl, p3⟩, by decide, e, p4, rfl, rfl⟩

end Verif.Props
