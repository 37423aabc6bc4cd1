import Verif.Proofs.UiInButton
/-
A sample of the buttons with ticks inside, beside the user interface.
-/
namespace Verif
open Spec Props

variable {c : Conf} {s : Sys} {u : Ui} {T : Nat}

theorem timeSet_self (s : Sys) : timeSet (timesOf s) s = s := by
  have h := timeSet_back s (timesOf s)
  have e : timeSet (timesOf s) (timeSet (timesOf s) s) = timeSet (timesOf s) s := rfl
  rw [← e]
  exact h

/-- the computation with ticks gives the result of the other one but for the times -/
def Both (m : TM Sys) (o : Option Sys) : Prop :=
  ∀ g s' g', m g = some (s', g') → ∃ τ : Times, o = some (timeSet τ s') ∧
    (0 ≤ τ.now ∧ τ.now ≤ 65535 → 0 ≤ s'.now ∧ s'.now ≤ 65535)

theorem Both.of {f : Sys → Option Sys} {m : TM Sys} (hn : 0 ≤ s.now ∧ s.now ≤ 65535)
    (h : ∀ g τ, Close g.sum (AtQ s.now) AnyB g s τ → Sim g.sum (AtQ s.now) AnyB m (f (timeSet τ s)) g) : Both m (f s) := by
  intro g s' g' e
  have cl : Close g.sum (AtQ s.now) AnyB g s (timesOf s) :=
    ⟨⟨0, by show (s.now - s.now - (0 : Nat)) % 65536 = 0; omega, by omega⟩, fun _ => hn, apart_refl _ _, apart_refl _ _, apart_refl _ _,
      apart_refl _ _, apart_refl _ _, apart_refl _ _, apart_refl _ _, apart_refl _ _, apart_refl _ _, apart_refl _ _,
      apart_refl _ _, apart_refl _ _, rfl, trivial⟩
  rcases h g _ cl with ⟨h1, -⟩ | ⟨a', g1, τ, h1, h2, h3⟩
  · rw [e] at h1; cases h1
  · rw [e] at h1
    cases h1
    rw [timeSet_self] at h2
    exact ⟨τ, h2, h3.rng⟩

theorem inv_back {τ : Times} (h : Inv c (timeSet τ s)) (hn : 0 ≤ τ.now ∧ τ.now ≤ 65535 → 0 ≤ s.now ∧ s.now ≤ 65535) :
    Inv c s := by
  have := inv_times h (timesOf s) (hn h.now)
  rw [timeSet_back] at this
  exact this

/-- what is known of the result without ticks, of the result with ticks -/
theorem SimT.both {m : TM Sys} {o : Option Sys} {P : Nat → Sys → Prop} {Q : Sys → Prop} (h : SimT m T P) (hb : Both m o)
    (ho : ∀ s', o = some s' → Inv c s' ∧ Q s') :
    SimT m T fun T' s' => P T' s' ∧ Inv c s' ∧ ∃ τ, Q (timeSet τ s') := by
  intro g s' g' e
  obtain ⟨T', h1, h2, h3⟩ := h g s' g' e
  obtain ⟨τ, k1, k2⟩ := hb g s' g' e
  obtain ⟨i, q⟩ := ho _ k1
  exact ⟨T', h1, h2, h3, inv_back i k2, τ, q⟩

/-- the firmware at the time `T` is where the user interface is, but for the pins -/
structure Full (c : Conf) (T : Nat) (s : Sys) (u : Ui) : Prop where
  inv : Inv c s
  at_ : Beside T s u
  vals : SameVals s.set.cache u.vals

theorem Full.rel (h : Full c T s u) : UiRel s u :=
  ⟨⟨h.at_.menu.screen, h.at_.menu.ramp, h.vals, h.at_.debug⟩, h.at_.menu.err, h.at_.menu.hold, h.at_.menu.wait, h.at_.menu.going⟩

theorem Full.of (hi : Inv c s) (hn : s.now = nowAt T) (h : UiRel s u) : Full c T s u :=
  ⟨hi, ⟨hn, ⟨h.agrees.screen, h.agrees.ramp, h.err, h.hold, h.wait, h.going⟩, h.agrees.debug⟩, h.agrees.vals⟩

theorem Full.panel (h : Full c T s u) : PanelRel s.panel u := panelRel_iff.mp h.rel.agrees

theorem Full.debug (h : Full c T s u) (hd : u.screen = .debug) : c.debug = true := by
  have := h.inv.menu.screen
  rw [h.at_.menu.screen, hd] at this
  exact this

theorem button_both (hi : Inv c s) (b : Button) (e : BState) : Both (menuButtonT c s b e) (menuButton c s b e) :=
  Both.of (f := fun s => menuButton c s b e) hi.now fun _ _ h => menuButton_in h b e

theorem button_inst (hi : Inv c s) {b : Button} (hb : b ≠ .iron) (e : BState) (s' : Sys)
    (es : menuButton c s b e = some s') : Inv c s' ∧ s'.panel = s.panel.call c s.now b e :=
  ⟨(hi.menuButton b e).elim es, (menuButton_panel hi hb e s' es).2⟩

theorem Full.posedge (h : Full c T s u) {b : Button} (hb : b ≠ .iron) :
    SimT (menuButtonT c s b .posedge) T fun T' s' => s'.btn = s.btn ∧ ∃ t t', T ≤ t ∧ t ≤ t' ∧ t' ≤ T' ∧
      Full c T' s' ((u.touch t).press t' b) := by
  refine ((h.at_.posedge h.inv hb).both (button_both h.inv b _) (button_inst h.inv hb _)).mono
    fun T' s' _ ⟨⟨e, t, t', h1, h2, h3, h4⟩, i, τ, q⟩ => ⟨e, t, t', h1, h2, h3, i, h4, ?_⟩
  have p := (h.panel.touch t).press (c := c) (T := t') (by rw [(touch_same u t).1]; exact h.debug) s.now hb
  rw [show s.panel.press c s.now b = (timeSet τ s').panel from q.symm] at p
  exact p.vals

theorem Full.held (h : Full c T s u) {b : Button} (hb : b ≠ .iron) :
    SimT (menuButtonT c s b .pressed) T fun T' s' => s'.btn = s.btn ∧ ∃ t, T ≤ t ∧ t ≤ T' ∧ Full c T' s' (u.touch t) := by
  refine ((h.at_.held h.inv hb).both (button_both h.inv b _) (button_inst h.inv hb _)).mono
    fun T' s' _ ⟨⟨e, t, h1, h2, h3⟩, i, τ, q⟩ => ⟨e, t, h1, h2, i, h3, ?_⟩
  have p := h.panel.touch t
  rw [show s.panel = (timeSet τ s').panel from q.symm] at p
  exact p.vals

theorem Full.negedge (h : Full c T s u) {b : Button} (hb : b ≠ .iron) :
    SimT (menuButtonT c s b .negedge) T fun T' s' => s'.btn = s.btn ∧ ∃ t t', T ≤ t ∧ t ≤ t' ∧ t' ≤ T' ∧
      Full c T' s' ((u.touch t).release c t' b) := by
  refine ((h.at_.negedge h.inv hb).both (button_both h.inv b _) (button_inst h.inv hb _)).mono
    fun T' s' _ ⟨⟨e, t, t', h1, h2, h3, w, h4⟩, i, τ, q⟩ => ⟨e, t, t', h1, h2, h3, i,
      ⟨h4.now, ⟨h4.menu.screen, h4.menu.ramp, h4.menu.err, h4.menu.hold, h4.menu.wait, h4.menu.going⟩, h4.debug⟩, ?_⟩
  have p := (h.panel.touch t).release (c := c) (T := t') h.inv.set.lim.active hb
  rw [show s.panel.release c b = (timeSet τ s').panel from q.symm] at p
  exact p.vals

theorem press_touch_at (u : Ui) (t t' t'' : Nat) (b : Button) :
    ((u.touch t).press t' b).touch t'' = (u.press t' b).touch t'' := by
  by_cases h : holdTime u.screen = some 3000
  · have e : u.touch t = { u with since := t } := by unfold Ui.touch; rw [if_pos h]
    rw [e]
    have k : ∀ w : Ui, w.screen = u.screen → w.touch t'' = { w with since := t'' } := by
      intro w hw
      unfold Ui.touch
      rw [hw, if_pos h]
    rw [k (u.press t' b) (press_same u t' b).1, k (Ui.press { u with since := t } t' b) (press_same _ t' b).1]
    unfold Ui.press
    simp only []
    repeat' split
    all_goals rfl
  · rw [touch_none h]

theorem callPanelT {b : Button} (hb : b ≠ .iron) (e : BState) : callButtonHandlersT c s (b, e) = menuButtonT c s b e := by
  unfold callButtonHandlersT contrtempButtonT
  simp only []
  rw [if_neg (fun hh => hb hh.2.2.1), contrtempButton_other hb]
  rfl

theorem Spec.UiButton.later {T' T'' : Nat} {b : Button} {was down : Bool} {u' : Ui} (h : UiButton c T T' u b was down u')
    (hT : T' ≤ T'') : UiButton c T T'' u b was down u' := by
  cases h with
  | up h => exact .up (by omega)
  | held h h' => exact .held h (by omega)
  | down h h' h'' => exact .down h h' (by omega)
  | release h h' h'' => exact .release h h' (by omega)

theorem Full.block (h : Full c T s u) {b : Button} (hb : b ≠ .iron) (was down : Bool) :
    SimT ((blockCalls b was down).foldlM (callButtonHandlersT c) s) T fun T' s' => s'.btn = s.btn ∧
      ∃ u', UiButton c T T' u b was down u' ∧ Full c T' s' u' := by
  cases was <;> cases down
  · exact SimT.pure ⟨rfl, u, .up (Nat.le_refl _), h⟩
  · show SimT ([(b, BState.posedge), (b, BState.pressed)].foldlM (callButtonHandlersT c) s) _ _
    simp only [List.foldlM_cons, List.foldlM_nil]
    rw [callPanelT hb]
    refine SimT.bind (h.posedge hb) fun T1 s1 _ ⟨e1, t, t', k1, k2, k3, k4⟩ => ?_
    rw [callPanelT hb]
    refine SimT.bind (k4.held hb) fun T2 s2 _ ⟨e2, t'', q1, q2, q3⟩ => SimT.pure ⟨e2.trans e1, _, ?_, q3⟩
    rw [press_touch_at]
    exact .down (by omega) (by omega) q2
  · show SimT ([(b, BState.negedge)].foldlM (callButtonHandlersT c) s) _ _
    simp only [List.foldlM_cons, List.foldlM_nil]
    rw [callPanelT hb]
    exact SimT.bind (h.negedge hb) fun T1 s1 _ ⟨e1, t, t', k1, k2, k3, k4⟩ => SimT.pure ⟨e1, _, .release k1 k2 k3, k4⟩
  · show SimT ([(b, BState.pressed)].foldlM (callButtonHandlersT c) s) _ _
    simp only [List.foldlM_cons, List.foldlM_nil]
    rw [callPanelT hb]
    exact SimT.bind (h.held hb) fun T1 s1 _ ⟨e1, t, k1, k2, k3⟩ => SimT.pure ⟨e1, _, .held k1 k2, k3⟩

/-- the iron button leaves all of this alone -/
theorem At.irons {a : Sys} (l : List (Button × BState)) (hl : ∀ x ∈ l, x.1 = .iron) {T : Nat} {s : Sys} (h : At a T s)
    (hs : s.set = a.set) : SimT (l.foldlM (callButtonHandlersT c) s) T fun T' s' => At a T' s' ∧ s'.set = a.set := by
  induction l generalizing T s with
  | nil => exact SimT.pure ⟨h, hs⟩
  | cons x l ih =>
    rw [List.foldlM_cons]
    refine SimT.bind (P := fun T' s' => At a T' s' ∧ s'.set = a.set) ?_ fun T1 s1 _ ⟨k1, k2⟩ =>
      ih (fun y hy => hl y (List.mem_cons_of_mem _ hy)) k1 k2
    obtain ⟨b, e⟩ := x
    have hb : b = .iron := hl _ List.mem_cons_self
    subst hb
    rw [ironCallT]
    unfold contrtempButtonT
    refine SimT.ite (fun _ => SimT.bind (SimT.tick h.now) fun T1 s1 _ e1 => SimT.lift fun s' es => ?_)
      fun _ => SimT.lift fun s' es => ⟨MenuKept.ironButton h _ _ s' es, (ironSet es).trans hs⟩
    subst e1
    have h1 : At a T1 { s with now := nowAt T1 } := ⟨rfl, h.btn, h.debugEn, h.menu⟩
    exact ⟨MenuKept.ironButton h1 _ _ s' es, (ironSet es).trans hs⟩

/-- a call of `buttons_work` -/
theorem Full.sample (h : Full c T s u) (hp : ∀ b, s.btn.prev.getLsbD (buttonPin b) = Down u.pins b) (pinb : BitVec 8) :
    SimT (buttonsWorkT c s pinb) T fun T' s' => ∃ t, T ≤ t ∧ t ≤ T' ∧
      ((timerExpired (nowAt t) s.btn.debounce = true ∧ ∃ u', UiSample c t T' pinb u u' ∧ UiRel s' u' ∧
        ∀ b, s'.btn.prev.getLsbD (buttonPin b) = Down pinb b) ∨
       (timerExpired (nowAt t) s.btn.debounce = false ∧ UiRel s' u ∧ s'.btn = s.btn)) := by
  unfold buttonsWorkT
  refine SimT.bind (SimT.tick h.at_.now) fun t s1 ht e1 => ?_
  subst e1
  refine SimT.bindV fun ⟨b, calls⟩ eb => ?_
  have eb : buttonsSample (nowAt t) s.btn pinb = some (b, calls) := eb
  have hrng : 0 ≤ nowAt t ∧ nowAt t ≤ 65535 := by unfold nowAt; omega
  unfold buttonsSample at eb
  rw [timerAdd_eq _ (by decide) (by decide)] at eb
  cases hx : timerExpired (nowAt t) s.btn.debounce
  · rw [hx] at eb
    simp only [Bool.not_false, if_true] at eb
    cases eb
    refine SimT.pure ⟨t, ht, Nat.le_refl _, Or.inr ⟨hx, ?_, rfl⟩⟩
    exact { h.rel with agrees := { h.rel.agrees with } }
  · rw [hx] at eb
    simp only [Bool.not_true, Bool.false_eq_true, if_false, Option.bind_eq_bind, Option.bind_some] at eb
    cases eb
    simp only []
    rw [buttonCalls_split, panelCalls_blocks, List.foldlM_append, List.foldlM_append]
    have h0 : ∀ b, Full c t { s with now := nowAt t, btn := b } u := fun b =>
      ⟨{ h.inv with now := hrng }, ⟨rfl, h.at_.menu, h.at_.debug⟩, h.vals⟩
    refine SimT.bind (P := fun T' s' => s'.btn.prev = buttonsRaw pinb ∧ ∃ T1 T2 u1 u2 u3,
        UiButton c t T1 u .set (Down u.pins .set) (Down pinb .set) u1 ∧
        UiButton c T1 T2 u1 .minus (Down u.pins .minus) (Down pinb .minus) u2 ∧
        UiButton c T2 T' u2 .plus (Down u.pins .plus) (Down pinb .plus) u3 ∧ Full c T' s' u3) ?_ ?_
    · rw [← hp .set, ← hp .minus, ← hp .plus]
      refine SimT.bind ((h0 _).block (b := .set) (by decide) _ _) fun T1 s1 _ ⟨e1, u1, k1, f1⟩ => ?_
      rw [List.foldlM_append]
      refine SimT.bind (f1.block (b := .minus) (by decide) _ _) fun T2 s2 _ ⟨e2, u2, k2, f2⟩ => ?_
      refine (f2.block (b := .plus) (by decide) _ _).mono fun T3 s3 _ ⟨e3, u3, k3, f3⟩ => ⟨?_, T1, T2, u1, u2, u3, k1, k2, k3, f3⟩
      rw [e3, e2, e1]
    · intro T3 s3 h3 ⟨hb, T1, T2, u1, u2, u3, k1, k2, k3, f3⟩
      refine (At.irons (a := s3) _ ?_ (At.refl f3.at_.now) rfl).mono fun T' s' h4 ⟨ha, hs⟩ =>
        ⟨t, ht, by omega, Or.inl ⟨hx, { u3 with pins := pinb }, ⟨T1, T2, u1, u2, u3, k1, k2, ?_, rfl⟩, ?_, ?_⟩⟩
      · intro x hx
        obtain ⟨e, -, rfl⟩ := List.mem_map.mp hx
        rfl
      · exact k3.later h4
      · have r := f3.rel.kept ha.menu (by rw [hs]; rfl) ha.debugEn
        exact { r with agrees := { r.agrees with } }
      · intro b'
        rw [ha.btn]
        show s3.btn.prev.getLsbD _ = _
        rw [hb]
        unfold buttonsRaw
        cases b' <;> simp [Down, buttonPin, BUTTONS_MASK]

end Verif
