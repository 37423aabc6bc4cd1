import Verif.Proofs.DispKept
import Verif.Proofs.LoopPanel
import Verif.Props.Display
import Verif.Spec.LoopMux
/-
The digits of the display in the main loop.
-/
namespace Verif
open Spec Props

variable {v : Speed} {c : Conf}

/-! ### at boot -/

theorem still_pwm {s : Sys} (y : Int) : Post (pwmcurrSet s y) (DispKept s) := by
  unfold pwmcurrSet
  exact Post.bindAny fun _ => Post.pure { DispKept.refl s with }

theorem still_currEnable {s : Sys} : Post (contrcurrSetEnabled s true 0) (DispKept s) := by
  unfold contrcurrSetEnabled
  simp only []
  split
  · exact Post.bind (still_pwm _) fun s3 h3 => Post.pure { h3 with }
  · exact Post.pure (DispKept.refl s)

theorem still_currEmerg {s : Sys} (f : BitVec 8) : Post (contrcurrSetEmerg s f) (DispKept s) := by
  unfold contrcurrSetEmerg
  split
  · simp only []
    split
    · exact (still_pwm _).mono fun s3 h3 => { h3 with }
    · exact Post.pure { DispKept.refl s with }
  · exact Post.pure (DispKept.refl s)

theorem still_contrcurrInit {s : Sys} : Post (contrcurrInit s) (DispKept s) := by
  unfold contrcurrInit
  refine Post.bind (P := DispKept s) (still_currEnable.mono fun s2 h2 => { h2 with }) fun s2 h2 => ?_
  exact Post.bind (still_currEmerg 0) fun s3 h3 => Post.pure { h2.trans h3 with }

theorem still_doSetEnabled {s : Sys} (en : Bool) : Post (contrtempDoSetEnabled c s en) (DispKept s) := by
  unfold contrtempDoSetEnabled
  have h1 : DispKept s { s with ct := { s.ct with enabled := en, pid := pidReset s.ct.pid, dtTimer := timerSetNow s.now } } :=
    { DispKept.refl s with }
  exact Post.bind (h1.setBoost 0) fun s2 h2 => Post.pure { h2 with }

theorem still_contrtempInit {s : Sys} : Post (contrtempInit c s) (DispKept s) := by
  unfold contrtempInit
  refine Post.bindAny fun sp => Post.bind (P := DispKept s) ((still_doSetEnabled true).mono fun s2 h2 => { h2 with })
    fun s2 h2 => Post.pure { h2 with }

theorem boot_off : ∀ p d, displayEnable 0 bootPorts Display.zero true = some (p, d) →
    AllOff (bootUnused (bootPwm p)).v ∧ d.muxTimer = 0 := by
  intro p d e
  have h : (displayEnable 0 bootPorts Display.zero true).all fun x =>
      decide (AllOff (bootUnused (bootPwm x.1)).v) && (x.2.muxTimer == 0) := by decide
  rw [e] at h
  simpa using h

/-- after boot no digit is lit, and the first is due at once -/
theorem boot_mux {ee : Nat → Nat} {pinb : BitVec 8} {s : Sys} (e : boot c ee pinb = some s) (hd : s.debugEn = false) :
    s.disp.muxTimer = 0 ∧ AllOff s.ports.v := by
  rw [boot_eq] at e
  obtain ⟨set, -, e⟩ := Option.bind_eq_some_iff.mp e
  obtain ⟨p, d, e1, hp, hen⟩ := bootDisp_ok
  obtain ⟨hoff, hmux⟩ := boot_off p d e1
  rw [bootFirst c (s := buttonsInit (zeroSys set)) rfl rfl rfl rfl e1 hp hen, Option.bind_some] at e
  generalize h0 : ({ buttonsInit (zeroSys set) with ports := p, disp := d } : Sys) = s0 at e
  have hs0 : s0.ports = p ∧ s0.disp = d := by rw [← h0]; exact ⟨rfl, rfl⟩
  clear h0
  unfold bootTail at e
  obtain ⟨s3, e3, e⟩ := Option.bind_eq_some_iff.mp e
  obtain ⟨s4, e4, e⟩ := Option.bind_eq_some_iff.mp e
  obtain ⟨s5, e5, e⟩ := Option.bind_eq_some_iff.mp e
  obtain ⟨m, -, e⟩ := Option.bind_eq_some_iff.mp e
  cases e
  have h2 : DispKept s0 (meastempInit c (meascurrInit s0)) := by
    unfold meastempInit measureAdjustSet
    split <;> exact ⟨rfl, rfl, rfl, rfl⟩
  have h4 : DispKept s0 s4 := (h2.trans (still_contrcurrInit _ e3)).trans (still_contrtempInit _ e4)
  have hd : s5.debugEn = false := hd
  have h5 : DispKept (pwmcurrInit s4) s5 := by
    have h0 := DispKept.refl (pwmcurrInit s4)
    unfold menuInit at e5
    split at e5
    · rename_i hc
      split at e5
      · obtain ⟨s6, e6, e5⟩ := Option.bind_eq_some_iff.mp e5
        have h6 := (DispKept.refl s6).menuSetState _ _ e5
        unfold debugEnable at e6
        rw [if_pos hc] at e6
        obtain ⟨pd, -, e6⟩ := Option.bind_eq_some_iff.mp e6
        cases e6
        rw [h6.debugEn] at hd
        cases hd
      · exact h0.menuSetState _ _ e5
    · exact h0.menuSetState _ _ e5
  constructor
  · show s5.disp.muxTimer = 0
    rw [h5.disp]
    show s4.disp.muxTimer = 0
    rw [h4.disp, hs0.2]
    exact hmux
  · show AllOff (bootUnused s5.ports).v
    rw [h5.ports]
    show AllOff (bootUnused (bootPwm s4.ports)).v
    rw [h4.ports, hs0.1]
    exact hoff

/-! ### in the loop -/

/-- the digits of the display in the main loop -/
structure MuxInv (v : Speed) (c : Conf) (x : Loop) (t0 : Nat) (l : List (Nat × Nat)) : Prop where
  inv : LoopInv v c x
  small : ∀ p ∈ l, p.2 < 4
  timer : x.s.debugEn = false → x.s.disp.muxTimer = nowAt (t0 + l.length)
  ahead : x.s.debugEn = false → t0 + l.length ≤ x.T + 1
  late : x.s.debugEn = false → Behind v .display x (t0 + l.length)
  lit : x.s.debugEn = false → ∀ j, DriverOn x.s.ports.v j = true ↔ ∃ t, l.head? = some (t, j)
  times : x.s.debugEn = false → ∀ k p, l.reverse[k]? = some p → t0 + k ≤ p.1 ∧ p.1 ≤ t0 + k + 2 * v.W
  order : x.s.debugEn = false → ∀ k p q, l.reverse[k]? = some p → l.reverse[k + 1]? = some q → q.2 = (p.2 + 1) % 4

theorem expired_at {T B : Nat} (h : T < B + 32768) (h' : B ≤ T + 1) :
    timerExpired (nowAt T) (nowAt B) = true ↔ B ≤ T := by
  unfold timerExpired timerCountSince nowAt toU16 toS16
  simp only [decide_eq_true_eq]
  omega

/-- what `display_work` does to the timer and the flag -/
theorem displayWork_timer {s s' : Sys} (h : DispInv c s.disp s.ports.v s.debugEn) (e : step c s .displayWork = some s') :
    s'.debugEn = s.debugEn ∧ (s' = s ∨ s'.disp.muxTimer = toU16 (s.disp.muxTimer + toU16 1)) := by
  obtain ⟨⟨p, d⟩, e1, e⟩ := Option.bind_eq_some_iff.mp e
  cases e
  refine ⟨rfl, ?_⟩
  rcases displayWork_eq s.now s.ports h with e' | ⟨t, j, -, -, ht, -, hj, e'⟩
  · rw [e'] at e1
    cases e1
    exact Or.inl rfl
  · rw [e'] at e1
    cases e1
    exact Or.inr ht

theorem reverse_cons_get {α : Type} {l : List α} {a b : α} {k : Nat} (h : (a :: l).reverse[k]? = some b) :
    l.reverse[k]? = some b ∨ (k = l.length ∧ b = a) := by
  rw [List.reverse_cons, List.getElem?_append] at h
  split at h
  · exact Or.inl h
  · rename_i hlt
    rw [List.length_reverse] at hlt h
    by_cases hk : k = l.length
    · subst hk
      simp at h
      exact Or.inr ⟨rfl, h.symm⟩
    · rw [List.getElem?_eq_none (by simp; omega)] at h
      cases h

/-- a step that keeps the lit digit -/
theorem MuxInv.keep {x y : Loop} {e : Option Ev} {t0 : Nat} {l : List (Nat × Nat)} (h : MuxInv v c x t0 l)
    (hy : LoopInv v c y) (hs : LoopStep c x e y)
    (hk : y.s.debugEn = false → x.s.debugEn = false ∧ y.s.disp.muxTimer = x.s.disp.muxTimer ∧ y.s.ports = x.s.ports ∧
      Behind v .display y (t0 + l.length)) : MuxInv v c y t0 l where
  inv := hy
  small := h.small
  timer hd := (hk hd).2.1.trans (h.timer (hk hd).1)
  ahead hd := by have := h.ahead (hk hd).1; have := hs.time; omega
  late hd := (hk hd).2.2.2
  lit hd := by rw [(hk hd).2.2.1]; exact h.lit (hk hd).1
  times hd := h.times (hk hd).1
  order hd := h.order (hk hd).1

/-- the step is a lighting, switches the display on, or leaves the lit digit alone -/
theorem MuxInv.cases {x y : Loop} {e : Option Ev} {t0 : Nat} {l : List (Nat × Nat)} (hW : v.W ≤ 1)
    (h : MuxInv v c x t0 l) (hy : LoopInv v c y) (hs : LoopStep c x e y) :
    (x.s.debugEn = false ∧ y.s.debugEn = false ∧ ∃ j, DriverOn x.s.ports.v j = false ∧
      (∀ k, DriverOn y.s.ports.v k = true ↔ k = j) ∧ MuxInv v c y t0 ((x.T, j) :: l)) ∨
    (x.s.debugEn = true ∧ y.s.debugEn = false ∧ AllOff y.s.ports.v ∧ MuxInv v c y x.T []) ∨
    (¬ (x.s.debugEn = true ∧ y.s.debugEn = false) ∧ (y.s.ports = x.s.ports ∨ y.s.debugEn = true) ∧
      MuxInv v c y t0 l) := by
  obtain ⟨hrun, hnow, -⟩ := window_inv h.inv.win
  have hdog := h.inv.dog
  have hres := h.inv.reset
  rcases hs.sys with ⟨rfl, es, -⟩ | ⟨f, rfl, -, hf, eT, -, -, -, er⟩
  · refine Or.inr (Or.inr ⟨(by rw [es]; rintro ⟨h1, h2⟩; rw [h1] at h2; cases h2), Or.inl (by rw [es]), h.keep hy hs fun hd => ?_⟩)
    rw [es] at hd ⊢
    exact ⟨hd, rfl, rfl, (h.late hd).step (by decide) hdog hs (by rintro ⟨_, _, h, -⟩; cases h)⟩
  by_cases hfd : f = .displayWork
  · subst hfd
    have eT : y.T = x.T := eT
    obtain ⟨hdbg, htm⟩ := displayWork_timer (Running.inv hrun).disp hf
    have hno : ¬ (x.s.debugEn = true ∧ y.s.debugEn = false) := by
      rw [hdbg]; rintro ⟨h1, h2⟩; rw [h1] at h2; cases h2
    rcases C51_round c x.s y.s hrun hf with ⟨hd, hx, j, hj4, hj, hnext⟩ | ⟨hor, es⟩
    · have hlate := (h.late hd).le
      have hah := h.ahead hd
      have htim := h.timer hd
      rw [hnow, htim, expired_at (by omega) hah] at hx
      have hoff : DriverOn x.s.ports.v j = false := by
        cases hjx : DriverOn x.s.ports.v j with
        | false => rfl
        | true => have := hnext j hjx; omega
      have htm' : y.s.disp.muxTimer = toU16 (x.s.disp.muxTimer + toU16 1) := by
        rcases htm with hsame | hh
        · have := (hj j).mpr rfl
          rw [hsame, hoff] at this
          cases this
        · exact hh
      refine Or.inl ⟨hd, hdbg.trans hd, j, hoff, hj, ?_⟩
      refine ⟨hy, ?_, fun _ => ?_, fun _ => ?_, fun _ => .of ?_, fun _ k => ?_, fun _ k p hk => ?_, fun _ k p q hp hq => ?_⟩
      · intro p hp
        rcases List.mem_cons.mp hp with rfl | hp
        · exact hj4
        · exact h.small p hp
      · rw [htm', htim, List.length_cons]
        unfold nowAt toU16
        omega
      · rw [List.length_cons]; omega
      · rw [List.length_cons]; omega
      · rw [hj k, List.head?_cons]
        constructor
        · rintro rfl; exact ⟨_, rfl⟩
        · rintro ⟨t, ht⟩; cases ht; rfl
      · rcases reverse_cons_get hk with hk | ⟨rfl, rfl⟩
        · exact h.times hd k p hk
        · exact ⟨hx, by show x.T ≤ _; omega⟩
      · rcases reverse_cons_get hp with hp | ⟨rfl, rfl⟩
        · rcases reverse_cons_get hq with hq | ⟨hk, rfl⟩
          · exact h.order hd k p q hp hq
          · refine hnext p.2 ((h.lit hd p.2).mpr ⟨p.1, ?_⟩)
            rw [List.getElem?_reverse (by omega)] at hp
            rw [List.head?_eq_getElem?]
            rw [show l.length - 1 - k = 0 by omega] at hp
            exact hp
        · rw [List.getElem?_eq_none (by simp)] at hq
          cases hq
    · refine Or.inr (Or.inr ⟨hno, Or.inl (by rw [es]), h.keep hy hs fun hd => ?_⟩)
      have hd' := hdbg.symm.trans hd
      refine ⟨hd', by rw [es], by rw [es], .of ?_⟩
      rcases hor with hor | hor
      · rw [hd'] at hor; cases hor
      · have hlate := (h.late hd').le
        have hx := expired_at (T := x.T) (B := t0 + l.length) (by omega) (h.ahead hd')
        rw [← hnow, ← h.timer hd', hor] at hx
        simp only [Bool.false_eq_true, false_iff] at hx
        omega
  · have hnc : ¬ Calls .display x (some f) y := by
      rintro ⟨g, p, h1, h2⟩
      cases h1
      cases h2
      exact hfd rfl
    rcases step_lit (Running.inv hrun) hf hfd with hl | ⟨pinb, rfl, hh | ⟨h1, h2, h3⟩⟩
    · refine Or.inr (Or.inr ⟨(by rw [hl.debugEn]; rintro ⟨h1, h2⟩; rw [h1] at h2; cases h2), Or.inl hl.ports,
        h.keep hy hs fun hd => ?_⟩)
      have hd' := hl.debugEn.symm.trans hd
      exact ⟨hd', hl.timer, hl.ports, (h.late hd').step (by decide) hdog hs hnc⟩
    · exact Or.inr (Or.inr ⟨(by rw [hh]; rintro ⟨-, h⟩; cases h), Or.inr hh,
        h.keep hy hs fun hd => (by rw [hh] at hd; cases hd)⟩)
    · refine Or.inr (Or.inl ⟨h1, h2, h3.off, hy, fun p hp => (by cases hp), fun _ => ?_, fun _ => ?_, fun _ => .of ?_,
        fun _ j => ?_, fun _ k p hk => (by simp at hk), fun _ k p q hp => (by simp at hp)⟩)
      · rw [h3.timer, hnow]; rfl
      · have := hs.time; show x.T + 0 ≤ _; omega
      · rw [er]; exact hres
      · rw [h3.off j]; simp

theorem Spec.LoopMux.inv {x : Loop} {t0 : Nat} {l : List (Nat × Nat)} (hv : v.Sane) (hW : v.W ≤ 1)
    (h : LoopMux v c x t0 l) : MuxInv v c x t0 l := by
  induction h with
  | boot hv e =>
    refine ⟨LoopInv.boot hv e, fun p hp => (by cases hp), fun hd => ?_, fun _ => Nat.zero_le _, fun _ => .of (Nat.le_refl _),
      fun hd j => ?_, fun _ k p hk => (by simp at hk), fun _ k p q hp => (by simp at hp)⟩
    · exact (boot_mux e hd).1
    · have := (boot_mux e hd).2 j
      show DriverOn _ j = true ↔ _
      rw [this]
      simp
  | @light x e y t0 l j _ hs ht hx hy ih =>
    rcases ih.cases hW (ih.inv.step hv hs ht) hs with ⟨-, -, j', -, h2, h3⟩ | ⟨-, -, h1, -⟩ | ⟨-, h1 | h1, h2⟩
    · rw [h2] at hy
      rw [hy]
      exact h3
    · rw [h1] at hy; cases hy
    · rw [h1, hx] at hy; cases hy
    · exact {
        inv := h2.inv
        small := fun p hp => (by
          rcases List.mem_cons.mp hp with rfl | hp
          · have := (Running.inv (window_inv h2.inv.win).1).disp
            rw [(this.drv j hy).2]
            exact this.mux
          · exact h2.small p hp)
        timer := fun hd => (by rw [h1] at hd; cases hd)
        ahead := fun hd => (by rw [h1] at hd; cases hd)
        late := fun hd => (by rw [h1] at hd; cases hd)
        lit := fun hd => (by rw [h1] at hd; cases hd)
        times := fun hd => (by rw [h1] at hd; cases hd)
        order := fun hd => (by rw [h1] at hd; cases hd) }
  | @on x e y t0 l _ hs ht hx hy ih =>
    rcases ih.cases hW (ih.inv.step hv hs ht) hs with ⟨h1, -⟩ | ⟨-, -, -, h1⟩ | ⟨h1, -⟩
    · rw [hx] at h1; cases h1
    · exact h1
    · exact absurd ⟨hx, hy⟩ h1
  | @other x e y t0 l _ hs ht hx hn ih =>
    rcases ih.cases hW (ih.inv.step hv hs ht) hs with ⟨-, -, j, h1, h2, -⟩ | ⟨h1, h2, -⟩ | ⟨-, -, h1⟩
    · have := hx j ((h2 j).mpr rfl)
      rw [h1] at this
      cases this
    · exact absurd ⟨h1, h2⟩ hn
    · exact h1

/-! ### concrete runs -/

/-- a command, with the digits lit since the display is on -/
def muxCmd (v : Speed) (c : Conf) (x : Loop × Nat × List (Nat × Nat)) (a : Cmd) : Option (Loop × Nat × List (Nat × Nat)) :=
  (loopCmd v c Never x.1 a).bind fun y =>
    match a with
    | .pause _ => some (y, x.2)
    | _ =>
      match [0, 1, 2, 3].find? fun j => !DriverOn x.1.s.ports.v j && DriverOn y.s.ports.v j with
      | some j => some (y, x.2.1, (x.1.T, j) :: x.2.2)
      | none => if x.1.s.debugEn = true ∧ y.s.debugEn = false then some (y, x.1.T, []) else some (y, x.2)

theorem Spec.Stretch.mux {x y : Loop} {t0 : Nat} {l : List (Nat × Nat)} (h : LoopMux v c x t0 l)
    (hs : Stretch v c (fun _ e _ => e ≠ some .tick) x y) : LoopMux v c y t0 l := by
  induction hs with
  | start => exact h
  | @step y e z _ hs ht hn ih =>
    have he : e = some .tick := Classical.byContradiction hn
    subst he
    rcases hs.sys with ⟨h, -⟩ | ⟨f, hf, -, hf', -⟩
    · cases h
    cases hf
    have hz := Option.some.inj hf'
    refine ih.other hs ht (fun j hj => ?_) ?_
    · rw [← hz] at hj; exact hj
    · rw [← hz]; rintro ⟨h1, h2⟩; rw [show y.s.debugEn = false from h2] at h1; cases h1

theorem muxCmd_mux {x y : Loop × Nat × List (Nat × Nat)} {a : Cmd} (hx : LoopMux v c x.1 x.2.1 x.2.2)
    (h : muxCmd v c x a = some y) : LoopMux v c y.1 y.2.1 y.2.2 := by
  obtain ⟨z, h1, h⟩ := Option.bind_eq_some_iff.mp h
  rcases loopCmd_one h1 with ⟨n, rfl⟩ | ⟨e, hs, ht, -⟩
  · cases h
    exact (pause_stretch h1).mux hx
  split at h
  · cases h
    exact (pause_stretch h1).mux hx
  · split at h
    · rename_i j hj
      cases h
      have := List.find?_some hj
      simp only [Bool.and_eq_true, Bool.not_eq_true'] at this
      exact hx.light hs ht this.1 this.2
    · rename_i hj
      split at h
      · rename_i hh
        cases h
        exact hx.on hs ht hh.1 hh.2
      · rename_i hh
        cases h
        refine hx.other hs ht (fun j hz => ?_) hh
        rw [List.find?_eq_none] at hj
        have key : j ∈ [0, 1, 2, 3] → DriverOn x.1.s.ports.v j = true := fun hm => by
          have := hj j hm
          rw [hz] at this
          simpa using this
        match j with
        | 0 | 1 | 2 | 3 => exact key (by decide)
        | _ + 4 => cases hz

def muxCmds (v : Speed) (c : Conf) (pinb : BitVec 8) (l : List Cmd) : Option (Loop × Nat × List (Nat × Nat)) :=
  (loopBoot c pinb).bind fun x => l.foldlM (muxCmd v c) (x, 0, [])

theorem muxCmds_mux {pinb : BitVec 8} {l : List Cmd} {y : Loop × Nat × List (Nat × Nat)}
    (hv : ValidEeprom c (shippedEeprom c)) (h : muxCmds v c pinb l = some y) : LoopMux v c y.1 y.2.1 y.2.2 := by
  obtain ⟨x, h1, h2⟩ := Option.bind_eq_some_iff.mp h
  obtain ⟨s, h3, rfl⟩ := Option.map_eq_some_iff.mp h1
  exact foldlM_inv (P := fun x => LoopMux v c x.1 x.2.1 x.2.2) (fun x a y hx h => muxCmd_mux hx h) l
    (LoopMux.boot hv h3) h2

end Verif
