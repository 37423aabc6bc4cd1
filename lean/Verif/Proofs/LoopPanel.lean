import Verif.Proofs.LoopDemo
import Verif.Props.Menu
import Verif.Props.Buttons
/-
The buttons and the screens in the main loop.
-/
namespace Verif
open Spec Props

variable {v : Speed} {c : Conf}

/-- the buttons and the screens in the main loop -/
structure PanelInv (v : Speed) (c : Conf) (x : Loop) (l : List (Nat × BitVec 8)) (a : Nat) : Prop where
  inv : LoopInv v c x
  pins : PinHist c x.s x.T l
  screen : ScreenHist c x.s x.T l a
  past : a ≤ x.T
  hold : ∀ L, holdTime x.s.menu.state = some L → x.T ≤ a + L ∨ callBy v .menu x ≤ a + L + 2 * v.W

theorem hold_le {m : MenuState} {L : Nat} (h : holdTime m = some L) : L ≤ 3000 := by
  revert h; cases m <;> simp [holdTime] <;> omega

theorem leads_ne {m : MenuState} {L : Nat} (h : holdTime m = some L) : leadsTo m ≠ m := by
  revert h; cases m <;> simp [holdTime, leadsTo]

theorem PanelInv.late {x : Loop} {l : List (Nat × BitVec 8)} {a L : Nat} (h : PanelInv v c x l a)
    (hL : holdTime x.s.menu.state = some L) : x.T ≤ a + L + 2 * v.W := by
  have := h.inv.dog
  have := le_callBy (v := v) .menu x
  rcases h.hold L hL with h | h <;> omega

/-- the deadline of the menu's work function, for a step that is not its call -/
theorem PanelInv.noMenu {x y : Loop} {e : Option Ev} {l : List (Nat × BitVec 8)} {a L : Nat} (h : PanelInv v c x l a)
    (hs : LoopStep c x e y) (hn : ¬ Calls .menu x e y) (hr : y.reset ≤ x.T)
    (hL : holdTime x.s.menu.state = some L) : y.T ≤ a + L ∨ callBy v .menu y ≤ a + L + 2 * v.W := by
  have h1 := callBy_step (v := v) (by decide) h.inv.dog hs hn
  have h2 := callBy_le (v := v) .menu y
  have hT := hs.time
  rcases h.hold L hL with h | h
  · by_cases hl : y.T ≤ a + L
    · exact Or.inl hl
    · right; omega
  · right; omega

theorem Spec.LoopPanel.inv {x : Loop} {l : List (Nat × BitVec 8)} {a : Nat} (hv : v.Sane) (h : LoopPanel v c x l a) :
    PanelInv v c x l a := by
  have hW : v.W ≤ 8191 := by
    have : 5 + 50 + 2 * v.A + 4 * v.W ≤ 32767 := hv.1
    omega
  induction h with
  | boot hv e =>
    exact ⟨LoopInv.boot hv e, PinHist.boot hv e, ScreenHist.boot hv e, Nat.le_refl _, fun _ _ => Or.inl (Nat.zero_le _)⟩
  | @sample x y l a pinb _ hs ht hx ih =>
    rcases hs.sys with ⟨h, -⟩ | ⟨f, hf, hp, hf', eT, -, -, -, er⟩
    · cases h
    cases hf
    have eT : y.T = x.T := eT
    have hpast := ih.past
    refine ⟨ih.inv.step hv hs ht, by rw [eT]; exact ih.pins.sample hx hf', by rw [eT]; exact ih.screen.sample hx hf',
      by split <;> omega, fun L hL => ?_⟩
    split
    · left; omega
    · rename_i hh
      have hst : y.s.menu.state = x.s.menu.state := Classical.byContradiction fun h => hh (Or.inl h)
      rw [hst] at hL
      exact ih.noMenu hs (by rintro ⟨g, p, h1, h2⟩; cases h1; cases h2) (by have := ih.inv.reset; omega) hL
  | @other x e y l a _ hs ht hn ih =>
    have hpast := ih.past
    have hT := hs.time
    have hres := ih.inv.reset
    rcases hs.sys with ⟨rfl, es, eT, -⟩ | ⟨f, rfl, hp, hf, eT, -, -, -, er⟩
    · have hst : ¬ (y.s.menu.state ≠ x.s.menu.state) := by rw [es]; simp
      rw [if_neg hst]
      refine ⟨ih.inv.step hv hs ht, by rw [es, eT]; exact ih.pins, by rw [es, eT]; exact ih.screen, by omega,
        fun L hL => ?_⟩
      rw [es] at hL
      exact ih.noMenu hs (by rintro ⟨g, p, h1, h2⟩; cases h1) (by cases hs; exact Nat.le_refl _) hL
    · have hsamp := fun pinb => hn f pinb rfl
      by_cases htick : f = .tick
      · subst htick
        have eT : y.T = x.T + 1 := eT
        have hst : y.s.menu.state = x.s.menu.state := by rw [← Option.some.inj hf]
        rw [if_neg (by rw [hst]; simp)]
        refine ⟨ih.inv.step hv hs ht, by rw [eT]; exact ih.pins.tick hf, by rw [eT]; exact ih.screen.tick hf, by omega,
          fun L hL => ?_⟩
        rw [hst] at hL
        exact ih.noMenu hs (by rintro ⟨g, p, h1, h2⟩; cases h1; cases h2) (by omega) hL
      · have eT : y.T = x.T := by
          rw [eT]; unfold Loop.after; simp only []; rw [if_neg htick]
        refine ⟨ih.inv.step hv hs ht, by rw [eT]; exact ih.pins.other hp hf htick hsamp,
          by rw [eT]; exact ih.screen.other hp hf htick hsamp, by split <;> omega, fun L hL => ?_⟩
        split
        · left; omega
        · rename_i hh
          have hst : y.s.menu.state = x.s.menu.state := Classical.byContradiction hh
          rw [hst] at hL
          by_cases hm : f = .menuWork
          · subst hm
            have hlate := ih.late hL
            have := C44_timeout c x.s y.s x.T a L l ih.screen hL (by omega) hf
            by_cases hd : a + L ≤ x.T
            · exact absurd (hst.symm.trans (this.1 hd)) (leads_ne hL).symm
            · left; omega
          · exact ih.noMenu hs (by rintro ⟨g, p, h1, h2⟩; cases h1; cases h2; exact hm rfl) (by omega) hL

/-- how far the iterations may lag behind the time `B` at which the statement `p` has something to do: the watchdog was
    reset by then, and between the reset and the call at most one iteration later -/
def Behind (v : Speed) (p : Pc) (x : Loop) (B : Nat) : Prop :=
  x.reset ≤ if 1 ≤ x.pc.idx ∧ x.pc.idx ≤ p.idx then B + v.W else B

theorem Behind.le {x : Loop} {p : Pc} {B : Nat} (h : Behind v p x B) : x.reset ≤ B + v.W := by
  unfold Behind at h; split at h <;> omega

theorem Behind.of {x : Loop} {p : Pc} {B : Nat} (h : x.reset ≤ B) : Behind v p x B := by
  unfold Behind; split <;> omega

theorem Behind.step {x y : Loop} {e : Option Ev} {p : Pc} {B : Nat} (hp : p ≠ .reset) (hx : x.T ≤ x.reset + v.W)
    (h : LoopStep c x e y) (hn : ¬ Calls p x e y) (hB : Behind v p x B) : Behind v p y B := by
  cases h with
  | reset h =>
    unfold Behind at hB ⊢
    rw [if_neg (by rw [h]; rintro ⟨h, -⟩; exact absurd h (by decide))] at hB
    simp only []
    rw [if_pos (by cases p <;> first | exact absurd rfl hp | decide)]
    omega
  | isr h1 h2 h3 => exact hB
  | @call e s' pinb h1 h2 =>
    have hne : x.pc ≠ p := fun hh => hn ⟨e, pinb, rfl, hh ▸ h1⟩
    unfold Behind at hB ⊢
    show x.reset ≤ if 1 ≤ x.pc.next.idx ∧ x.pc.next.idx ≤ p.idx then B + v.W else B
    have hr : x.pc ≠ .reset := fun hh => by rw [hh] at h1; cases h1
    generalize x.pc = q at hne hr hB
    cases q <;> cases p <;> first
      | exact absurd rfl hr
      | exact absurd rfl hne
      | exact absurd rfl hp
      | exact hB

/-- the sampling of the buttons keeps up with the time, if the loop is fast enough -/
theorem Spec.LoopPanel.inStep {x : Loop} {l : List (Nat × BitVec 8)} {a : Nat} (hv : v.Sane) (hW : v.W ≤ 10)
    (h : LoopPanel v c x l a) :
    Behind v .buttons x (10 * l.length) ∧ ∀ k t p, l.reverse[k]? = some (t, p) → t ≤ 10 * k + 2 * v.W := by
  induction h with
  | boot hv e => exact ⟨.of (Nat.zero_le _), fun k t p h => by simp at h⟩
  | @sample x y l a pinb h0 hs ht hx ih =>
    have hinv := h0.inv hv
    rcases hs.sys with ⟨h, -⟩ | ⟨f, hf, hp, hf', eT, -, -, -, er⟩
    · cases h
    cases hf
    have hdog := hinv.inv.dog
    have hle := ih.1.le
    refine ⟨.of (by rw [List.length_cons]; omega), fun k t p hk => ?_⟩
    rw [List.reverse_cons, List.getElem?_append] at hk
    split at hk
    · exact ih.2 k t p hk
    · rename_i hlt
      rw [List.length_reverse] at hlt hk
      by_cases hkl : k = l.length
      · subst hkl
        simp at hk
        omega
      · rw [List.getElem?_eq_none (by simp; omega)] at hk
        cases hk
  | @other x e y l a h0 hs ht hn ih =>
    refine ⟨?_, ih.2⟩
    have hinv := h0.inv hv
    have hdog := hinv.inv.dog
    have hres := hinv.inv.reset
    have hle := ih.1.le
    by_cases hc : Calls .buttons x e y
    · obtain ⟨f, pinb, rfl, hf⟩ := hc
      cases hf
      have hlt : ¬ 10 * l.length ≤ x.T := fun hh =>
        hn _ pinb rfl ((C50_due c x.s x.T l pinb hinv.pins (by omega)).mpr hh)
      rcases hs.sys with ⟨h, -⟩ | ⟨f, hf, -, -, -, -, -, -, er⟩
      · cases h
      · exact .of (by omega)
    · exact ih.1.step (by decide) hdog hs hc

/-! ### concrete runs -/

/-- a command, with the samples and the age of the screen -/
def panelCmd (v : Speed) (c : Conf) (x : Loop × List (Nat × BitVec 8) × Nat) (a : Cmd) :
    Option (Loop × List (Nat × BitVec 8) × Nat) :=
  (loopCmd v c Never x.1 a).bind fun y =>
    match a with
    | .ev (.buttonsWork pinb) =>
      if timerExpired x.1.s.now x.1.s.btn.debounce then
        some (y, (x.1.T, pinb) :: x.2.1,
          if y.s.menu.state ≠ x.1.s.menu.state ∨ (holdTime x.1.s.menu.state = some 3000 ∧ touched x.2.1 pinb = true)
          then x.1.T else x.2.2)
      else some (y, x.2.1, if y.s.menu.state ≠ x.1.s.menu.state then x.1.T else x.2.2)
    | .pause _ => some (y, x.2)
    | _ => some (y, x.2.1, if y.s.menu.state ≠ x.1.s.menu.state then x.1.T else x.2.2)

theorem loopCmd_one {P : Loop → Option Ev → Loop → Prop} [∀ x e y, Decidable (P x e y)] {x y : Loop} {a : Cmd}
    (h : loopCmd v c P x a = some y) : (∃ n, a = .pause n) ∨
    (∃ e, LoopStep c x e y ∧ InTime v y ∧ ∀ f, e = some f → a = .ev f) := by
  cases a with
  | pause n => exact Or.inl ⟨n, rfl⟩
  | reset =>
    right
    unfold loopCmd at h
    simp only [] at h
    split at h
    · rename_i hh
      cases h
      exact ⟨none, LoopStep.reset hh.1, hh.2.1, fun f hf => by cases hf⟩
    · cases h
  | ev e =>
    right
    obtain ⟨s', es, h⟩ := Option.bind_eq_some_iff.mp h
    split at h
    · rename_i he
      simp only [] at h
      split at h
      · rename_i hh
        cases h
        exact ⟨some e, LoopStep.isr he hh.1 es, hh.2.1, fun f hf => by cases hf; rfl⟩
      · cases h
    · simp only [] at h
      split at h
      · rename_i hh
        cases h
        exact ⟨some e, LoopStep.call hh.1 es, hh.2.1, fun f hf => by cases hf; rfl⟩
      · cases h

theorem Spec.Stretch.panel {x y : Loop} {l : List (Nat × BitVec 8)} {a : Nat} (h : LoopPanel v c x l a)
    (hs : Stretch v c (fun _ e _ => e ≠ some .tick) x y) : LoopPanel v c y l a := by
  induction hs with
  | start => exact h
  | @step y e z _ hs ht hn ih =>
    have he : e = some .tick := Classical.byContradiction hn
    subst he
    have hst : z.s.menu.state = y.s.menu.state := by
      rcases hs.sys with ⟨h, -⟩ | ⟨f, hf, -, hf', -⟩
      · cases h
      · cases hf
        rw [← Option.some.inj hf']
    have := ih.other hs ht (fun f pinb h1 h2 => by cases h1; cases h2.1)
    rw [if_neg (by rw [hst]; simp)] at this
    exact this

theorem pause_stretch {x y : Loop} {n : Nat} (h : loopCmd v c Never x (.pause n) = some y) :
    Stretch v c (fun _ e _ => e ≠ some .tick) x y := by
  unfold loopCmd at h
  simp only [] at h
  split at h
  · rename_i hh
    cases h
    exact loop_ticks (fun x n y t _ h => absurd rfl h) n ⟨hh.1, hh.2.1⟩ hh.2.2.1 (fun h => h rfl)
  · cases h

theorem panelCmd_panel {x y : Loop × List (Nat × BitVec 8) × Nat} {a : Cmd} (hx : LoopPanel v c x.1 x.2.1 x.2.2)
    (h : panelCmd v c x a = some y) : LoopPanel v c y.1 y.2.1 y.2.2 := by
  obtain ⟨z, h1, h⟩ := Option.bind_eq_some_iff.mp h
  rcases loopCmd_one h1 with ⟨n, rfl⟩ | ⟨e, hs, ht, he⟩
  · cases h
    exact (pause_stretch h1).panel hx
  split at h
  · rename_i pinb _
    have he' : e = some (.buttonsWork pinb) := by
      cases e with
      | none => cases hs with
        | reset hr =>
          exfalso
          unfold loopCmd at h1
          obtain ⟨s', es, h1⟩ := Option.bind_eq_some_iff.mp h1
          rw [if_neg (by simp [Ev.isIsr])] at h1
          simp only [] at h1
          split at h1
          · rename_i hh
            rw [hr] at hh
            cases hh.1
          · cases h1
      | some f => have := he f rfl; cases this; rfl
    subst he'
    split at h
    · rename_i hexp
      cases h
      exact hx.sample hs ht ⟨rfl, hexp⟩
    · rename_i hexp
      cases h
      exact hx.other hs ht fun f p hf hsm => by cases hf; exact hexp hsm.2
  · rename_i n
    cases h
    exact (pause_stretch h1).panel hx
  · rename_i hnb hnp
    cases h
    refine hx.other hs ht fun f p hf hsm => ?_
    have := he f hf
    rw [hsm.1] at this
    exact hnb p this

def panelCmds (v : Speed) (c : Conf) (pinb : BitVec 8) (l : List Cmd) : Option (Loop × List (Nat × BitVec 8) × Nat) :=
  (loopBoot c pinb).bind fun x => l.foldlM (panelCmd v c) (x, [], 0)

theorem panelCmds_panel {pinb : BitVec 8} {l : List Cmd} {y : Loop × List (Nat × BitVec 8) × Nat}
    (hv : ValidEeprom c (shippedEeprom c)) (h : panelCmds v c pinb l = some y) : LoopPanel v c y.1 y.2.1 y.2.2 := by
  obtain ⟨x, h1, h2⟩ := Option.bind_eq_some_iff.mp h
  obtain ⟨s, h3, rfl⟩ := Option.map_eq_some_iff.mp h1
  exact foldlM_inv (P := fun x => LoopPanel v c x.1 x.2.1 x.2.2) (fun x a y hx h => panelCmd_panel hx h) l
    (LoopPanel.boot hv h3) h2

end Verif
