import Verif.Proofs.RampIn
import Verif.Proofs.LoopInDemo
/-
C122: a value changed by a held button in the main loop with interrupts inside the work functions.
-/
namespace Verif.Props
open Spec

/-- A value is changed, or a change waits, only while the button for it was down in the latest sample. -/
theorem C122_held (v : Speed) (c : Conf) (x : LoopI) (up : Bool) (hv : v.SaneI) (hW : v.W ≤ 25) (h : LoopIRun v c x)
    (hr : x.s.menu.ramp = waiting up ∨ x.s.menu.ramp = going up) :
    x.s.btn.prev.getLsbD (buttonPin (rampButton up)) = true := by
  obtain ⟨u, h1, h2⟩ := h.ui hv hW
  rw [h1.pins]
  refine h2 up ?_
  rw [← h1.rel.agrees.ramp]
  rcases hr with hr | hr <;> rw [hr] <;> cases up <;> rfl

/-- A change or a wait begins only in the sample in which its button goes down; or a wait becomes a change in a call of the
    menu's work function. -/
theorem C122_start (v : Speed) (c : Conf) (x y : LoopI) (e : Option Ev) (up : Bool) (hv : v.SaneI) (hW : v.W ≤ 25)
    (h : LoopIRun v c x) (hs : LoopIStep c x e y) (ht : InTimeI v y)
    (hr : y.s.menu.ramp = waiting up ∨ y.s.menu.ramp = going up) (hne : y.s.menu.ramp ≠ x.s.menu.ramp) :
    ((∃ pinb, e = some (.buttonsWork pinb)) ∧ x.s.btn.prev.getLsbD (buttonPin (rampButton up)) = false ∧
      y.s.btn.prev.getLsbD (buttonPin (rampButton up)) = true) ∨
    (e = some .menuWork ∧ x.s.menu.ramp = waiting up ∧ y.s.menu.ramp = going up) := by
  obtain ⟨u, h1, h2⟩ := h.ui hv hW
  obtain ⟨u', m, h3⟩ := h1.step hv hW hs ht
  obtain ⟨h4, m⟩ := m.ramp h2
  have ex := h1.rel.agrees.ramp
  have ey := h3.rel.agrees.ramp
  have hd : Dir u'.ramp = some up := by rw [← ey]; rcases hr with hr | hr <;> rw [hr] <;> cases up <;> rfl
  cases m with
  | stays k => exact absurd (by rw [ex, ey, k.ramp]) hne
  | ends k => rw [k] at hd; cases hd
  | press k1 _ k2 k3 =>
    have := k3.1
    rw [hd] at this
    cases this
    exact .inl ⟨⟨_, k1⟩, by rw [h1.pins]; exact k2, by rw [h3.pins]; exact h4 up hd⟩
  | late k1 k2 k3 k4 =>
    have := k4.1
    rw [hd] at this
    cases this
    exact .inr ⟨k1, by rw [ex]; exact k2, by rw [ey]; exact k3⟩
  | steps _ k => exact absurd (by rw [ex, ey, k]) hne

/-- A ramp waits only until its button has been held for one second and the loop has come round twice. -/
theorem C122_wait (v : Speed) (c : Conf) (x : LoopI) (a b : Nat) (hv : v.SaneI) (hW : v.W ≤ 25) (h : LoopIWait v c x a b) :
    x.T ≤ b + 1000 + 2 * v.W := by
  obtain ⟨⟨up, hr⟩, u, h1, -, -, h2⟩ := h.ui hv hW
  have := (h1.time.wait (by rw [← h1.rel.agrees.ramp, hr]; cases up <;> simp [waiting])).2.le
  have := h1.inv.dog
  omega

/-- A ramp that waits begins not before its button has been held for one second, in the direction of the wait. -/
theorem C122_begin (v : Speed) (c : Conf) (x y : LoopI) (e : Option Ev) (a b : Nat) (up : Bool) (hv : v.SaneI)
    (hW : v.W ≤ 25) (h : LoopIWait v c x a b) (hs : LoopIStep c x e y) (ht : InTimeI v y) (hw : x.s.menu.ramp = waiting up)
    (hg : y.s.menu.ramp = going up) : a + 1000 ≤ y.T := by
  obtain ⟨-, u, h1, h2, h3, -⟩ := h.ui hv hW
  obtain ⟨u', m, h4⟩ := h1.step hv hW hs ht
  have ex := h1.rel.agrees.ramp
  have ey := h4.rel.agrees.ramp
  have hn := waiting_not up
  have hR := going_ramping up
  cases (m.ramp h2).2 with
  | stays k => rw [← hg, ey, k.ramp, ← ex, hw, hn.1] at hR; cases hR
  | ends k => rw [← hg, ey, k] at hR; cases hR
  | press _ n _ k =>
    refine absurd ?_ n
    rw [← ex, hw, hn.2.2]
    have := k.1
    rw [← ey, hg] at this
    rw [← this]
    cases up <;> rfl
  | late _ _ _ _ k => omega
  | steps k => rw [← ex, hw, hn.1] at k; cases k

/-- While a button is held, the value moves by whole steps within its limits, also with interrupts inside the work
    functions.  It is never ahead of the times at which the steps are due, and it lags behind at most by two iterations of
    the loop.  The times count from the call in which the ramp began, which lasted from `a` to `b`. -/
theorem C122_value (v : Speed) (c : Conf) (x : LoopI) (a b : Nat) (v0 : Int) (hv : v.SaneI) (hW : v.W ≤ 25)
    (h : LoopIRamp v c x a b v0) : ∃ k inc lo hi, valueRange x.s.menu.state = some (inc, lo, hi) ∧
      valueIn x.s.set.cache x.s.ct.boost x.s.menu.state = some (ramped x.s.menu.ramp v0 inc lo hi k) ∧
      (k = 0 ∨ a + due (k - 1) ≤ x.T) ∧ x.T ≤ b + due k + 2 * v.W := by
  obtain ⟨hR, u, h1, -, t, k, inc, lo, hi, q1, q2, q3, q4, q5, q6, q7, q8, q9, q10⟩ := h.ui hv hW
  have := (h1.time.going (by rw [← h1.rel.agrees.ramp]; exact hR)).2.le
  have := h1.inv.dog
  exact ⟨k, inc, lo, hi, q3, q7, q10.imp_right fun h => by omega, by omega⟩

/-- The limit of the value is reached: after the time of the `n` steps to it and two iterations of the loop. -/
theorem C122_limit (v : Speed) (c : Conf) (x : LoopI) (a b n : Nat) (v0 inc lo hi : Int) (hv : v.SaneI) (hW : v.W ≤ 25)
    (h : LoopIRamp v c x a b v0) (hr : valueRange x.s.menu.state = some (inc, lo, hi)) (hn : b + due n + 2 * v.W < x.T) :
    (x.s.menu.ramp = .up → hi ≤ v0 + n * inc → valueIn x.s.set.cache x.s.ct.boost x.s.menu.state = some hi) ∧
    (x.s.menu.ramp = .down → v0 - n * inc ≤ lo → valueIn x.s.set.cache x.s.ct.boost x.s.menu.state = some lo) := by
  obtain ⟨hR, u, h1, -, t, k, inc', lo', hi', q1, q2, q3, q4, q5, q6, q7, q8, q9, q10⟩ := h.ui hv hW
  rw [hr] at q3
  cases q3
  have := (h1.time.going (by rw [← h1.rel.agrees.ramp]; exact hR)).2.le
  have := h1.inv.dog
  have hk : n ≤ k := by
    refine Classical.byContradiction fun hh => ?_
    have := dueIn_mono (W := v.W) (k := k) (n := n) (by omega)
    rw [dueIn_fast hW, dueIn_fast hW] at this
    omega
  have hmul : (n : Int) * inc ≤ k * inc := Int.mul_le_mul_of_nonneg_right (by omega) (by omega)
  rw [q7]
  constructor
  · intro hr hh
    unfold ramped
    rw [if_pos hr]
    congr 1
    omega
  · intro hr hh
    unfold ramped
    rw [if_neg (by rw [hr]; decide)]
    congr 1
    omega

/-! ### concrete runs -/

/-- the begin of an iteration, up to the buttons; a very slow converter -/
private def head : List CmdI := [.reset, .call .measureWork [], .call .menuWork [], .call .displayWork []]

/-- the end of an iteration -/
private def rest (p n : Nat) : List CmdI :=
  List.replicate p CmdI.pass ++ [.call .settingsWork []] ++ List.replicate n CmdI.tick

/-- an iteration of 10 ms, with `p` ticks before the buttons are read -/
private def turn (pinb : BitVec 8) (p : Nat) : List CmdI := head ++ [.call (.buttonsWork pinb) [p]] ++ rest p (10 - p)

private def turns (pinb : BitVec 8) (p n : Nat) : List CmdI := (List.replicate n (turn pinb p)).flatten

/-- SET is pressed `n` times -/
private def sets (n : Nat) : List CmdI := (List.replicate n (turn 0xFB 0 ++ turn 0xFF 0)).flatten

/-- the step ends the ramp, or changes the boost mode on a tuning screen -/
private def EndsRamp (x : LoopI) (_ : Option Ev) (y : LoopI) : Prop :=
  ¬ (y.s.menu.ramp = x.s.menu.ramp ∧ (Tuning x.s.menu.state = true → y.s.ct.boost = x.s.ct.boost))

private instance (x : LoopI) (e : Option Ev) (y : LoopI) : Decidable (EndsRamp x e y) := by
  unfold EndsRamp; infer_instance

private theorem stretch_ramp {v : Speed} {c : Conf} {x y : LoopI} {a b : Nat} {v0 : Int} (h : LoopIRamp v c x a b v0)
    (hs : StretchI v c EndsRamp x y) : LoopIRamp v c y a b v0 := by
  induction hs with
  | start => exact h
  | step _ hs ht hn ih =>
    have hn := Classical.not_not.mp hn
    exact ih.step hs ht hn.1 hn.2

private theorem stretch_wait {v : Speed} {c : Conf} {x y : LoopI} {a b : Nat} (h : LoopIWait v c x a b)
    (hs : StretchI v c EndsRamp x y) : LoopIWait v c y a b := by
  induction hs with
  | start => exact h
  | step _ hs ht hn ih => exact ih.step hs ht (Classical.not_not.mp hn).1

/-- the commands `l`, then the command `m`, then the commands `l'` with the ramp that `m` leaves -/
private def rampCmdsI (v : Speed) (c : Conf) (l : List CmdI) (m : CmdI) (l' : List CmdI) : Option (LoopI × LoopI × LoopI) :=
  (loopBootI c 0xFF).bind fun x0 => (loopCmdsI v c NeverI x0 l).bind fun x => (loopCmdI v c NeverI x m).bind fun y =>
    (loopCmdsI v c EndsRamp y l').map fun z => (x, y, z)

private theorem rampCmdsI_run {v : Speed} {c : Conf} {l l' : List CmdI} {m : CmdI} {w : LoopI × LoopI × LoopI}
    (hv : ValidEeprom c (shippedEeprom c)) (h : rampCmdsI v c l m l' = some w) :
    LoopIRun v c w.1 ∧ (LoopIStep c w.1 (evOfI m) w.2.1 ∧ InTimeI v w.2.1) ∧ StretchI v c EndsRamp w.2.1 w.2.2 := by
  obtain ⟨x0, h0, h⟩ := Option.bind_eq_some_iff.mp h
  obtain ⟨x, h1, h⟩ := Option.bind_eq_some_iff.mp h
  obtain ⟨y, h2, h⟩ := Option.bind_eq_some_iff.mp h
  obtain ⟨z, h3, rfl⟩ := Option.map_eq_some_iff.mp h
  exact ⟨(loopCmdsI_stretch h1).run (loopBootI_run h0 hv), cmdI_ev h2, loopCmdsI_stretch h3⟩

set_option maxRecDepth 100000 in
/-- `C122_value`, `C122_held`, `C122_start`: plus is held on the screen of the idle temperature; the call in which the change begins
    lasts from 20 to 23 ms.  At 810 ms the temperature, 150 C before, is 6 C higher: the sixth step was due at 798 ms at the
    latest. -/
example : ∃ x, LoopIRamp ⟨10, 2000, 4⟩ .m88p x 20 23 (150 * 64) ∧ Speed.SaneI ⟨10, 2000, 4⟩ ∧ x.T = 810 ∧
    valueRange x.s.menu.state = some (64, 0, 480 * 64) ∧
    valueIn x.s.set.cache x.s.ct.boost x.s.menu.state = some (156 * 64) ∧ x.s.menu.ramp = going true ∧
    ∃ y z, LoopIRun ⟨10, 2000, 4⟩ .m88p y ∧ LoopIStep .m88p y (some (.buttonsWork 0xEF)) z ∧ InTimeI ⟨10, 2000, 4⟩ z ∧
      z.s.menu.ramp = going true ∧ z.s.menu.ramp ≠ y.s.menu.ramp := by
  have h : (rampCmdsI ⟨10, 2000, 4⟩ .m88p (sets 1 ++ head) (.call (.buttonsWork 0xEF) [1, 2])
      (rest 3 7 ++ turns 0xEF 4 78)).any (fun z => z.1.T == 20 && (z.2.1.T == 23 && (z.2.2.T == 810 &&
      (z.2.1.s.menu.ramp == .up && (decide (z.2.1.s.menu.ramp ≠ z.1.s.menu.ramp) &&
      (decide (valueIn z.2.1.s.set.cache z.2.1.s.ct.boost z.2.1.s.menu.state = some (150 * 64)) &&
      (decide (valueRange z.2.2.s.menu.state = some (64, 0, 480 * 64)) &&
      (decide (valueIn z.2.2.s.set.cache z.2.2.s.ct.boost z.2.2.s.menu.state = some (156 * 64)) &&
      z.2.2.s.menu.ramp == .up)))))))) = true := by
    decide +kernel
  match e : rampCmdsI ⟨10, 2000, 4⟩ .m88p (sets 1 ++ head) (.call (.buttonsWork 0xEF) [1, 2])
      (rest 3 7 ++ turns 0xEF 4 78) with
  | none => rw [e] at h; cases h
  | some z =>
    rw [e] at h
    simp only [Option.any_some, Bool.and_eq_true, beq_iff_eq, decide_eq_true_eq] at h
    obtain ⟨h1, h2, h3, h4, h5, h6, h7, h8, h9⟩ := h
    obtain ⟨k1, ⟨k2, k3⟩, k4⟩ := rampCmdsI_run validEeprom_m88p e
    have := stretch_ramp (LoopIRamp.start k1 k2 k3 (by rw [h4]; rfl) h5 h6) k4
    rw [h1, h2] at this
    exact ⟨z.2.2, this, by unfold Speed.SaneI; decide, h3, h7, h8, h9, _, _, k1, k2, k3, h4, h5⟩

set_option maxRecDepth 100000 in
/-- `C122_limit`: minus is held on the screen of kd; the call in which the change begins lasts from 200 to 203 ms.  The
    factor is 13/64; seven steps of 2/64 are made in 825 ms and at 1060 ms it is zero. -/
example : ∃ x, LoopIRamp ⟨10, 2000, 4⟩ .m328p x 200 203 13 ∧ Speed.SaneI ⟨10, 2000, 4⟩ ∧
    203 + due 7 + 2 * 10 < x.T ∧ x.s.menu.ramp = .down ∧ 13 - ((7 : Nat) : Int) * 2 ≤ 0 ∧
    valueRange x.s.menu.state = some (2, 0, 99 * 64) ∧ valueIn x.s.set.cache x.s.ct.boost x.s.menu.state = some 0 := by
  have h : (rampCmdsI ⟨10, 2000, 4⟩ .m328p (sets 10 ++ head) (.call (.buttonsWork 0xF7) [1, 2])
      (rest 3 7 ++ turns 0xF7 4 85)).any (fun z => z.1.T == 200 && (z.2.1.T == 203 && (decide (203 + due 7 + 2 * 10 < z.2.2.T) &&
      (Ramping z.2.1.s.menu.ramp && (decide (z.2.1.s.menu.ramp ≠ z.1.s.menu.ramp) &&
      (decide (valueIn z.2.1.s.set.cache z.2.1.s.ct.boost z.2.1.s.menu.state = some 13) &&
      (decide (valueRange z.2.2.s.menu.state = some (2, 0, 99 * 64)) &&
      (decide (valueIn z.2.2.s.set.cache z.2.2.s.ct.boost z.2.2.s.menu.state = some 0) &&
      z.2.2.s.menu.ramp == .down)))))))) = true := by
    decide +kernel
  match e : rampCmdsI ⟨10, 2000, 4⟩ .m328p (sets 10 ++ head) (.call (.buttonsWork 0xF7) [1, 2])
      (rest 3 7 ++ turns 0xF7 4 85) with
  | none => rw [e] at h; cases h
  | some z =>
    rw [e] at h
    simp only [Option.any_some, Bool.and_eq_true, beq_iff_eq, decide_eq_true_eq] at h
    obtain ⟨h1, h2, h3, h4, h5, h6, h7, h8, h9⟩ := h
    obtain ⟨k1, ⟨k2, k3⟩, k4⟩ := rampCmdsI_run validEeprom_m328p e
    have := stretch_ramp (LoopIRamp.start k1 k2 k3 h4 h5 h6) k4
    rw [h1, h2] at this
    exact ⟨z.2.2, this, by unfold Speed.SaneI; decide, h3, h9, by decide, h7, h8⟩

set_option maxRecDepth 100000 in
/-- `C122_wait`, `C122_begin`: plus is held while the temperature is displayed; the call in which the wait begins lasts
    from 0 to 3 ms.  At 1000 ms the ramp still waits, and a call of the menu's work function that ends at 1005 ms sets it
    going. -/
example : ∃ x y, LoopIWait ⟨10, 2000, 4⟩ .m88p x 0 3 ∧ Speed.SaneI ⟨10, 2000, 4⟩ ∧ x.T = 1000 ∧
    x.s.menu.ramp = waiting true ∧ LoopIStep .m88p x (some .menuWork) y ∧ InTimeI ⟨10, 2000, 4⟩ y ∧
    y.s.menu.ramp = going true ∧ y.T = 1005 := by
  have h : (rampCmdsI ⟨10, 2000, 4⟩ .m88p head (.call (.buttonsWork 0xEF) [1, 2])
      (rest 3 7 ++ turns 0xEF 4 99 ++ [.reset, .call .measureWork []])).any (fun z => z.1.T == 0 && (z.2.1.T == 3 &&
      (z.2.2.T == 1000 && (z.2.1.s.menu.ramp == waiting true && (decide (z.2.1.s.menu.ramp ≠ z.1.s.menu.ramp) &&
      (z.2.2.s.menu.ramp == waiting true && (loopCmdI ⟨10, 2000, 4⟩ .m88p NeverI z.2.2 (.call .menuWork [3, 2])).any
        fun w => w.T == 1005 && w.s.menu.ramp == going true)))))) = true := by
    decide +kernel
  match e : rampCmdsI ⟨10, 2000, 4⟩ .m88p head (.call (.buttonsWork 0xEF) [1, 2])
      (rest 3 7 ++ turns 0xEF 4 99 ++ [.reset, .call .measureWork []]) with
  | none => rw [e] at h; cases h
  | some z =>
    rw [e] at h
    simp only [Option.any_some, Bool.and_eq_true, beq_iff_eq, decide_eq_true_eq] at h
    obtain ⟨h1, h2, h3, h4, h5, h6, h7⟩ := h
    obtain ⟨k1, ⟨k2, k3⟩, k4⟩ := rampCmdsI_run validEeprom_m88p e
    have := stretch_wait (LoopIWait.start k1 k2 k3 h4 h5) k4
    rw [h1, h2] at this
    match e' : loopCmdI ⟨10, 2000, 4⟩ .m88p NeverI z.2.2 (.call .menuWork [3, 2]) with
    | none => rw [e'] at h7; cases h7
    | some w =>
      rw [e'] at h7
      simp only [Option.any_some, Bool.and_eq_true, beq_iff_eq] at h7
      obtain ⟨m1, m2⟩ := cmdI_ev e'
      exact ⟨z.2.2, w, this, by unfold Speed.SaneI; decide, h3, h6, m1, m2, h7.2, h7.1⟩

end Verif.Props
