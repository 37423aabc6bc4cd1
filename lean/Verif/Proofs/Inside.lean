import Verif.Spec.Inside
import Verif.Proofs.Iron
/-
Ticks inside the work functions: apart from the times remembered, a call with ticks inside does what a call without
them does.
-/
namespace Verif
open Spec

theorem toU16_rng (x : Int) : 0 ≤ toU16 x ∧ toU16 x ≤ 65535 := by unfold toU16; omega

theorem apart_refl (n : Nat) (x : Int) : Apart n x x := ⟨0, by omega, by omega, by omega⟩

/-- The times of the state `a` with ticks inside and those (`τ`) of the state without: `g` are the ticks still to come,
    `N` bounds all of them.  `Q` and `B` tell more about the times of ramp and iron button. -/
structure Close (N : Nat) (Q : Int → Int → Int → Int → Int → Prop) (B : Int → Int → Int → Prop) (g : List Nat) (a : Sys)
    (τ : Times) : Prop where
  now : ∃ k : Nat, (a.now - τ.now - k) % 65536 = 0 ∧ k + g.sum = N
  rng : 0 ≤ τ.now ∧ τ.now ≤ 65535 → 0 ≤ a.now ∧ a.now ≤ 65535
  store : Apart N a.set.storeTimer τ.store
  avg : Apart N a.meas.avgTimer τ.avg
  plaus0 : Apart N a.meas.chan[0].timer τ.plaus0
  plaus1 : Apart N a.meas.chan[1].timer τ.plaus1
  curr : Apart N a.cc.timer τ.curr
  iron : Apart N a.ct.biTimer τ.iron
  temp : Apart N a.ct.dtTimer τ.temp
  timeout : Apart N a.menu.timeout τ.timeout
  ramp : Apart N a.menu.rampTimer τ.ramp
  pre : Apart N a.menu.rampPreTimer τ.pre
  debounce : Apart N a.btn.debounce τ.debounce
  mux : Apart N a.disp.muxTimer τ.mux
  q : Q a.menu.rampTimer τ.ramp a.menu.rampPreTimer τ.pre τ.now
  b : B a.ct.biTimer τ.iron τ.now

variable {N : Nat} {Q : Int → Int → Int → Int → Int → Prop} {B : Int → Int → Int → Prop} {g : List Nat} {a : Sys} {τ : Times}
  {c : Conf} {n0 : Int}

/-- nothing is told about the ramp, only the instant of the call -/
abbrev AtQ (n0 : Int) : Int → Int → Int → Int → Int → Prop := fun _ _ _ _ n => n = n0
/-- nothing is told about the iron button -/
abbrev AnyB : Int → Int → Int → Prop := fun _ _ _ => True

theorem Close.nowApart (h : Close N Q B g a τ) : Apart N a.now τ.now := by
  obtain ⟨k, e, hk⟩ := h.now
  exact ⟨k, by omega, by omega, e⟩

theorem Close.armApart (h : Close N Q B g a τ) (ms : Int) : Apart N (toU16 (a.now + ms)) (toU16 (τ.now + ms)) := by
  obtain ⟨k, e, hk⟩ := h.now
  exact ⟨k, by omega, by omega, by unfold toU16; omega⟩

theorem apart_add {n : Nat} {x y : Int} (h : Apart n x y) (ms : Int) : Apart n (toU16 (x + ms)) (toU16 (y + ms)) := by
  obtain ⟨k, h1, h2, h3⟩ := h
  exact ⟨k, h1, h2, by unfold toU16; omega⟩

/-- the computation with ticks does what the other one does, and the times remain close -/
def Sim (N : Nat) (Q : Int → Int → Int → Int → Int → Prop) (B : Int → Int → Int → Prop) (x : TM Sys) (y : Option Sys)
    (g : List Nat) : Prop :=
  (x g = none ∧ y = none) ∨ ∃ a' g' τ', x g = some (a', g') ∧ y = some (timeSet τ' a') ∧ Close N Q B g' a' τ'

theorem Sim.pure (h : Close N Q B g a τ) : Sim N Q B (Pure.pure a) (some (timeSet τ a)) g :=
  .inr ⟨a, g, τ, rfl, rfl, h⟩

theorem Sim.fail : Sim N Q B failure none g := .inl ⟨rfl, rfl⟩

theorem Sim.bind {Q' B'} {x : TM Sys} {y : Option Sys} {f : Sys → TM Sys} {f' : Sys → Option Sys}
    (h : Sim N Q B x y g)
    (hf : ∀ a' g' τ', x g = some (a', g') → Close N Q B g' a' τ' → Sim N Q' B' (f a') (f' (timeSet τ' a')) g') :
    Sim N Q' B' (x >>= f) (y.bind f') g := by
  rcases h with ⟨hx, hy⟩ | ⟨a', g', τ', hx, hy, hc⟩
  · refine .inl ⟨?_, by rw [hy]; rfl⟩
    show (x g).bind _ = none
    rw [hx]; rfl
  · have e : (x >>= f) g = f a' g' := by
      show (x g).bind (fun p => f p.1 p.2) = _
      rw [hx]; rfl
    have := hf a' g' τ' hx hc
    unfold Sim at this ⊢
    rw [e, hy]
    exact this

theorem Sim.bindV {α : Type} {o : Option α} {f : α → TM Sys} {f' : α → Option Sys}
    (hf : ∀ r, o = some r → Sim N Q B (f r) (f' r) g) : Sim N Q B (liftM o >>= f) (o.bind f') g := by
  cases o with
  | none => exact .inl ⟨rfl, rfl⟩
  | some r => exact hf r rfl

theorem Sim.someV {α : Type} {r : α} {f : α → TM Sys} {y : Option Sys} (h : Sim N Q B (f r) y g) :
    Sim N Q B (liftM (some r) >>= f) y g := h

theorem Sim.pureB {α : Type} {r : α} {f : α → TM Sys} {y : Option Sys} (h : Sim N Q B (f r) y g) :
    Sim N Q B (Pure.pure r >>= f) y g := h

theorem Sim.lift {o y : Option Sys} (h : (o = none ∧ y = none) ∨ ∃ a' τ', o = some a' ∧ y = some (timeSet τ' a') ∧
    Close N Q B g a' τ') : Sim N Q B (liftM o) y g := by
  rcases h with ⟨h1, h2⟩ | ⟨a', τ', h1, h2, h3⟩
  · exact .inl ⟨by rw [h1]; rfl, h2⟩
  · exact .inr ⟨a', g, τ', by rw [h1]; rfl, h2, h3⟩

theorem Sim.tick {Q' B'} {y : Option Sys} {f : Sys → TM Sys} (h : Close N Q B g a τ)
    (hf : ∀ n, n = toU16 (a.now + g.headD 0) → Close N Q B g.tail { a with now := n } τ →
      Sim N Q' B' (f { a with now := n }) y g.tail) :
    Sim N Q' B' (tickIn a >>= f) y g := by
  obtain ⟨k, e, hk⟩ := h.now
  refine hf _ rfl { h with now := ⟨k + g.headD 0, ?_, ?_⟩, rng := fun _ => toU16_rng _ }
  · show (toU16 (a.now + g.headD 0) - τ.now - ((k + g.headD 0 : Nat) : Int)) % 65536 = 0
    unfold toU16; omega
  · cases g <;> simp at * <;> omega

theorem Sim.ite {P : Prop} [Decidable P] {x x' : TM Sys} {y y' : Option Sys} (h : P → Sim N Q B x y g)
    (h' : ¬ P → Sim N Q B x' y' g) : Sim N Q B (if P then x else x') (if P then y else y') g := by
  by_cases hp : P
  · rw [if_pos hp, if_pos hp]; exact h hp
  · rw [if_neg hp, if_neg hp]; exact h' hp

theorem Close.any (h : Close N Q B g a τ) (hn : τ.now = n0) : Close N (AtQ n0) B g a τ := { h with q := hn }

/-! ### settings, controllers -/

theorem sysStore_in (h : Close N Q B g a τ) : Sim N Q B (sysStoreT a) (sysStore (timeSet τ a)) g := by
  unfold sysStoreT
  refine Sim.tick h fun n hn h => Sim.lift (.inr ?_)
  rw [sysStore_eq, sysStore_eq]
  exact ⟨_, { τ with store := toU16 (τ.now + toU16 1000) }, rfl, rfl, { h with store := h.armApart _ }⟩

theorem setBoost_in (h : Close N Q B g a τ) (m : Nat) :
    Sim N Q B (liftM (contrtempSetBoost c a m)) (contrtempSetBoost c (timeSet τ a) m) g := by
  refine Sim.lift ?_
  unfold contrtempSetBoost
  show (_ ∧ (a.set.cache.k[m]?).bind _ = none) ∨ ∃ a' τ', _ ∧ (a.set.cache.k[m]?).bind _ = _ ∧ _
  cases a.set.cache.k[m]? with
  | none => exact .inl ⟨rfl, rfl⟩
  | some k =>
    refine .inr ⟨_, τ, rfl, ?_, ?_⟩
    · simp only [Option.bind_some]
      split <;> rfl
    · simp only []
      split <;> exact { h with }

theorem updateSetpoint_in (h : Close N Q B g a τ) :
    Sim N Q B (liftM (contrtempUpdateSetpoint a)) (contrtempUpdateSetpoint (timeSet τ a)) g := by
  refine Sim.lift ?_
  unfold contrtempUpdateSetpoint
  show (_ ∧ (a.set.cache.presetsGet).bind _ = none) ∨ ∃ a' τ', _ ∧ (a.set.cache.presetsGet).bind _ = _ ∧ _
  cases a.set.cache.presetsGet with
  | none => exact .inl ⟨rfl, rfl⟩
  | some k => exact .inr ⟨_, τ, rfl, rfl, { h with }⟩

theorem setIdleSetpoint_in (h : Close N Q B g a τ) (w : Int) :
    Sim N Q B (contrtempSetIdleSetpointT c a w) (contrtempSetIdleSetpoint c (timeSet τ a) w) g := by
  unfold contrtempSetIdleSetpointT contrtempSetIdleSetpoint
  refine Sim.ite (fun _ => ?_) fun _ => Sim.pure h
  have h1 : Close N Q B g (setCache a { a.set.cache with idleSp := w }) τ := { h with }
  exact Sim.bind (updateSetpoint_in h1) fun _ _ _ _ h => sysStore_in h

theorem setEnabled_in (h : Close N Q B g a τ) (en : Bool) :
    Sim N Q B (contrtempSetEnabledT c a en) (contrtempSetEnabled c (timeSet τ a) en) g := by
  unfold contrtempSetEnabledT contrtempSetEnabled
  refine Sim.ite (P := a.ct.enabled ≠ en) (fun _ => ?_) fun _ => Sim.pure h
  unfold contrtempDoSetEnabledT
  refine Sim.tick h fun n hn h => ?_
  unfold contrtempDoSetEnabled
  let a1 : Sys := { a with now := n, ct := { a.ct with enabled := en, pid := pidReset a.ct.pid, dtTimer := timerSetNow n } }
  have h1 : Close N Q B g.tail a1 { τ with temp := τ.now } := { h with temp := h.nowApart }
  refine Sim.lift ?_
  rcases setBoost_in (c := c) h1 0 with ⟨hx, hy⟩ | ⟨a', g', τ', hx, hy, hc⟩
  · have hx' : contrtempSetBoost c a1 0 = none := by
      revert hx
      cases contrtempSetBoost c a1 0 with
      | none => exact fun _ => rfl
      | some v => exact fun hh => by cases hh
    exact .inl ⟨by show (contrtempSetBoost c a1 0).bind _ = none; rw [hx']; rfl,
      by show (contrtempSetBoost c (timeSet { τ with temp := τ.now } a1) 0).bind _ = none; rw [hy]; rfl⟩
  · have hx' : contrtempSetBoost c a1 0 = some a' ∧ g' = g.tail := by
      revert hx
      cases contrtempSetBoost c a1 0 with
      | none => exact fun hh => by cases hh
      | some v => exact fun hh => by cases hh; exact ⟨rfl, rfl⟩
    obtain ⟨hx', e⟩ := hx'
    subst e
    refine .inr ⟨contrcurrSetSetpoint a' CURR_NEGLIM, τ', ?_, ?_, { hc with }⟩
    · show (contrtempSetBoost c a1 0).bind _ = _
      rw [hx']; rfl
    · show (contrtempSetBoost c (timeSet { τ with temp := τ.now } a1) 0).bind _ = _
      rw [hy]; rfl

theorem presetsStore_in (h : Close N Q B g a τ) : Sim N Q B (presetsStoreT a) (presetsStore (timeSet τ a)) g := by
  unfold presetsStoreT presetsStore
  refine Sim.bind (sysStore_in h) fun _ _ _ _ h => ?_
  refine Sim.bind (updateSetpoint_in h) fun a' _ τ' _ h => ?_
  have h1 : Close N Q B _ (menuRequestUpdate a') τ' := { h with }
  exact Sim.pure h1

theorem presetsSetActive_in (h : Close N Q B g a τ) (v : Int) :
    Sim N Q B (presetsSetActiveT a v) (presetsSetActive (timeSet τ a) v) g := by
  unfold presetsSetActiveT presetsSetActive
  refine Sim.bindV (o := a.set.cache.presetsSet v) fun x _ => ?_
  have h1 : Close N Q B g (setCache a x) τ := { h with }
  exact presetsStore_in h1

theorem adjustSet_in (h : Close N Q B g a τ) (v : Int) :
    Sim N Q B (meastempAdjustSetT c a v) (meastempAdjustSet c (timeSet τ a) v) g := by
  unfold meastempAdjustSetT meastempAdjustSet
  refine Sim.ite (fun hc => ?_) fun _ => Sim.pure h
  have h1 : Close N Q B g (setCache (measureAdjustSet c a v) { (measureAdjustSet c a v).set.cache with adj := v }) τ := by
    unfold measureAdjustSet
    rw [if_pos hc]
    exact { h with plaus0 := by simpa [setCache] using h.plaus0, plaus1 := by simpa [setCache] using h.plaus1 }
  have e : setCache (measureAdjustSet c (timeSet τ a) v) { (measureAdjustSet c (timeSet τ a) v).set.cache with adj := v } =
      timeSet τ (setCache (measureAdjustSet c a v) { (measureAdjustSet c a v).set.cache with adj := v }) := by
    unfold measureAdjustSet
    rw [if_pos hc, if_pos hc]
    simp [setCache, timeSet]
  simp only [e]
  refine Sim.bind (sysStore_in h1) fun a' _ τ' _ h => ?_
  have h1 : Close N Q B _ (menuRequestUpdate a') τ' := { h with }
  exact Sim.pure h1

/-! ### display -/

theorem initFrom_mux (x : Int) : ∀ (n i : Nat) (p : Ports) (d : Display),
    initFrom p { d with muxTimer := x } n i = (initFrom p d n i).map fun r => (r.1, { r.2 with muxTimer := x }) := by
  intro n
  induction n with
  | zero => intro i p d; rfl
  | succ n ih =>
    intro i p d
    unfold initFrom
    by_cases hi : i < 4
    · rw [dif_pos hi, dif_pos hi]
      show (ssegInit p _).bind _ = ((ssegInit p _).bind _).map _
      cases ssegInit p { d.digit[i].sseg with iomap := some digitIomaps[i] } with
      | none => rfl
      | some r => exact ih (i + 1) r.1 { d with digit := d.digit.set i { d.digit[i] with sseg := r.2 } }
    · rw [dif_neg hi, dif_neg hi]; rfl

theorem exitFrom_mux (x : Int) : ∀ (n i : Nat) (p : Ports) (d : Display),
    exitFrom p { d with muxTimer := x } n i = exitFrom p d n i := by
  intro n
  induction n with
  | zero => intro i p d; rfl
  | succ n ih =>
    intro i p d
    unfold exitFrom
    by_cases hi : i < 4
    · rw [dif_pos hi, dif_pos hi]
      show (ssegExit p _).bind _ = (ssegExit p _).bind _
      cases ssegExit p d.digit[i].sseg with
      | none => rfl
      | some r => exact ih (i + 1) r d
    · rw [dif_neg hi, dif_neg hi]

theorem showFrom_mux (x : Int) : ∀ (n i : Nat) (t : List (Option (BitVec 8))) (d : Display),
    showFrom { d with muxTimer := x } t n i = (showFrom d t n i).map fun r => { r with muxTimer := x } := by
  intro n
  induction n with
  | zero => intro i p d; rfl
  | succ n ih =>
    intro i t d
    unfold showFrom
    by_cases hi : i < 4
    · rw [dif_pos hi, dif_pos hi]
      show (nextGlyph d.digit[i] t).bind _ = ((nextGlyph d.digit[i] t).bind _).map _
      cases nextGlyph d.digit[i] t with
      | none => rfl
      | some r =>
        show (ssegDigitSet d.digit[i].sseg r.1).bind _ = ((ssegDigitSet d.digit[i].sseg r.1).bind _).map _
        cases ssegDigitSet d.digit[i].sseg r.1 with
        | none => rfl
        | some z => exact ih (i + 1) r.2 { d with digit := d.digit.set i { d.digit[i] with sseg := z } }
    · rw [dif_neg hi, dif_neg hi]; rfl

theorem showFrom_mux' : ∀ (n i : Nat) (t : List (Option (BitVec 8))) (d r : Display), showFrom d t n i = some r →
    r.muxTimer = d.muxTimer := by
  intro n
  induction n with
  | zero => intro i t d r e; cases e; rfl
  | succ n ih =>
    intro i t d r e
    unfold showFrom at e
    by_cases hi : i < 4
    · rw [dif_pos hi] at e
      obtain ⟨x, _, e⟩ := Option.bind_eq_some_iff.mp e
      obtain ⟨y, _, e⟩ := Option.bind_eq_some_iff.mp e
      have := ih _ _ _ _ e
      exact this
    · rw [dif_neg hi] at e; cases e

theorem displayEnable_in (n n' x : Int) (p : Ports) (d : Display) (en : Bool) :
    (displayEnable n p d en = none ∧ displayEnable n' p { d with muxTimer := x } en = none) ∨
    ∃ p' d', displayEnable n p d en = some (p', d') ∧
      ((d'.muxTimer = d.muxTimer ∧ displayEnable n' p { d with muxTimer := x } en = some (p', { d' with muxTimer := x })) ∨
      (d'.muxTimer = n ∧ displayEnable n' p { d with muxTimer := x } en = some (p', { d' with muxTimer := n' }))) := by
  unfold displayEnable
  by_cases he : en = d.enabled
  · rw [if_pos he, if_pos (show en = ({ d with muxTimer := x } : Display).enabled from he)]
    exact .inr ⟨p, d, rfl, .inl ⟨rfl, rfl⟩⟩
  · rw [if_neg he, if_neg (show ¬ en = ({ d with muxTimer := x } : Display).enabled from he)]
    cases en with
    | true =>
      simp only [if_true]
      have e := initFrom_mux x 4 0 p { d with enabled := true }
      have e' : initFrom p { d with enabled := true, muxTimer := x } 4 0 = _ := e
      rw [e']
      cases initFrom p { d with enabled := true } 4 0 with
      | none => exact .inl ⟨rfl, rfl⟩
      | some r => exact .inr ⟨r.1, { r.2 with muxTimer := n }, rfl, .inr ⟨rfl, rfl⟩⟩
    | false =>
      have e := exitFrom_mux x 4 0 p { d with enabled := false }
      have e' : exitFrom p { d with enabled := false, muxTimer := x } 4 0 = _ := e
      simp only [Bool.false_eq_true, if_false]
      rw [e']
      cases exitFrom p { d with enabled := false } 4 0 with
      | none => exact .inl ⟨rfl, rfl⟩
      | some r => exact .inr ⟨r, { d with enabled := false }, rfl, .inl ⟨rfl, rfl⟩⟩

theorem debugEnable_in (h : Close N Q B g a τ) (en : Bool) :
    Sim N Q B (debugEnableT c a en) (debugEnable c (timeSet τ a) en) g := by
  unfold debugEnableT
  refine Sim.tick h fun n hn h => Sim.lift ?_
  unfold debugEnable
  by_cases hc : c.debug = true
  · rw [if_pos hc, if_pos hc]
    show (((displayEnable n a.ports a.disp !en).bind _) = none ∧
      ((displayEnable τ.now a.ports { a.disp with muxTimer := τ.mux } !en).bind _) = none) ∨
      ∃ a' τ', ((displayEnable n a.ports a.disp !en).bind _) = some a' ∧
      ((displayEnable τ.now a.ports { a.disp with muxTimer := τ.mux } !en).bind _) = some (timeSet τ' a') ∧ _
    rcases displayEnable_in n τ.now τ.mux a.ports a.disp (!en) with ⟨e, e'⟩ | ⟨p', d', e, ⟨hm, e'⟩ | ⟨hm, e'⟩⟩
    · rw [e, e']; exact .inl ⟨rfl, rfl⟩
    · rw [e, e']
      refine .inr ⟨_, τ, rfl, rfl, { h with mux := ?_ }⟩
      show Apart N d'.muxTimer τ.mux
      rw [hm]; exact h.mux
    · rw [e, e']
      refine .inr ⟨_, { τ with mux := τ.now }, rfl, rfl, { h with mux := ?_ }⟩
      show Apart N d'.muxTimer τ.now
      rw [hm]; exact h.nowApart
  · rw [if_neg hc, if_neg hc]
    exact .inr ⟨_, τ, rfl, rfl, h⟩

theorem menuRefresh_in (h : Close N Q B g a τ) :
    Sim N Q B (liftM (menuRefresh c a)) (menuRefresh c (timeSet τ a)) g := by
  refine Sim.lift ?_
  unfold menuRefresh
  by_cases hu : a.menu.updReq = true
  · rw [if_pos hu, if_pos (show (timeSet τ a).menu.updReq = true from hu)]
    unfold menuUpdateDisplay
    show ((menuText c { a with menu := { a.menu with updReq := false } }).bind _ = none ∧
      (menuText c { a with menu := { a.menu with updReq := false } }).bind _ = none) ∨
      ∃ a' τ', (menuText c { a with menu := { a.menu with updReq := false } }).bind _ = some a' ∧
      (menuText c { a with menu := { a.menu with updReq := false } }).bind _ = some (timeSet τ' a') ∧ _
    cases menuText c { a with menu := { a.menu with updReq := false } } with
    | none => exact .inl ⟨rfl, rfl⟩
    | some x =>
      let d : Display := { a.disp with digit := a.disp.digit.set 2 { a.disp.digit[2] with
        dpForce := true, dpOn := if x.2 then a.menu.dispHeating else false } }
      show ((displayShow d (x.1.map (Option.map (BitVec.ofNat 8)))).bind _ = none ∧
        (displayShow { d with muxTimer := τ.mux } (x.1.map (Option.map (BitVec.ofNat 8)))).bind _ = none) ∨
        ∃ a' τ', (displayShow d (x.1.map (Option.map (BitVec.ofNat 8)))).bind _ = some a' ∧
        (displayShow { d with muxTimer := τ.mux } (x.1.map (Option.map (BitVec.ofNat 8)))).bind _ =
          some (timeSet τ' a') ∧ _
      unfold displayShow
      rw [showFrom_mux]
      cases hd : showFrom d (x.1.map (Option.map (BitVec.ofNat 8))) 4 0 with
      | none => exact .inl ⟨rfl, rfl⟩
      | some d' =>
        refine .inr ⟨_, τ, rfl, rfl, { h with mux := ?_ }⟩
        show Apart N d'.muxTimer τ.mux
        rw [showFrom_mux' _ _ _ _ _ hd]
        exact h.mux
  · rw [if_neg hu, if_neg (show ¬ (timeSet τ a).menu.updReq = true from hu)]
    exact .inr ⟨_, τ, rfl, rfl, h⟩

/-! ### menu -/

theorem menuArm_in (h : Close N Q B g a τ) {ms : Int} (h0 : 0 ≤ ms) (h1 : ms ≤ 32767) :
    Sim N Q B (menuArmT a ms) (menuArm (timeSet τ a) ms) g := by
  unfold menuArmT
  refine Sim.tick h fun n hn h => Sim.lift (.inr ?_)
  unfold menuArm
  show ∃ a' τ', (timerArm n ms).bind _ = some a' ∧ (timerArm τ.now ms).bind _ = some (timeSet τ' a') ∧ _
  rw [timerArm_eq _ h0 h1, timerArm_eq _ h0 h1]
  exact ⟨_, { τ with timeout := toU16 (τ.now + toU16 ms) }, rfl, rfl, { h with timeout := h.armApart _ }⟩

theorem menuEnter_in (h : Close N Q B g a τ) (m : MenuState) :
    Sim N Q B (menuEnterT c a m) (menuEnter c (timeSet τ a) m) g := by
  cases m <;> unfold menuEnterT menuEnter <;> first
    | exact Sim.pure h
    | exact menuArm_in h (by decide) (by decide)
    | exact setEnabled_in h _
    | exact Sim.ite (fun _ => Sim.pure h) fun _ => setEnabled_in h _
    | exact Sim.ite (fun _ => Sim.pure h) fun _ =>
        Sim.bind (menuArm_in h (by decide) (by decide)) fun _ _ _ _ h => setEnabled_in h _

theorem menuSetState_in (h : Close N Q B g a τ) (m : MenuState) :
    Sim N Q B (menuSetStateT c a m) (menuSetState c (timeSet τ a) m) g := by
  unfold menuSetStateT menuSetState
  refine Sim.ite (P := a.menu.state = m) (fun _ => Sim.pure h) fun _ => ?_
  have h1 : Close N Q B g { a with menu := { a.menu with state := m } } τ := { h with }
  refine Sim.bind (menuEnter_in h1 m) fun a' _ τ' _ h => ?_
  have h1 : Close N Q B _ (menuRequestUpdate a') τ' := { h with }
  exact Sim.pure h1

theorem doRampK_in (h : Close N Q B g a τ) (get : PidK → Int) (put : PidK → Int → PidK) (inc hi : Int) (up : Bool) :
    Sim N Q B (doRampKT c a get put inc hi up) (doRampK c (timeSet τ a) get put inc hi up) g := by
  unfold doRampKT doRampK
  by_cases hb : a.ct.boost < 3
  · simp only []
    rw [dif_pos hb, dif_pos (show (timeSet τ a).ct.boost < 3 from hb)]
    have hr : ∀ step : Int, Sim N Q B (liftM (fixptAddLimited (get a.set.cache.k[a.ct.boost]) step 0 hi) >>= fun v =>
          sysStoreT (setCache a { a.set.cache with
            k := a.set.cache.k.set a.ct.boost (put a.set.cache.k[a.ct.boost] v) }) >>= fun s =>
              liftM (contrtempUpdatePidConfig c s))
        ((fixptAddLimited (get a.set.cache.k[a.ct.boost]) step 0 hi).bind fun v =>
          (sysStore (setCache (timeSet τ a) { a.set.cache with
            k := a.set.cache.k.set a.ct.boost (put a.set.cache.k[a.ct.boost] v) })).bind fun s =>
              contrtempUpdatePidConfig c s) g := by
      intro step
      refine Sim.bindV fun v _ => ?_
      have h1 : Close N Q B g (setCache a { a.set.cache with
            k := a.set.cache.k.set a.ct.boost (put a.set.cache.k[a.ct.boost] v) }) τ := { h with }
      exact Sim.bind (sysStore_in h1) fun _ _ _ _ h => setBoost_in h _
    cases up with
    | true => exact hr inc
    | false => exact Sim.bindV (o := fixptNeg inc) fun st _ => hr st
  · simp only []
    rw [dif_neg hb, dif_neg (show ¬ (timeSet τ a).ct.boost < 3 from hb)]
    exact Sim.fail

theorem rampHandler_in (h : Close N Q B g a τ) (r : RampHandler) (up : Bool) :
    Sim N Q B (rampHandlerT c a r up) (rampHandler c (timeSet τ a) r up) g := by
  cases r <;> unfold rampHandlerT rampHandler <;> simp only []
  · refine Sim.bindV (o := a.set.cache.presetsGet) fun sp _ => Sim.bindV fun sp _ => ?_
    exact Sim.bind (presetsSetActive_in h _) fun _ _ _ _ h => menuSetState_in h _
  · exact Sim.bindV (o := doRampTemp a.set.cache.idleSp up 0 30720) fun sp _ => setIdleSetpoint_in h _
  · exact Sim.bindV (o := doRampTemp (measureAdjustGet c a) up (-6336) 6336) fun v _ => adjustSet_in h _
  · exact doRampK_in h ..
  · exact doRampK_in h ..
  · exact doRampK_in h ..

theorem startRamping_in (h : Close N (AtQ n0) B g a τ) (up pre : Bool) (r : Option RampHandler) :
    Sim N (AtQ n0) B (startRampingT a up pre r) (startRamping (timeSet τ a) up pre r) g := by
  unfold startRampingT startRamping
  cases pre with
  | true =>
    simp only [if_true]
    refine Sim.tick h fun n hn h => ?_
    show Sim N (AtQ n0) B (liftM (timerArm n 1000) >>= fun t => _) ((timerArm τ.now 1000).bind fun t => _) g.tail
    rw [timerArm_eq _ (by decide) (by decide), timerArm_eq _ (by decide) (by decide)]
    let a1 : Sys := { a with now := n, menu := { a.menu with
      ramp := if up then .preUp else .preDown, rampPreTimer := toU16 (n + toU16 1000) } }
    have h1 : Close N (AtQ n0) B g.tail a1 { τ with pre := toU16 (τ.now + toU16 1000) } := { h with pre := h.armApart _ }
    refine Sim.someV (Sim.pureB ?_)
    refine Sim.tick (a := a1) h1 fun n' hn' h => ?_
    exact .inr ⟨_, _, { τ with pre := toU16 (τ.now + toU16 1000), ramp := τ.now }, rfl, rfl,
      { h with ramp := h.nowApart, q := h.q }⟩
  | false =>
    simp only [Bool.false_eq_true, if_false]
    let a1 : Sys := { a with menu := { a.menu with ramp := if up then .up else .down } }
    have h1 : Close N (AtQ n0) B g a1 τ := { h with }
    refine Sim.pureB ?_
    refine Sim.tick (a := a1) h1 fun n' hn' h => ?_
    exact .inr ⟨_, _, { τ with ramp := τ.now }, rfl, rfl, { h with ramp := h.nowApart, q := h.q }⟩

theorem startRampingButton_in (h : Close N (AtQ n0) B g a τ) (b : Button) (e : BState) (pre : Bool) (r : RampHandler) :
    Sim N (AtQ n0) B (startRampingButtonT a b e pre r) (startRampingButton (timeSet τ a) b e pre r) g := by
  unfold startRampingButtonT startRampingButton
  exact Sim.ite (fun _ => Sim.ite (fun _ => startRamping_in h ..) fun _ =>
    Sim.ite (fun _ => startRamping_in h ..) fun _ => Sim.pure h) fun _ => Sim.pure h

theorem menuButtonScreen_in (h : Close N (AtQ n0) B g a τ) (b : Button) (e : BState) :
    Sim N (AtQ n0) B (menuButtonScreenT c a b e) (menuButtonScreen c (timeSet τ a) b e) g := by
  unfold menuButtonScreenT menuButtonScreen
  rw [show (timeSet τ a).menu.state = a.menu.state from rfl]
  have hn : ∀ {a g τ}, Close N (AtQ n0) B g a τ → Sim N (AtQ n0) B (presetsStoreT (setCache a a.set.cache.presetsNext))
      (presetsNext (timeSet τ a)) g := by
    intro a g τ h
    have h1 : Close N (AtQ n0) B g (setCache a a.set.cache.presetsNext) τ := { h with }
    exact presetsStore_in h1
  have hp : ∀ {a g τ}, Close N (AtQ n0) B g a τ → Sim N (AtQ n0) B (presetsStoreT (setCache a a.set.cache.presetsPrev))
      (presetsPrev (timeSet τ a)) g := by
    intro a g τ h
    have h1 : Close N (AtQ n0) B g (setCache a a.set.cache.presetsPrev) τ := { h with }
    exact presetsStore_in h1
  have hu : ∀ {a g τ}, Close N (AtQ n0) B g a τ → Sim N (AtQ n0) B (do let s ← debugEnableT c a false; return menuRequestUpdate s)
      (do let s ← debugEnable c (timeSet τ a) false; return menuRequestUpdate s) g := by
    intro a g τ h
    refine Sim.bind (debugEnable_in h _) fun a' _ τ' _ h => ?_
    have h1 : Close N (AtQ n0) B _ (menuRequestUpdate a') τ' := { h with }
    exact Sim.pure h1
  cases a.menu.state <;> simp only []
  · exact Sim.bind (startRampingButton_in h ..) fun _ _ _ _ h => Sim.ite (fun _ => menuSetState_in h _) fun _ => Sim.pure h
  · refine Sim.bind (menuArm_in h (by decide) (by decide)) fun _ _ _ _ h => ?_
    refine Sim.ite (fun _ => Sim.ite (fun _ => ?_) fun _ => ?_) fun _ => startRampingButton_in h ..
    · exact Sim.bind (hn h) fun _ _ _ _ h => Sim.ite (fun _ =>
        Sim.bind (hp h) fun _ _ _ _ h => startRampingButton_in h ..) fun _ => startRampingButton_in h ..
    · exact Sim.ite (fun _ => Sim.bind (hp h) fun _ _ _ _ h => startRampingButton_in h ..)
        fun _ => startRampingButton_in h ..
  · exact Sim.bind (menuArm_in h (by decide) (by decide)) fun _ _ _ _ h => startRampingButton_in h ..
  · exact Sim.ite (fun _ => Sim.pure h) fun _ =>
      Sim.bind (menuArm_in h (by decide) (by decide)) fun _ _ _ _ h => startRampingButton_in h ..
  · refine Sim.ite (fun _ => Sim.pure h) fun _ => Sim.ite (fun _ => ?_) fun _ => Sim.pure h
    refine Sim.ite (fun _ => ?_) fun _ => Sim.ite (fun _ => hu h) fun _ => Sim.pure h
    exact Sim.bind (debugEnable_in h _) fun _ _ _ _ h => Sim.ite (fun _ => hu h) fun _ => Sim.pure h
  · exact Sim.pure h
  · exact Sim.ite (fun _ => Sim.pure h) fun _ => startRampingButton_in h ..
  · exact Sim.pure h
  · exact Sim.ite (fun _ => Sim.pure h) fun _ => startRampingButton_in h ..
  · exact Sim.pure h
  · exact Sim.ite (fun _ => Sim.pure h) fun _ => startRampingButton_in h ..
  · exact Sim.pure h
  · exact Sim.ite (fun _ => Sim.pure h) fun _ => startRampingButton_in h ..

theorem menuButton_in (h : Close N (AtQ n0) B g a τ) (b : Button) (e : BState) :
    Sim N (AtQ n0) B (menuButtonT c a b e) (menuButton c (timeSet τ a) b e) g := by
  unfold menuButtonT menuButton
  refine Sim.ite (fun _ => Sim.pure h) fun _ => Sim.bind (menuButtonScreen_in h ..) fun a' g' τ' _ h => ?_
  refine Sim.ite (fun _ => ?_) fun _ => Sim.pure h
  have h1 : Close N (AtQ n0) B g' (stopRamping a') τ' := { h with }
  refine Sim.ite (fun _ => ?_) fun _ => Sim.pure h1
  exact Sim.ite (P := (!(stopRamping a').debugEn) = true) (fun _ => menuSetState_in h1 _) fun _ => Sim.pure h1

/-! ### readings of the timer -/

theorem expired_congr {x y x' y' : Int} (h : (x - y - (x' - y')) % 65536 = 0) : timerExpired x y = timerExpired x' y' := by
  have : toU16 (x - y) = toU16 (x' - y') := by unfold toU16; omega
  unfold timerExpired timerCountSince
  rw [this]

theorem elapsedDt_congr {x y x' y' : Int} (h : (x - y - (x' - y')) % 65536 = 0) : elapsedDt x y = elapsedDt x' y' := by
  have : toU16 (x - y) = toU16 (x' - y') := by unfold toU16; omega
  unfold elapsedDt timerMsSince timerCountSince
  rw [this]

theorem menuTimeouts_in (h : Close N Q B g a τ)
    (ht : (toU16 (a.now + g.headD 0) - a.menu.timeout - (τ.now - τ.timeout)) % 65536 = 0) :
    Sim N Q B (menuTimeoutsT c a) (menuTimeouts c (timeSet τ a)) g := by
  have hs : ∀ {a' g' τ'}, Close N Q B g' a' τ' → Sim N Q B (Pure.pure (stopRamping a')) (some (stopRamping (timeSet τ' a'))) g' := by
    intro a' g' τ' h
    have h1 : Close N Q B g' (stopRamping a') τ' := { h with }
    exact Sim.pure h1
  have hr : ∀ (m : MenuState), a.menu.state = m → Sim N Q B (do
        let s ← tickIn a
        if timerExpired s.now s.menu.timeout then do
          let s ← if s.menu.state = .idletemp then menuSetStateT c s .curtemp
            else menuSetStateT c s (nextMenuState c s.menu.state)
          return stopRamping s
        else return s)
      (if timerExpired (timeSet τ a).now (timeSet τ a).menu.timeout then do
          let s ← if (timeSet τ a).menu.state = .idletemp then menuSetState c (timeSet τ a) .curtemp
            else menuSetNextState c (timeSet τ a)
          return stopRamping s
        else some (timeSet τ a)) g := by
    intro m hm
    refine Sim.tick h fun n hn h => ?_
    subst hn
    have e := expired_congr ht
    rw [show timerExpired (timeSet τ a).now (timeSet τ a).menu.timeout =
      timerExpired (toU16 (a.now + g.headD 0)) a.menu.timeout from e.symm]
    refine Sim.ite (fun _ => ?_) fun _ => Sim.pure h
    exact Sim.ite (P := a.menu.state = .idletemp) (fun _ => Sim.bind (menuSetState_in h _) fun _ _ _ _ h => hs h)
      fun _ => Sim.bind (menuSetState_in h _) fun _ _ _ _ h => hs h
  unfold menuTimeoutsT menuTimeouts
  rw [show (timeSet τ a).menu.state = a.menu.state from rfl]
  cases hm : a.menu.state <;> simp only [] <;> first
    | exact Sim.pure h
    | (have := hr _ hm
       rw [show (timeSet τ a).menu.state = a.menu.state from rfl] at this
       simp only [hm] at this
       exact this)

theorem menuIndicate_in (h : Close N Q B g a τ) :
    menuIndicate (timeSet τ a) = timeSet τ (menuIndicate a) ∧ Close N Q B g (menuIndicate a) τ := by
  have h1 : ∀ t : Sys, (if contrtempIsHeatingUp (timeSet τ t) ≠ (timeSet τ t).menu.dispHeating then
      { timeSet τ t with menu := { (timeSet τ t).menu with dispHeating := contrtempIsHeatingUp (timeSet τ t), updReq := true } }
      else timeSet τ t) = timeSet τ (if contrtempIsHeatingUp t ≠ t.menu.dispHeating then
      { t with menu := { t.menu with dispHeating := contrtempIsHeatingUp t, updReq := true } } else t) := by
    intro t
    by_cases hh : contrtempIsHeatingUp t ≠ t.menu.dispHeating
    · rw [if_pos hh, if_pos (show contrtempIsHeatingUp (timeSet τ t) ≠ (timeSet τ t).menu.dispHeating from hh)]
      rfl
    · rw [if_neg hh, if_neg (show ¬ contrtempIsHeatingUp (timeSet τ t) ≠ (timeSet τ t).menu.dispHeating from hh)]
  have h2 : ∀ t : Sys, Close N Q B g t τ → Close N Q B g (if contrtempIsHeatingUp t ≠ t.menu.dispHeating then
      { t with menu := { t.menu with dispHeating := contrtempIsHeatingUp t, updReq := true } } else t) τ := by
    intro t h
    split
    · exact { h with }
    · exact h
  unfold menuIndicate
  by_cases he : menuError a ≠ a.menu.dispErr
  · rw [if_pos (show menuError (timeSet τ a) ≠ (timeSet τ a).menu.dispErr from he), if_pos he]
    exact ⟨h1 { stopRamping { a with menu := { a.menu with dispErr := menuError a } } with menu :=
      { (stopRamping { a with menu := { a.menu with dispErr := menuError a } }).menu with updReq := true } },
      h2 _ { h with }⟩
  · rw [if_neg (show ¬ menuError (timeSet τ a) ≠ (timeSet τ a).menu.dispErr from he), if_neg he]
    exact ⟨h1 a, h2 a h⟩

theorem menuRamp_in (h : Close N Q B g a τ) (hn : τ.now = n0)
    (hr : (toU16 (a.now + g.headD 0) - a.menu.rampTimer - (τ.now - τ.ramp)) % 65536 = 0)
    (hp : (toU16 (a.now + g.headD 0) - a.menu.rampPreTimer - (τ.now - τ.pre)) % 65536 = 0) :
    Sim N (AtQ n0) B (menuRampT c a) (menuRamp c (timeSet τ a)) g := by
  have h := h.any hn
  unfold menuRampT menuRamp
  rw [show (timeSet τ a).menu.ramp = a.menu.ramp from rfl]
  have e1 := expired_congr hr
  have e2 := expired_congr hp
  cases hm : a.menu.ramp <;> simp only [] <;> first
    | exact Sim.pure h
    | (refine Sim.tick h fun n hn h => ?_
       subst hn
       rw [show timerExpired (timeSet τ a).now (timeSet τ a).menu.rampPreTimer =
         timerExpired (toU16 (a.now + g.headD 0)) a.menu.rampPreTimer from e2.symm]
       simp only [hm]
       exact Sim.ite (fun _ => startRamping_in h ..) fun _ => Sim.pure h)
    | (refine Sim.tick h fun n hn h => ?_
       subst hn
       rw [show timerExpired (timeSet τ a).now (timeSet τ a).menu.rampTimer =
         timerExpired (toU16 (a.now + g.headD 0)) a.menu.rampTimer from e1.symm]
       simp only [hm]
       refine Sim.ite (fun _ => ?_) fun _ => Sim.pure h
       refine Sim.bindV (o := a.menu.handler) fun r _ => Sim.bind (rampHandler_in h ..) fun a' g' τ' _ h => ?_
       show Sim N (AtQ n0) B (liftM (timerAdd a'.menu.rampTimer a'.menu.period) >>= fun t => _)
         ((timerAdd τ'.ramp a'.menu.period).bind fun t => _) g'
       unfold timerAdd
       cases timerMsToCount a'.menu.period with
       | none => exact .inl ⟨rfl, rfl⟩
       | some k =>
         exact .inr ⟨_, _, { τ' with ramp := toU16 (τ'.ramp + toU16 k) }, rfl, rfl,
           { h with ramp := apart_add h.ramp _, q := h.q }⟩)

/-! ### the iron button -/

/-- as `Sim`, for a computation without a reading of the timer -/
def Lk (N : Nat) (Q : Int → Int → Int → Int → Int → Prop) (B : Int → Int → Int → Prop) (g : List Nat)
    (o y : Option Sys) : Prop :=
  (o = none ∧ y = none) ∨ ∃ a' τ', o = some a' ∧ y = some (timeSet τ' a') ∧ Close N Q B g a' τ'

theorem Sim.unlift {o y : Option Sys} (h : Sim N Q B (liftM o) y g) : Lk N Q B g o y := by
  cases o with
  | none =>
    rcases h with ⟨_, hy⟩ | ⟨a', g', τ', hx, hy, hc⟩
    · exact .inl ⟨rfl, hy⟩
    · cases hx
  | some v =>
    rcases h with ⟨hx, hy⟩ | ⟨a', g', τ', hx, hy, hc⟩
    · cases hx
    · cases hx
      exact .inr ⟨_, _, rfl, hy, hc⟩

theorem Lk.bind {Q' B'} {o y : Option Sys} {f f' : Sys → Option Sys} (h : Lk N Q B g o y)
    (hf : ∀ a' τ', o = some a' → Close N Q B g a' τ' → Lk N Q' B' g (f a') (f' (timeSet τ' a'))) :
    Lk N Q' B' g (o.bind f) (y.bind f') := by
  rcases h with ⟨ho, hy⟩ | ⟨a', τ', ho, hy, hc⟩
  · rw [ho, hy]; exact .inl ⟨rfl, rfl⟩
  · rw [hy]
    have := hf a' τ' ho hc
    rw [ho]
    exact this

theorem Lk.pure (h : Close N Q B g a τ) : Lk N Q B g (some a) (some (timeSet τ a)) := .inr ⟨a, τ, rfl, rfl, h⟩

theorem Lk.ite {P : Prop} [Decidable P] {x x' y y' : Option Sys} (h : P → Lk N Q B g x y)
    (h' : ¬ P → Lk N Q B g x' y') : Lk N Q B g (if P then x else x') (if P then y else y') := by
  by_cases hp : P
  · rw [if_pos hp, if_pos hp]; exact h hp
  · rw [if_neg hp, if_neg hp]; exact h' hp

theorem doIdle_in (h : Close N Q B g a τ) (i : Bool) :
    Lk N Q B g (contrtempDoIdle a i) (contrtempDoIdle (timeSet τ a) i) := by
  unfold contrtempDoIdle
  have h1 : Close N Q B g { a with ct := { a.ct with idle := i } } τ := { h with }
  refine Lk.bind (updateSetpoint_in h1).unlift fun a' τ' _ h => ?_
  have h1 : Close N Q B g (menuRequestUpdate a') τ' := { h with }
  exact Lk.pure h1

theorem nextBoost_in (h : Close N Q B g a τ) :
    Lk N Q B g (contrtempNextBoost c a) (contrtempNextBoost c (timeSet τ a)) := (setBoost_in h _).unlift

/-- the part of the handler of the iron button after the start of the timer -/
def ironBody (c : Conf) (i : Bool) (e : BState) (s : Sys) : Option Sys :=
  if s.ct.biLet then
    if i = true ∨ (e = .pressed ∧ timerExpired s.now s.ct.biTimer = true) then do
      let s ← contrtempDoIdle s !i
      return { s with ct := { s.ct with biLet := false } }
    else if e = .negedge then do
      let s ← contrtempNextBoost c s
      return { s with ct := { s.ct with biLet := false } }
    else return s
  else return s

theorem ironBody_in (h : Close N Q B g a τ) (i : Bool) (e : BState)
    (he : i = false → e = .pressed → a.ct.biLet = true →
      timerExpired a.now a.ct.biTimer = timerExpired τ.now τ.iron) :
    Lk N Q B g (ironBody c i e a) (ironBody c i e (timeSet τ a)) := by
  have hl : ∀ {a' τ'}, Close N Q B g a' τ' → Lk N Q B g (some { a' with ct := { a'.ct with biLet := false } })
      (some { timeSet τ' a' with ct := { (timeSet τ' a').ct with biLet := false } }) := by
    intro a' τ' h
    have h1 : Close N Q B g { a' with ct := { a'.ct with biLet := false } } τ' := { h with }
    exact Lk.pure h1
  unfold ironBody
  refine Lk.ite (P := a.ct.biLet = true) (fun hb => ?_) fun _ => Lk.pure h
  have hp : (i = true ∨ (e = .pressed ∧ timerExpired τ.now τ.iron = true)) ↔
      (i = true ∨ (e = .pressed ∧ timerExpired a.now a.ct.biTimer = true)) := by
    cases i with
    | true => simp
    | false =>
      constructor
      · rintro (h1 | ⟨h1, h2⟩)
        · cases h1
        · exact .inr ⟨h1, by rw [he rfl h1 hb]; exact h2⟩
      · rintro (h1 | ⟨h1, h2⟩)
        · cases h1
        · exact .inr ⟨h1, by rw [← he rfl h1 hb]; exact h2⟩
  by_cases hq : i = true ∨ (e = .pressed ∧ timerExpired a.now a.ct.biTimer = true)
  · rw [if_pos hq, if_pos (show i = true ∨ (e = .pressed ∧
      timerExpired (timeSet τ a).now (timeSet τ a).ct.biTimer = true) from hp.mpr hq)]
    exact Lk.bind (doIdle_in h _) fun _ _ _ h => hl h
  · rw [if_neg hq, if_neg (show ¬ (i = true ∨ (e = .pressed ∧
      timerExpired (timeSet τ a).now (timeSet τ a).ct.biTimer = true)) from fun hh => hq (hp.mp hh))]
    exact Lk.ite (fun _ => Lk.bind (nextBoost_in h) fun _ _ _ h => hl h) fun _ => Lk.pure h

theorem contrtempButton_both (hb : c.boost = true) (hi : c.idle = true) (s : Sys) (e : BState) (he : e ≠ .posedge) :
    contrtempButton c s .iron e = ironBody c s.ct.idle e s := by
  unfold contrtempButton ironBody
  rw [hb, hi]
  simp [he]

theorem contrtempButton_press (hb : c.boost = true) (hi : c.idle = true) (s : Sys) :
    contrtempButton c s .iron .posedge =
      ironBody c s.ct.idle .posedge { s with ct := { s.ct with biTimer := toU16 (s.now + toU16 1000), biLet := true } } := by
  unfold contrtempButton ironBody
  rw [hb, hi, timerArm_eq _ (by decide) (by decide)]
  simp

theorem contrtempButton_lk (hc : ¬ (c.boost = true ∧ c.idle = true)) (h : Close N Q B g a τ) (b : Button) (e : BState) :
    Lk N Q B g (contrtempButton c a b e) (contrtempButton c (timeSet τ a) b e) := by
  unfold contrtempButton
  cases hb : c.boost <;> cases hi : c.idle
  · exact Lk.pure h
  · simp only []
    refine Lk.ite (fun _ => Lk.pure h) fun _ => ?_
    exact Lk.ite (P := (if c.idleToggle then (if e = .posedge then !a.ct.idle else a.ct.idle)
        else if e = .negedge then false else if e = .posedge then true else a.ct.idle) ≠ a.ct.idle)
      (fun _ => doIdle_in h _) fun _ => Lk.pure h
  · simp only []
    exact Lk.ite (fun _ => Lk.pure h) fun _ => Lk.ite (fun _ => nextBoost_in h) fun _ => Lk.pure h
  · exact absurd ⟨hb, hi⟩ hc

/-- the timer of the iron button has just been started -/
def Armed (N : Nat) : Int → Int → Int → Prop := fun r ρ n =>
  ρ = toU16 (n + toU16 1000) ∧ ∃ k : Nat, k ≤ N ∧ (r - n - 1000 - k) % 65536 = 0

theorem iron_press_in (hb : c.boost = true) (hi : c.idle = true) (h : Close N Q B g a τ) :
    Sim N Q (Armed N) (contrtempButtonT c a .iron .posedge) (contrtempButton c (timeSet τ a) .iron .posedge) g := by
  unfold contrtempButtonT
  rw [if_pos ⟨hb, hi, rfl, .inl rfl⟩]
  refine Sim.tick h fun n hn h => Sim.lift ?_
  rw [contrtempButton_press hb hi, contrtempButton_press hb hi]
  let a1 : Sys := { a with now := n, ct := { a.ct with biTimer := toU16 (n + toU16 1000), biLet := true } }
  obtain ⟨k, e, hk⟩ := h.now
  have h1 : Close N Q (Armed N) g.tail a1 { τ with iron := toU16 (τ.now + toU16 1000) } :=
    { h with
      iron := h.armApart _
      b := ⟨rfl, k, by omega, by
        show (toU16 (n + toU16 1000) - τ.now - 1000 - k) % 65536 = 0
        have e : (n - τ.now - k) % 65536 = 0 := e
        unfold toU16; omega⟩ }
  exact ironBody_in h1 a.ct.idle .posedge fun _ hh => by cases hh

theorem iron_in (h : Close N Q B g a τ) (e : BState) (he : e = .posedge → ¬ (c.boost = true ∧ c.idle = true))
    (hx : c.boost = true ∧ c.idle = true → e = .pressed → timerExpired (toU16 (a.now + g.headD 0)) a.ct.biTimer = timerExpired τ.now τ.iron) :
    Sim N Q B (contrtempButtonT c a .iron e) (contrtempButton c (timeSet τ a) .iron e) g := by
  unfold contrtempButtonT
  by_cases hc : c.boost = true ∧ c.idle = true
  · have hne : e ≠ .posedge := fun hh => he hh hc
    rw [contrtempButton_both hc.1 hc.2 (timeSet τ a) _ hne]
    split
    · next hif =>
      refine Sim.tick h fun n hn h => Sim.lift ?_
      subst hn
      rw [contrtempButton_both hc.1 hc.2 _ _ hne]
      exact ironBody_in h _ _ fun _ hp _ => hx hc hp
    · next hif =>
      refine Sim.lift ?_
      rw [contrtempButton_both hc.1 hc.2 _ _ hne]
      refine ironBody_in h _ _ fun hi hp hl => absurd ⟨hc.1, hc.2, rfl, .inr ⟨hp, hl, ?_⟩⟩ hif
      have hi : a.ct.idle = false := hi
      rw [hi]; rfl
  · rw [if_neg (fun hh => hc ⟨hh.1, hh.2.1⟩)]
    exact Sim.lift (contrtempButton_lk hc h _ _)

theorem panel_in : ∀ (l : List (Button × BState)) {a : Sys} {g : List Nat} {τ : Times}, (∀ x ∈ l, x.1 ≠ .iron) →
    Close N (AtQ n0) B g a τ →
    Sim N (AtQ n0) B (l.foldlM (callButtonHandlersT c) a) (l.foldlM (callButtonHandlers c) (timeSet τ a)) g := by
  intro l
  induction l with
  | nil => intro a g τ _ h; exact Sim.pure h
  | cons x l ih =>
    intro a g τ hl h
    rw [List.foldlM_cons, List.foldlM_cons]
    have hx : x.1 ≠ .iron := hl x (by simp)
    refine Sim.bind (Q := (AtQ n0)) (B := B) ?_ fun _ _ _ _ h => ih (fun y hy => hl y (by simp [hy])) h
    unfold callButtonHandlersT callButtonHandlers contrtempButtonT
    rw [if_neg (fun hh => hx hh.2.2.1), contrtempButton_other hx, contrtempButton_other hx]
    exact Sim.someV (menuButton_in h ..)

theorem ironCall (s : Sys) (e : BState) : callButtonHandlers c s (.iron, e) = contrtempButton c s .iron e := by
  unfold callButtonHandlers menuButton
  show (contrtempButton c s .iron e).bind _ = _
  cases contrtempButton c s .iron e <;> rfl

theorem ironCallT (s : Sys) (e : BState) : callButtonHandlersT c s (.iron, e) = contrtempButtonT c s .iron e := by
  unfold callButtonHandlersT menuButtonT
  funext g
  show (contrtempButtonT c s .iron e g).bind _ = _
  cases contrtempButtonT c s .iron e g <;> rfl

theorem irons_in (hN : N < 1000) (h : Close N Q B g a τ) (p q : Bool)
    (hx : timerExpired (toU16 (a.now + g.headD 0)) a.ct.biTimer = timerExpired τ.now τ.iron) :
    Sim N Q AnyB (((pressCalls p q).map fun e => (Button.iron, e)).foldlM (callButtonHandlersT c) a)
      (((pressCalls p q).map fun e => (Button.iron, e)).foldlM (callButtonHandlers c) (timeSet τ a)) g := by
  have h : Close N Q AnyB g a τ := { h with b := trivial }
  have one : ∀ e, e ≠ .posedge → Sim N Q AnyB ([(Button.iron, e)].foldlM (callButtonHandlersT c) a)
      ([(Button.iron, e)].foldlM (callButtonHandlers c) (timeSet τ a)) g := by
    intro e he
    rw [List.foldlM_cons, List.foldlM_cons, ironCall, ironCallT]
    exact Sim.bind (iron_in h e (fun hh => absurd hh he) fun _ _ => hx) fun _ _ _ _ h => Sim.pure h
  cases p <;> cases q
  · exact Sim.pure h
  · rw [show pressCalls false true = [.posedge, .pressed] from rfl, List.map_cons, List.map_cons, List.map_nil]
    rw [List.foldlM_cons, List.foldlM_cons, ironCall, ironCallT]
    by_cases hc : c.boost = true ∧ c.idle = true
    · refine Sim.bind (iron_press_in hc.1 hc.2 h) fun a' g' τ' _ h' => ?_
      rw [List.foldlM_cons, List.foldlM_cons, ironCall, ironCallT]
      have hx' : timerExpired (toU16 (a'.now + g'.headD 0)) a'.ct.biTimer = timerExpired τ'.now τ'.iron := by
        obtain ⟨e1, k, hk, e2⟩ := h'.b
        obtain ⟨j, e3, hj⟩ := h'.now
        have hs : g'.headD 0 ≤ g'.sum := by cases g' <;> simp
        rw [e1]
        have t1 : timerExpired τ'.now (toU16 (τ'.now + toU16 1000)) = false := by
          unfold timerExpired timerCountSince
          have : toS16 (toU16 (τ'.now - toU16 (τ'.now + toU16 1000))) = -1000 := by unfold toS16 toU16; omega
          rw [this]; rfl
        have t2 : timerExpired (toU16 (a'.now + g'.headD 0)) a'.ct.biTimer = false := by
          unfold timerExpired timerCountSince
          have : toS16 (toU16 (toU16 (a'.now + g'.headD 0) - a'.ct.biTimer)) < 0 := by unfold toS16 toU16; omega
          exact decide_eq_false (by omega)
        rw [t1, t2]
      have h' : Close N Q AnyB g' a' τ' := { h' with b := trivial }
      exact Sim.bind (iron_in h' .pressed (fun hh => by cases hh) fun _ _ => hx') fun _ _ _ _ h => Sim.pure h
    · refine Sim.bind (iron_in h .posedge (fun _ => hc) fun hh => absurd hh hc) fun a' g' τ' _ h' => ?_
      rw [List.foldlM_cons, List.foldlM_cons, ironCall, ironCallT]
      exact Sim.bind (iron_in h' .pressed (fun hh => by cases hh) fun hh => absurd hh hc) fun _ _ _ _ h => Sim.pure h
  · exact one .negedge (by decide)
  · exact one .pressed (by decide)

end Verif
