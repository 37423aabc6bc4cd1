import Verif.Proofs.StoreIn
import Verif.Proofs.StoreDemo
/-
C110: the settings are stored in time, with interrupts inside the work functions.
-/
namespace Verif.Props
open Spec StoreDemo

private theorem mono {v : Speed} {c : Conf} {P Q : LoopI → Option Ev → LoopI → Prop} {x y : LoopI} {L M : Nat}
    (hPQ : ∀ x e y, Q x e y → P x e y) (h : StretchE v c P x L y M) : StretchE v c Q x L y M := by
  induction h with
  | start => exact .start
  | step _ hs hn ih => exact .step ih hs fun hh => hn (hPQ _ _ _ hh)

private theorem pending {v : Speed} {c : Conf} {x y : LoopI} {L M : Nat} (hr : x.s.set.storeRequest = true)
    (h : StretchE v c (fun x e y => RequestsI x e y ∨ StartsStore x.s y.s) x L y M) : y.s.set.storeRequest = true := by
  induction h with
  | start => exact hr
  | @step y _ _ z _ _ _ hn ih =>
    cases hq : z.s.set.storeRequest with
    | true => rfl
    | false => exact absurd (Or.inr ⟨ih, hq⟩) hn

/-- A store starts only when the one before has finished. -/
theorem C110_one (v : Speed) (c : Conf) (x y : LoopI) (L M : Nat) (e : Option Ev) (hv : v.SaneE) (h : LifeI v c x L)
    (hs : WriterStep v c x L e y M) (hst : StartsStore x.s y.s) : storing x.s.set = false := by
  obtain ⟨r, S, h⟩ := h.inv hv
  obtain ⟨r', S', -, hn⟩ := h.step hv hs
  exact (hn.start hst).2.1

/-- After a change or request a store starts at least 1000 ms later and at most 1000 ms and two watchdog periods later,
    if nothing else is changed or requested until then: when it starts, that time has come, -/
theorem C110_delay (v : Speed) (c : Conf) (x y z w : LoopI) (L M N O : Nat) (e f : Option Ev) (hv : v.SaneE)
    (h : LifeI v c x L) (hs : WriterStep v c x L e y M) (hr : RequestsI x e y) (hq : StretchE v c RequestsI y M z N)
    (hw : WriterStep v c z N f w O) (hst : StartsStore z.s w.s) :
    x.T + 1000 ≤ w.T ∧ w.T ≤ y.T + 1000 + 2 * v.W := by
  obtain ⟨r, S, h⟩ := h.inv hv
  obtain ⟨r1, S1, h1, n1⟩ := h.step hv hs
  obtain ⟨r2, S2, h2, k2, -⟩ := hq.pend hv h1
  obtain ⟨r3, S3, h3, n3⟩ := h2.step hv hw
  obtain ⟨R0, e0, l0⟩ := n1.new hr
  obtain ⟨eS, -, R, eR, l1, l2⟩ := n3.start hst
  have e1 := k2 R eR
  rw [e0] at e1
  cases e1
  have := (h1.timer _ e0).2.2.1
  omega

/-- and until it starts, that time has not passed. -/
theorem C110_begins (v : Speed) (c : Conf) (x y z : LoopI) (L M N : Nat) (e : Option Ev) (hv : v.SaneE)
    (h : LifeI v c x L) (hs : WriterStep v c x L e y M) (hr : RequestsI x e y)
    (hq : StretchE v c (fun x e y => RequestsI x e y ∨ StartsStore x.s y.s) y M z N) :
    z.T ≤ y.T + 1000 + 2 * v.W := by
  obtain ⟨r, S, h⟩ := h.inv hv
  obtain ⟨r1, S1, h1, n1⟩ := h.step hv hs
  obtain ⟨r2, S2, h2, k2, -⟩ := (mono (fun _ _ _ h => Or.inl h) hq).pend hv h1
  obtain ⟨R0, e0, -⟩ := n1.new hr
  have hy : y.s.set.storeRequest = true := by rw [h1.req, e0]; rfl
  have hz := pending hy hq
  rw [h2.req] at hz
  obtain ⟨R, eR⟩ := Option.isSome_iff_exists.mp hz
  have := (h2.late eR).2
  have := (h1.timer R (k2 R eR)).2.2.1
  omega

/-- When nothing has been changed or requested for 1000 ms, two watchdog periods, and the time for 128 steps of the
    EEPROM writer, and the writer has been followed up to the present, everything is stored: nothing is pending or in
    progress, and switching off and on gives the settings back exactly as they are. -/
theorem C110_stored (v : Speed) (c : Conf) (x y : LoopI) (L M : Nat) (pinb : BitVec 8) (hv : v.SaneE) (h : LifeI v c x L)
    (hs : StretchE v c RequestsI x L y M) (hu : WriterBusy y → y.T ≤ M + v.B)
    (hT : x.T + 1000 + 2 * v.W + 128 * v.B < y.T) :
    y.s.set.storeRequest = false ∧ storing y.s.set = false ∧
    ∃ s', boot c y.s.set.eeprom pinb = some s' ∧ s'.set.cache = y.s.set.cache := by
  obtain ⟨r, S, h⟩ := h.inv hv
  obtain ⟨r', S', h', k1, k2⟩ := hs.pend hv h
  have hR : ∀ R, r = some R → R ≤ x.T := fun R hR => (h.timer R hR).2.2.1
  have hS : S' ≤ x.T + 1000 + 2 * v.W := by
    rcases k2 with rfl | ⟨R, e, k2⟩
    · have := h.past; omega
    · have := hR R e; omega
  have hreq : y.s.set.storeRequest = false := by
    rw [h'.req]
    cases hq : r' with
    | none => rfl
    | some R =>
      have := (h'.late hq).2
      have := hR R (k1 R hq)
      omega
  have hsto : storing y.s.set = false := by
    cases hq : storing y.s.set with
    | false => rfl
    | true => have := h'.ends hq hu; omega
  obtain ⟨j, κ, hp⟩ := h'.pinv
  exact ⟨hreq, hsto, hp.kept h'.inv.inv pinb hreq hsto⟩

/-! ### a concrete run -/

private abbrev Quiet (x : LoopI) (e : Option Ev) (y : LoopI) : Prop := RequestsI x e y ∨ StartsStore x.s y.s

set_option maxRecDepth 100000 in
/-- Another preset is selected at 80 ms, with 5 ticks inside the call; the store starts at 1355 ms, also inside a call:
    `C110_one`, `C110_delay` and `C110_begins` apply. -/
example : ∃ x y z w L M N O e f, LifeI .shipped .m88p x L ∧ WriterStep .shipped .m88p x L e y M ∧ RequestsI x e y ∧
    x.T + 5 = y.T ∧ StretchE .shipped .m88p (fun x e y => RequestsI x e y ∨ StartsStore x.s y.s) y M z N ∧
    WriterStep .shipped .m88p z N f w O ∧ StartsStore z.s w.s ∧ z.T + 5 = w.T ∧ w.T = 1355 := by
  obtain ⟨x, w, h1, h2, h3⟩ := bind_some
    (x := (loopBootI .m88p 0xFF).bind fun x => cmds .shipped .m88p NeverI (x, 0) press)
    (f := fun x => (act .shipped .m88p NeverI x (.call (.buttonsWork 0xFF) [2, 3])).bind fun y =>
      if RequestsI x.1 none y.1 ∧ x.1.T + 5 = y.1.T then (cmds .shipped .m88p Quiet y wait).bind fun z =>
        (act .shipped .m88p NeverI z (.call .settingsWork [5])).bind fun w =>
          if StartsStore z.1.s w.1.s ∧ z.1.T + 5 = w.1.T then some w else none
      else none)
    (P := fun _ w => w.1.T == 1355) (by decide +kernel)
  obtain ⟨b, hb, h1⟩ := Option.bind_eq_some_iff.mp h1
  obtain ⟨s, hs, rfl⟩ := Option.map_eq_some_iff.mp hb
  obtain ⟨y, k1, h2⟩ := Option.bind_eq_some_iff.mp h2
  split at h2
  · rename_i hq
    obtain ⟨z, k2, h2⟩ := Option.bind_eq_some_iff.mp h2
    obtain ⟨w', k3, h2⟩ := Option.bind_eq_some_iff.mp h2
    split at h2
    · rename_i hst
      cases h2
      obtain ⟨e, e1, -⟩ := act_step _ _ _ k1
      obtain ⟨f, f1, -⟩ := act_step _ _ _ k3
      exact ⟨x.1, y.1, z.1, w.1, x.2, y.2, z.2, w.2, e, f, life (.first hs) (cmds_stretch _ _ _ h1), e1, hq.1, hq.2,
        cmds_stretch _ _ _ k2, f1, hst.1, hst.2, by simpa using h3⟩
    · cases h2
  · cases h2

set_option maxRecDepth 100000 in
/-- After that nothing happens for more than 2012 ms: `C110_stored` applies.  (The store is over at 1710 ms; meanwhile
    the evaluations take up to 240 ms.) -/
example : ∃ x y L M, LifeI .shipped .m88p x L ∧ x.s.set.storeRequest = true ∧ StretchE .shipped .m88p RequestsI x L y M ∧
    x.T + 1000 + 2 * Speed.shipped.W + 128 * Speed.shipped.B < y.T ∧ ¬ WriterBusy y ∧ y.s.set.cache.serial = 1 ∧
    y.s.set.cache.active = 4 := by
  obtain ⟨x, y, h1, h2, h3⟩ := bind_some
    (x := (loopBootI .m88p 0xFF).bind fun x =>
      cmds .shipped .m88p NeverI (x, 0) (press ++ [.call (.buttonsWork 0xFF) [2, 3]]))
    (f := fun x => cmds .shipped .m88p RequestsI x (wait ++ [.call .settingsWork [5]] ++ after))
    (P := fun x y => x.1.s.set.storeRequest &&
      decide (x.1.T + 1000 + 2 * Speed.shipped.W + 128 * Speed.shipped.B < y.1.T) && decide (¬ WriterBusy y.1) &&
      y.1.s.set.cache.serial == 1 && y.1.s.set.cache.active == 4) (by decide +kernel)
  obtain ⟨b, hb, h1⟩ := Option.bind_eq_some_iff.mp h1
  obtain ⟨s, hs, rfl⟩ := Option.map_eq_some_iff.mp hb
  simp only [Bool.and_eq_true, beq_iff_eq, decide_eq_true_eq] at h3
  exact ⟨x.1, y.1, x.2, y.2, life (.first hs) (cmds_stretch _ _ _ h1), h3.1.1.1.1, cmds_stretch _ _ _ h2, h3.1.1.1.2,
    h3.1.1.2, h3.1.2, h3.2⟩

example : Speed.shipped.SaneE := by unfold Speed.SaneE Speed.SaneI; decide

end Verif.Props
