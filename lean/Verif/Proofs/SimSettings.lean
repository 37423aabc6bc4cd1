import Verif.Spec.SimSettings
import Verif.Proofs.InvBoot
import Verif.Props.Int24
/-
Reading and writing settings in the simulator keeps the invariant.
-/
namespace Verif
open Spec

theorem i24Of_in {v : Int} (h : -8388608 ≤ v ∧ v < 8388608) : i24Of v = v := by
  obtain ⟨⟨h1, h2, d, h3⟩, -⟩ := Props.C90_convert v
  omega

theorem wantedTemp_unique {x : Settings} {idle : Bool} {w w' : Int} (h : WantedTemp x idle w) (h' : WantedTemp x idle w') :
    w = w' := by
  obtain ⟨p, e, rfl⟩ := h
  obtain ⟨p', e', rfl⟩ := h'
  rw [e] at e'
  cases e'
  rfl

/-- the controller factors are set again -/
theorem Inv.updatePid {c : Conf} {s : Sys} (h : Inv c s) : contrtempUpdatePidConfig c s =
    some (Verif.menuRequestUpdate { s with ct := { s.ct with pid := { s.ct.pid with prevE := 0, integr := 0 } } }) := by
  unfold contrtempUpdatePidConfig
  obtain ⟨h3, e⟩ := contrtempSetBoost_eq (c := c) (s := s) h.ct.boost h.ct.boost
  rw [e]
  have hk := h.ct.k
  rw [Vector.getElem?_eq_getElem h3] at hk
  have hk := Option.some.inj hk
  unfold pidSetFactors pidReset
  rw [hk]

/-- the set point is set again -/
theorem Inv.updateSetpoint {c : Conf} {s : Sys} (h : Inv c s) : contrtempUpdateSetpoint s = some s := by
  obtain ⟨w, e, hw, -, -⟩ := contrtempUpdateSetpoint_ok h.set.lim
  rw [e, wantedTemp_unique hw h.ct.sp]

theorem Inv.resetTemp {c : Conf} {s : Sys} (h : Inv c s) :
    Inv c { s with ct := { s.ct with pid := { s.ct.pid with prevE := 0, integr := 0 } } } := by
  have h3 : s.ct.boost < 3 := by have := nrBoost_le c; have := h.ct.boost; omega
  have hk := h.ct.k
  rw [Vector.getElem?_eq_getElem h3] at hk
  have hk := Option.some.inj hk
  have e := ctInv_boost h.set.lim h.ct.lim h.ct.range h.ct.boost h3 h.ct.sp h.ct.fb h.ct.idle
  unfold pidSetFactors pidReset at e
  rw [hk] at e
  exact { h with ct := e }

theorem presets_ok {c : Conf} {x : Settings} (h : WithinLimits c x) (v : Int) :
    x.presetsSet v = some { x with sp := x.sp.set x.active v h.active } ∧ x.presetsGet = some (x.sp[x.active]'h.active) :=
  ⟨dif_pos h.active, Vector.getElem?_eq_getElem h.active⟩

/-- the state after reading a setting -/
def afterRead (c : Conf) (s : Sys) : SimName → Sys
  | .k _ _ => { s with
      ct := { s.ct with pid := { s.ct.pid with prevE := 0, integr := 0 } }
      menu := { s.menu with updReq := true } }
  | .idleSp => if c.idle then { s with set := requested s.now s.set } else s
  | .setpoint => { s with menu := { s.menu with updReq := true } }
  | .active => { s with menu := { s.menu with updReq := true } }
  | _ => s

theorem Inv.read {c : Conf} {s : Sys} (h : Inv c s) {n : SimName} (hn : n ≠ .unknown) :
    ∃ v, simRead c s n = some (afterRead c s n, v) ∧ Holds c s.set.cache n v ∧ Inv c (afterRead c s n) := by
  unfold simRead simAccess settingsAccess
  cases n with
  | k mode f =>
    simp only [Bool.false_eq_true, if_false, Option.bind_eq_bind, Option.bind_some, h.updatePid, Option.pure_def]
    exact ⟨_, rfl, by cases f <;> exact rfl, h.resetTemp.menuRequestUpdate⟩
  | idleSp =>
    simp only [Bool.false_eq_true, if_false, Option.bind_eq_bind, Option.bind_some, Option.pure_def]
    have e : contrtempSetIdleSetpoint c s s.set.cache.idleSp = some (afterRead c s .idleSp) := by
      unfold contrtempSetIdleSetpoint afterRead
      cases hc : c.idle with
      | false => rfl
      | true =>
        have e1 : setCache s { s.set.cache with idleSp := s.set.cache.idleSp } = s := rfl
        simp only [if_true, e1, h.updateSetpoint, Option.bind_eq_bind, Option.bind_some, sysStore_eq]
    rw [e]
    refine ⟨_, rfl, rfl, ?_⟩
    have := h.set.lim.idleSp
    exact ((h.idleSetpoint (v := s.set.cache.idleSp) (by omega)).elim e).1
  | setpoint =>
    simp only [Bool.false_eq_true, if_false, Option.bind_eq_bind, Option.bind_some, Option.pure_def,
      (presets_ok h.set.lim _).1, (presets_ok h.set.lim 0).2, h.updateSetpoint]
    exact ⟨_, rfl, (presets_ok h.set.lim 0).2, h.menuRequestUpdate⟩
  | active =>
    simp only [Bool.false_eq_true, if_false, Option.bind_eq_bind, Option.bind_some, Option.pure_def, h.updateSetpoint]
    exact ⟨_, rfl, rfl, h.menuRequestUpdate⟩
  | adj =>
    refine ⟨_, rfl, ?_, h⟩
    show measureAdjustGet c s = _
    unfold measureAdjustGet
    have := h.meas.adj1
    split
    · rename_i hc
      rw [this, hc]
      rfl
    · rfl
  | serial => exact ⟨_, rfl, rfl, h⟩
  | unknown => exact absurd rfl hn

/-- the settings after writing one -/
def written (c : Conf) (x : Settings) (u : Int) : SimName → Settings
  | .k mode f => { x with k := x.k.set mode (f.put x.k[mode] u) }
  | .idleSp => { x with idleSp := i24Of u }
  | .setpoint => if h : x.active < 6 then { x with sp := x.sp.set x.active (i24Of u) } else x
  | .active => { x with active := (u % 256).toNat }
  | .adj => if c.adj then { x with adj := i24Of u } else x
  | .serial => { x with serial := (u % 256).toNat }
  | .unknown => x

theorem written_limits {c : Conf} {x : Settings} (h : WithinLimits c x) {n : SimName} {v : Int} (hv : InLimits n v) :
    WithinLimits c (written c x v n) := by
  cases n with
  | k mode f =>
    refine { h with k := ?_ }
    intro i hi hb
    have hk := h.k i hi hb
    show (0 ≤ (x.k.set mode (f.put x.k[mode] v))[i].kp ∧ _) ∧ _
    simp only [written]
    rw [Vector.getElem_set]
    split
    · rename_i he
      have he : (mode : Nat) = i := he
      subst he
      cases f <;> unfold InLimits at hv <;> simp only [SimFactor.put] <;>
        rw [i24Of_in (by omega)] <;> simp only [Fin.getElem_fin] <;> omega
    · exact hk
  | idleSp =>
    unfold InLimits at hv
    refine { h with idleSp := ?_ }
    show 0 ≤ i24Of v ∧ i24Of v ≤ 480 * 64
    rw [i24Of_in (by omega)]; exact hv
  | setpoint =>
    unfold InLimits at hv
    unfold written
    rw [dif_pos h.active]
    refine { h with sp := ?_ }
    intro i hi
    show (0 : Int) ≤ (x.sp.set x.active (i24Of v) h.active)[i] ∧ _
    rw [Vector.getElem_set]
    split
    · rw [i24Of_in (by omega)]; exact hv
    · exact h.sp i hi
  | active =>
    unfold InLimits at hv
    exact { h with active := (by show (v % 256).toNat < 6; omega) }
  | adj =>
    unfold InLimits at hv
    show WithinLimits c (if c.adj then _ else x)
    split
    · refine { h with adj := ?_ }
      show _ ≤ i24Of v ∧ i24Of v ≤ _
      rw [i24Of_in (by omega)]; exact hv
    · exact h
  | serial => exact { h with }
  | unknown => exact hv.elim

theorem Inv.write {c : Conf} {s : Sys} (h : Inv c s) {n : SimName} {v : Int} (hv : InLimits n v) :
    Safe (simWrite c s n v) (Inv c) := by
  have hl := written_limits h.set.lim hv
  unfold simWrite simAccess settingsAccess
  cases n with
  | k mode f =>
    obtain ⟨a, ea, ha, -⟩ := Inv.storeK h hl rfl rfl rfl rfl
    simp only [sysStore_eq, Option.bind_eq_bind, Option.bind_some] at ea
    simp only [if_true, Option.bind_eq_bind, Option.bind_some, Option.pure_def, sysStore_eq]
    refine ⟨a, ?_, ha⟩
    have ea' := ea
    unfold written at ea'
    rw [ea']
    rfl
  | idleSp =>
    simp only [if_true, Option.bind_eq_bind, Option.bind_some, Option.pure_def, sysStore_eq]
    by_cases hc : c.idle = true
    · unfold InLimits at hv
      have h0 : Inv c { s with set := requested s.now s.set } := { h with set := h.set.requested _ }
      obtain ⟨a, ea, ha, -⟩ := h0.idleSetpoint (v := i24Of v) (by rw [i24Of_in (by omega)]; omega)
      refine ⟨a, ?_, ha⟩
      unfold contrtempSetIdleSetpoint at ea ⊢
      rw [if_pos hc] at ea ⊢
      simp only [setCache, requested, Option.bind_eq_bind] at ea ⊢
      rw [ea]
      rfl
    · unfold contrtempSetIdleSetpoint
      rw [if_neg hc]
      refine ⟨_, rfl, ?_⟩
      have hi := h.ct.idle (by simpa using hc)
      exact { h with
        set := (h.set.withCache hl).requested _
        ct := { h.ct with
          sp := (by
            have := h.ct.sp
            show WantedTemp { s.set.cache with idleSp := i24Of v } s.ct.idle s.ct.pid.setpoint
            unfold WantedTemp at this ⊢
            rw [hi] at this ⊢
            exact this) } }
  | setpoint =>
    obtain ⟨a, ea, ha, -⟩ := Inv.presetsStore h (x := { s.set.cache with
      sp := s.set.cache.sp.set s.set.cache.active (i24Of v) h.set.lim.active }) (by
        have := hl
        unfold written at this
        rw [dif_pos h.set.lim.active] at this
        exact this) rfl rfl
    unfold Verif.presetsStore at ea
    simp only [if_true, (presets_ok h.set.lim _).1, (presets_ok h.set.lim 0).2, Option.bind_eq_bind, Option.bind_some,
      Option.pure_def, sysStore_eq] at ea ⊢
    obtain ⟨b, eb, e⟩ := Option.bind_eq_some_iff.mp ea
    refine ⟨a, ?_, ha⟩
    rw [eb]
    exact e
  | active =>
    obtain ⟨a, ea, ha, -⟩ := Inv.presetsStore h hl rfl rfl
    unfold Verif.presetsStore written at ea
    simp only [if_true, Option.bind_eq_bind, Option.bind_some, Option.pure_def, sysStore_eq] at ea ⊢
    obtain ⟨b, eb, e⟩ := Option.bind_eq_some_iff.mp ea
    refine ⟨a, ?_, ha⟩
    rw [eb]
    exact e
  | adj =>
    unfold InLimits at hv
    obtain ⟨a, ea, ha, -⟩ := h.adjustSet (v := i24Of v) (by rw [i24Of_in (by omega)]; omega)
    simp only [if_true, ea, Option.bind_eq_bind, Option.bind_some, Option.pure_def]
    exact ⟨a, rfl, ha⟩
  | serial =>
    simp only [if_true, Option.bind_eq_bind, Option.bind_some, Option.pure_def, sysStore_eq]
    refine ⟨_, rfl, ?_⟩
    exact { h with
      set := (h.set.withCache hl).requested _
      ct := { h.ct with } }
  | unknown => exact hv.elim

theorem Spec.RunningSim.inv {c : Conf} {s : Sys} (h : RunningSim c s) : Inv c s := by
  induction h with
  | boot hv e => exact ((boot_ok hv).elim e).1
  | step _ hp hs ih => exact (ih.step hp).elim hs
  | read _ e ih =>
    rename_i n s' v _
    have hn : n ≠ .unknown := by
      rintro rfl
      cases e
    obtain ⟨u, eu, -, hi⟩ := ih.read hn
    rw [e] at eu
    cases eu
    exact hi
  | write _ hv e ih => exact (ih.write hv).elim e

end Verif
