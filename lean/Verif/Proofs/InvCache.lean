import Verif.Proofs.InvTemp
/-
Operations that change the settings keep the invariant.
-/
namespace Verif
open Spec

theorem SetInv.requested {c : Conf} {s : SettingsSt} (h : SetInv c s) (now : Int) :
    SetInv c (requested now s) := { h with }

theorem SetInv.withCache {c : Conf} {s : SettingsSt} {x : Settings} (h : SetInv c s)
    (hx : WithinLimits c x) : SetInv c { s with cache := x } := { h with lim := hx }

/-- storing changed settings whose factors and adjustment are the old ones -/
theorem Inv.presetsStore {c : Conf} {s : Sys} {x : Settings} (h : Inv c s) (hx : WithinLimits c x)
    (hk : x.k = s.set.cache.k) (ha : x.adj = s.set.cache.adj) :
    Safe (presetsStore (setCache s x)) (fun s' => Inv c s' ∧ s'.menu = { s.menu with updReq := true } ∧
      s'.ct.enabled = s.ct.enabled ∧ s'.set.cache = x) := by
  unfold Verif.presetsStore
  rw [sysStore_eq]
  simp only [Option.bind_eq_bind, Option.bind_some]
  obtain ⟨w, e, hw, b1, b2⟩ := contrtempUpdateSetpoint_ok (c := c)
    (s := { setCache s x with set := Verif.requested (setCache s x).now (setCache s x).set }) hx
  rw [e]
  refine Safe.pure ⟨Inv.menuRequestUpdate ?_, rfl, rfl, rfl⟩
  exact { h with
    set := (h.set.withCache hx).requested _
    meas := (by
      show MeasInv s.meas (if c.adj then x.adj else 0)
      rw [ha]; exact h.meas)
    ct := { h.ct with
      range := { h.ct.range with sp := ⟨b1, b2⟩ }
      k := (by show x.k[s.ct.boost]? = _; rw [hk]; exact h.ct.k)
      sp := hw } }

theorem withinLimits_active {c : Conf} {x : Settings} (h : WithinLimits c x) {a : Nat} (ha : a < 6) :
    WithinLimits c { x with active := a } := { h with active := ha }

theorem Inv.presetsNext {c : Conf} {s : Sys} (h : Inv c s) :
    Safe (presetsNext s) (fun s' => Inv c s' ∧ s'.menu = { s.menu with updReq := true }) := by
  have hx : WithinLimits c s.set.cache.presetsNext := withinLimits_active h.set.lim
    (by unfold ringNext; have := h.set.lim.active; simp only []; split <;> omega)
  unfold Verif.presetsNext
  exact (Inv.presetsStore h hx rfl rfl).mono fun _ hh => ⟨hh.1, hh.2.1⟩

theorem Inv.presetsPrev {c : Conf} {s : Sys} (h : Inv c s) :
    Safe (presetsPrev s) (fun s' => Inv c s' ∧ s'.menu = { s.menu with updReq := true }) := by
  have hx : WithinLimits c s.set.cache.presetsPrev := withinLimits_active h.set.lim
    (by unfold ringPrev; have := h.set.lim.active; simp only []; split <;> omega)
  unfold Verif.presetsPrev
  exact (Inv.presetsStore h hx rfl rfl).mono fun _ hh => ⟨hh.1, hh.2.1⟩

theorem Inv.presetsSetActive {c : Conf} {s : Sys} {v : Int} (h : Inv c s) (hv : 0 ≤ v ∧ v ≤ 30720) :
    Safe (presetsSetActive s v) (fun s' => Inv c s' ∧ s'.menu = { s.menu with updReq := true } ∧
      s'.ct.enabled = s.ct.enabled) := by
  unfold Verif.presetsSetActive Settings.presetsSet
  rw [dif_pos h.set.lim.active]
  simp only [Option.bind_eq_bind, Option.bind_some]
  refine (Inv.presetsStore h (x := { s.set.cache with
    sp := s.set.cache.sp.set s.set.cache.active v h.set.lim.active }) ?_ rfl rfl).mono
    fun _ hh => ⟨hh.1, hh.2.1, hh.2.2.1⟩
  exact { h.set.lim with
    sp := (by
      intro i hi
      have := h.set.lim.sp i hi
      show (0 : Int) ≤ (s.set.cache.sp.set s.set.cache.active v h.set.lim.active)[i] ∧ _
      rw [Vector.getElem_set]
      split <;> omega) }

theorem Inv.idleSetpoint {c : Conf} {s : Sys} {v : Int} (h : Inv c s) (hv : 0 ≤ v ∧ v ≤ 30720) :
    Safe (contrtempSetIdleSetpoint c s v) (fun s' => Inv c s' ∧ s'.menu = s.menu) := by
  unfold contrtempSetIdleSetpoint
  split
  · have hx : WithinLimits c { s.set.cache with idleSp := v } :=
      { h.set.lim with idleSp := ⟨hv.1, by show v ≤ 480 * 64; omega⟩ }
    obtain ⟨w, e, hw, b1, b2⟩ := contrtempUpdateSetpoint_ok (c := c)
      (s := setCache s { s.set.cache with idleSp := v }) hx
    simp only [e, Option.bind_eq_bind, Option.bind_some, sysStore_eq]
    refine Safe.pure ⟨?_, rfl⟩
    exact { h with
      set := (h.set.withCache hx).requested _
      ct := { h.ct with
        range := { h.ct.range with sp := ⟨b1, b2⟩ }
        sp := hw } }
  · exact Safe.pure ⟨h, rfl⟩

theorem Inv.adjustSet {c : Conf} {s : Sys} {v : Int} (h : Inv c s) (hv : -6336 ≤ v ∧ v ≤ 6336) :
    Safe (meastempAdjustSet c s v) (fun s' => Inv c s' ∧ ∃ u, s'.menu = { s.menu with updReq := u }) := by
  unfold meastempAdjustSet measureAdjustSet
  cases hc : c.adj with
  | false => exact Safe.pure ⟨h, s.menu.updReq, rfl⟩
  | true =>
    have hx : WithinLimits c { s.set.cache with adj := v } :=
      { h.set.lim with adj := ⟨by show -99 * 64 ≤ v; omega, by show v ≤ 99 * 64; omega⟩ }
    simp only [if_true, sysStore_eq, Option.bind_eq_bind, Option.bind_some]
    refine Safe.pure ⟨Inv.menuRequestUpdate ?_, true, rfl⟩
    exact { h with
      set := (h.set.withCache hx).requested _
      meas := { h.meas with
        adj0 := (by
          show (s.meas.chan.set 1 _)[0].adj = 0
          rw [Vector.getElem_set_ne _ _ (by decide)]; exact h.meas.adj0)
        adj1 := (by
          show (s.meas.chan.set 1 { s.meas.chan[1] with adj := v })[1].adj = (if c.adj then v else 0)
          rw [Vector.getElem_set_self, hc]; rfl) }
      ct := { h.ct with } }

theorem doRampTemp_ok {t lo hi : Int} (up : Bool) (ht : -32000 ≤ t ∧ t ≤ 32000)
    (hl : lo ≤ hi) : ∃ v, doRampTemp t up lo hi = some v ∧ lo ≤ v ∧ v ≤ hi := by
  unfold doRampTemp fixptAddLimited
  rw [fixptAdd_eq (by unfold S24; omega) (by unfold S24; split <;> omega)]
  exact ⟨_, rfl, fixptClamp_range hl⟩

/-- storing changed factors and putting them in force -/
theorem Inv.storeK {c : Conf} {s : Sys} {x : Settings} (h : Inv c s) (hx : WithinLimits c x)
    (ha : x.adj = s.set.cache.adj) (hsp : x.sp = s.set.cache.sp) (hact : x.active = s.set.cache.active)
    (hid : x.idleSp = s.set.cache.idleSp) :
    Safe (sysStore (setCache s x) >>= contrtempUpdatePidConfig c)
      (fun s' => Inv c s' ∧ ∃ u, s'.menu = { s.menu with updReq := u }) := by
  rw [sysStore_eq]
  simp only [Option.bind_eq_bind, Option.bind_some]
  unfold contrtempUpdatePidConfig
  have hb := h.ct.boost
  obtain ⟨h3, e⟩ := contrtempSetBoost_eq (c := c)
    (s := { setCache s x with set := Verif.requested (setCache s x).now (setCache s x).set }) hb hb
  refine Safe.of_eq e ⟨Inv.menuRequestUpdate ?_, true, rfl⟩
  have hw : WantedTemp x s.ct.idle s.ct.pid.setpoint := by
    unfold WantedTemp
    rw [hsp, hact, hid]
    exact h.ct.sp
  exact { h with
    set := (h.set.withCache hx).requested _
    meas := (by
      show MeasInv s.meas (if c.adj then x.adj else 0)
      rw [ha]; exact h.meas)
    ct := ctInv_boost hx h.ct.lim h.ct.range hb h3 hw h.ct.fb h.ct.idle }

/-- changing one controller factor -/
theorem Inv.rampK {c : Conf} {s : Sys} (h : Inv c s) {get : PidK → Int} {put : PidK → Int → PidK}
    {inc hi : Int} (up : Bool) (hinc : 0 ≤ inc ∧ inc ≤ 64) (hhi : 0 ≤ hi ∧ hi ≤ 6336)
    (hget : ∀ k : PidK, (0 ≤ k.kp ∧ k.kp ≤ 99 * 64) ∧ (0 ≤ k.ki ∧ k.ki ≤ 9 * 64) ∧
      (0 ≤ k.kd ∧ k.kd ≤ 99 * 64) ∧ (64 ≤ k.decay ∧ k.decay ≤ 2 ^ 23 - 1) →
      0 ≤ get k ∧ get k ≤ 99 * 64 ∧ ∀ v, 0 ≤ v ∧ v ≤ hi →
      (0 ≤ (put k v).kp ∧ (put k v).kp ≤ 99 * 64) ∧ (0 ≤ (put k v).ki ∧ (put k v).ki ≤ 9 * 64) ∧
      (0 ≤ (put k v).kd ∧ (put k v).kd ≤ 99 * 64) ∧
      (64 ≤ (put k v).decay ∧ (put k v).decay ≤ 2 ^ 23 - 1)) :
    Safe (doRampK c s get put inc hi up) (fun s' => Inv c s' ∧ ∃ u, s'.menu = { s.menu with updReq := u }) := by
  unfold doRampK
  have hb := h.ct.boost
  have h3 : s.ct.boost < 3 := by have := nrBoost_le c; omega
  simp only [dif_pos h3]
  have hk := h.set.lim.k _ h3 hb
  obtain ⟨g1, g2, g3⟩ := hget _ hk
  have key : ∀ v, 0 ≤ v ∧ v ≤ hi → Safe (sysStore (setCache s { s.set.cache with
      k := s.set.cache.k.set s.ct.boost (put s.set.cache.k[s.ct.boost] v) h3 }) >>=
        contrtempUpdatePidConfig c)
      (fun s' => Inv c s' ∧ ∃ u, s'.menu = { s.menu with updReq := u }) := by
    intro v hv
    have hx : WithinLimits c { s.set.cache with
        k := s.set.cache.k.set s.ct.boost (put s.set.cache.k[s.ct.boost] v) h3 } :=
      { h.set.lim with
        k := (by
          intro i hi3 hib
          have hki := h.set.lim.k i hi3 hib
          show (0 ≤ (s.set.cache.k.set s.ct.boost (put s.set.cache.k[s.ct.boost] v) h3)[i].kp ∧ _) ∧ _
          rw [Vector.getElem_set]
          split
          · exact g3 v hv
          · exact hki) }
    exact h.storeK hx rfl rfl rfl rfl
  unfold fixptAddLimited
  cases up
  · unfold fixptNeg
    rw [FIXPT_MIN_eq]
    simp only [Bool.false_eq_true, if_false]
    rw [if_neg (by omega), ck24_eq (by unfold S24; omega)]
    simp only [Option.bind_eq_bind, Option.bind_some]
    rw [fixptAdd_eq (by unfold S24; omega) (by unfold S24; omega)]
    exact key _ (fixptClamp_range hhi.1)
  · simp only [if_true]
    simp only [Option.bind_eq_bind, Option.bind_some]
    rw [fixptAdd_eq (by unfold S24; omega) (by unfold S24; omega)]
    exact key _ (fixptClamp_range hhi.1)

/-! ### iron button -/

theorem Inv.doIdle {c : Conf} {s : Sys} (h : Inv c s) (hc : c.idle = true) (b : Bool) :
    Safe (contrtempDoIdle s b) (fun s' => Inv c s' ∧ s'.menu = { s.menu with updReq := true }) := by
  unfold contrtempDoIdle
  obtain ⟨w, e, hw, b1, b2⟩ := contrtempUpdateSetpoint_ok (c := c)
    (s := { s with ct := { s.ct with idle := b } }) h.set.lim
  simp only [e, Option.bind_eq_bind, Option.bind_some]
  refine Safe.pure ⟨Inv.menuRequestUpdate ?_, rfl⟩
  exact { h with
    ct := { h.ct with
      range := { h.ct.range with sp := ⟨b1, b2⟩ }
      sp := hw
      idle := fun hh => by rw [hc] at hh; cases hh } }

theorem Inv.nextBoost {c : Conf} {s : Sys} (h : Inv c s) :
    Safe (contrtempNextBoost c s) (Inv c) :=
  h.setBoost (by
    have := h.ct.boost
    have h1 : 0 < c.nrBoost := by omega
    unfold ringNext; simp only []; split <;> omega)

theorem Inv.biLet {c : Conf} {s : Sys} (h : Inv c s) (t : Int) (b : Bool) :
    Inv c { s with ct := { s.ct with biTimer := t, biLet := b } } :=
  { h with ct := { h.ct with } }

theorem Inv.ironTail {c : Conf} {s : Sys} (h : Inv c s) (hi : c.idle = true) (e : BState) (idle : Bool) :
    Safe (if s.ct.biLet then
        if idle ∨ (e = .pressed ∧ timerExpired s.now s.ct.biTimer) then do
          let s ← contrtempDoIdle s !idle
          return { s with ct := { s.ct with biLet := false } }
        else if e = .negedge then do
          let s ← contrtempNextBoost c s
          return { s with ct := { s.ct with biLet := false } }
        else return s
      else return s) (Inv c) := by
  split
  · split
    · exact Safe.bind (h.doIdle hi _) fun s2 h2 => Safe.pure (h2.1.biLet s2.ct.biTimer _)
    · split
      · exact Safe.bind h.nextBoost fun s2 h2 => Safe.pure (h2.biLet s2.ct.biTimer _)
      · exact Safe.pure h
  · exact Safe.pure h

theorem Inv.ironButton {c : Conf} {s : Sys} (h : Inv c s) (b : Button) (e : BState) :
    Safe (contrtempButton c s b e) (Inv c) := by
  unfold contrtempButton
  split
  · rename_i hb hi
    simp only []
    split
    · exact Safe.pure h
    split
    · rw [timerArm_eq _ (by decide) (by decide)]
      exact (h.biLet _ true).ironTail hi e s.ct.idle
    · exact h.ironTail hi e s.ct.idle
  · split
    · exact Safe.pure h
    · split
      · exact h.nextBoost
      · exact Safe.pure h
  · rename_i hb hi
    have key : ∀ idle, Safe (if idle ≠ s.ct.idle then contrtempDoIdle s idle else some s) (Inv c) := by
      intro idle
      split
      · exact (h.doIdle hi _).mono fun _ hh => hh.1
      · exact Safe.pure h
    split
    · exact Safe.pure h
    · simp only []
      exact key _
  · exact Safe.pure h

end Verif
