import Verif.Proofs.SimSettings
import Verif.Proofs.Demo
import Verif.Props.SimSensor
/-
Property C100: reading and writing the settings of the simulated firmware.
-/
namespace Verif.Props
open Spec

/-- An unknown name is reported and changes nothing. -/
theorem C100_unknown (c : Conf) (s : Sys) (v : Int) (w : Bool) : simAccess c s .unknown v w = some (s, none) := rfl

/-! ### reading -/

/-- Reading any known name is defined and yields the setting; the settings, the heater and the current controller stay
    as they are. -/
theorem C100_read (c : Conf) (s : Sys) (n : SimName) (h : RunningSim c s) (hn : n ≠ .unknown) :
    ∃ s' v, simRead c s n = some (s', v) ∧ Holds c s.set.cache n v ∧ s'.set.cache = s.set.cache ∧ s'.ocr = s.ocr ∧
      s'.cc = s.cc := by
  obtain ⟨v, e, hv, -⟩ := h.inv.read hn
  refine ⟨_, v, e, hv, ?_⟩
  cases n with
  | idleSp =>
    unfold afterRead
    by_cases hc : c.idle = true
    · rw [if_pos hc]; exact ⟨rfl, rfl, rfl⟩
    · rw [if_neg hc]; exact ⟨rfl, rfl, rfl⟩
  | _ => exact ⟨rfl, rfl, rfl⟩

/-- Reading the adjustment or the serial number changes nothing, reading the selected preset or its set point only
    has the display drawn again. -/
theorem C100_read_pure (c : Conf) (s : Sys) (n : SimName) (h : RunningSim c s)
    (hn : n = .adj ∨ n = .serial ∨ n = .active ∨ n = .setpoint) : ∃ s' v, simRead c s n = some (s', v) ∧
      s' = if n = .adj ∨ n = .serial then s else { s with menu := { s.menu with updReq := true } } := by
  obtain ⟨v, e, -, -⟩ := h.inv.read (n := n) (by rcases hn with rfl | rfl | rfl | rfl <;> decide)
  refine ⟨_, v, e, ?_⟩
  rcases hn with rfl | rfl | rfl | rfl <;> rfl

/-- Reading a controller factor, of whatever mode, makes the temperature controller forget its past (finding F32). -/
theorem C100_read_factor (c : Conf) (s : Sys) (mode : Fin 3) (f : SimFactor) (h : RunningSim c s) :
    ∃ s' v, simRead c s (.k mode f) = some (s', v) ∧ s' = { s with
      ct := { s.ct with pid := { s.ct.pid with prevE := 0, integr := 0 } }
      menu := { s.menu with updReq := true } } := by
  obtain ⟨v, e, -, -⟩ := h.inv.read (n := .k mode f) (by simp)
  exact ⟨_, v, e, rfl⟩

/-- Reading the idle set point requests a store of the settings, also if nothing was changed, and puts off a pending one
    (finding F32). -/
theorem C100_read_idle (c : Conf) (s : Sys) (hc : c.idle = true) (h : RunningSim c s) :
    ∃ s' v, simRead c s .idleSp = some (s', v) ∧ s'.set.storeRequest = true ∧
      s'.set.storeTimer = (s.now + 1000) % 65536 ∧
      s' = { s with set := { s.set with storeRequest := true, storeTimer := s'.set.storeTimer } } := by
  obtain ⟨v, e, -, -⟩ := h.inv.read (n := .idleSp) (by decide)
  refine ⟨_, v, e, ?_⟩
  unfold afterRead
  rw [if_pos hc]
  exact ⟨rfl, rfl, rfl⟩

/-! ### writing -/

private theorem reduced24 (v : Int) : WrapsS 8388608 v (i24Of v) := (C90_convert v).1

private theorem reduced8 (v : Int) : Wraps 256 v (v % 256) := ⟨by omega, by omega, by omega⟩

private theorem boost_keep {c : Conf} {s s' : Sys} (e : contrtempUpdatePidConfig c s = some s') :
    s'.set = s.set ∧ s'.ocr = s.ocr ∧ s'.cc = s.cc := by
  unfold contrtempUpdatePidConfig contrtempSetBoost at e
  obtain ⟨k, -, e⟩ := Option.bind_eq_some_iff.mp e
  cases e
  unfold menuRequestUpdate
  simp only []
  split <;> exact ⟨rfl, rfl, rfl⟩

private theorem setpoint_keep {s s' : Sys} (e : contrtempUpdateSetpoint s = some s') :
    s'.set = s.set ∧ s'.ocr = s.ocr ∧ s'.cc = s.cc := by
  unfold contrtempUpdateSetpoint at e
  obtain ⟨k, -, e⟩ := Option.bind_eq_some_iff.mp e
  cases e
  exact ⟨rfl, rfl, rfl⟩

/-- In any state: writing a setting changes this setting only, to what is left of the number in its type; it does not
    touch the heater, the current controller or the EEPROM, and requests a store 1000 ms later (but for the adjustment in
    a build without it). -/
theorem C100_write (c : Conf) (s s' : Sys) (n : SimName) (v : Int) (e : simWrite c s n v = some s') :
    (∃ u, Reduced n v u ∧ Written c s.set.cache s'.set.cache n u) ∧ s'.ocr = s.ocr ∧ s'.cc = s.cc ∧
    (n ≠ .adj ∨ c.adj = true → s'.set = { s.set with
      cache := s'.set.cache, storeRequest := true, storeTimer := (s.now + 1000) % 65536 }) := by
  unfold simWrite simAccess settingsAccess at e
  cases n with
  | k mode f =>
    simp only [if_true, sysStore_eq, Option.bind_eq_bind, Option.bind_some, Option.pure_def] at e
    obtain ⟨p, e1, e⟩ := Option.bind_eq_some_iff.mp e
    obtain ⟨s2, e2, e1⟩ := Option.bind_eq_some_iff.mp e1
    cases e1
    cases e
    obtain ⟨k1, k2, k3⟩ := boost_keep e2
    refine ⟨⟨i24Of v, ?_, ?_⟩, k2, k3, fun _ => ?_⟩
    · cases f <;> exact reduced24 v
    · rw [k1]; cases f <;> exact rfl
    · rw [k1]; rfl
  | idleSp =>
    simp only [if_true, sysStore_eq, Option.bind_eq_bind, Option.bind_some, Option.pure_def] at e
    obtain ⟨p, e1, e⟩ := Option.bind_eq_some_iff.mp e
    obtain ⟨s2, e2, e1⟩ := Option.bind_eq_some_iff.mp e1
    cases e1
    cases e
    unfold contrtempSetIdleSetpoint at e2
    refine ⟨⟨i24Of v, reduced24 v, ?_⟩, ?_⟩
    all_goals split at e2
    · obtain ⟨s3, e3, e2⟩ := Option.bind_eq_some_iff.mp e2
      rw [sysStore_eq] at e2
      cases e2
      obtain ⟨k1, k2, k3⟩ := setpoint_keep e3
      show s3.set.cache = _
      rw [k1]; rfl
    · cases e2; exact rfl
    · obtain ⟨s3, e3, e2⟩ := Option.bind_eq_some_iff.mp e2
      have hn : s3.now = s.now := by
        unfold contrtempUpdateSetpoint at e3
        obtain ⟨k, -, e3⟩ := Option.bind_eq_some_iff.mp e3
        cases e3
        rfl
      rw [sysStore_eq] at e2
      cases e2
      obtain ⟨k1, k2, k3⟩ := setpoint_keep e3
      refine ⟨k2, k3, fun _ => ?_⟩
      show requested s3.now s3.set = _
      rw [k1, hn]; rfl
    · cases e2; exact ⟨rfl, rfl, fun _ => rfl⟩
  | setpoint =>
    simp only [if_true, sysStore_eq, Option.bind_eq_bind, Option.bind_some, Option.pure_def] at e
    obtain ⟨p, e1, e⟩ := Option.bind_eq_some_iff.mp e
    obtain ⟨x, ex, e1⟩ := Option.bind_eq_some_iff.mp e1
    obtain ⟨g, eg, e1⟩ := Option.bind_eq_some_iff.mp e1
    obtain ⟨s2, e2, e1⟩ := Option.bind_eq_some_iff.mp e1
    cases e1
    cases e
    obtain ⟨k1, k2, k3⟩ := setpoint_keep e2
    unfold Settings.presetsSet at ex
    split at ex
    · rename_i ha
      cases ex
      refine ⟨⟨i24Of v, reduced24 v, ha, ?_⟩, k2, k3, fun _ => ?_⟩
      · show s2.set.cache = _
        rw [k1]; rfl
      · show s2.set = _
        rw [k1]; unfold menuRequestUpdate; rw [k1]; rfl
    · cases ex
  | active =>
    simp only [if_true, sysStore_eq, Option.bind_eq_bind, Option.bind_some, Option.pure_def] at e
    obtain ⟨p, e1, e⟩ := Option.bind_eq_some_iff.mp e
    obtain ⟨s2, e2, e1⟩ := Option.bind_eq_some_iff.mp e1
    cases e1
    cases e
    obtain ⟨k1, k2, k3⟩ := setpoint_keep e2
    refine ⟨⟨v % 256, reduced8 v, ?_⟩, k2, k3, fun _ => ?_⟩
    · show s2.set.cache = _
      rw [k1]; rfl
    · show s2.set = _
      rw [k1]; unfold menuRequestUpdate; rw [k1]; rfl
  | adj =>
    simp only [if_true, Option.bind_eq_bind, Option.pure_def] at e
    obtain ⟨p, e1, e⟩ := Option.bind_eq_some_iff.mp e
    obtain ⟨s2, e2, e1⟩ := Option.bind_eq_some_iff.mp e1
    cases e1
    cases e
    unfold meastempAdjustSet measureAdjustSet at e2
    cases hc : c.adj with
    | false =>
      simp only [hc, Bool.false_eq_true, if_false, Option.some.injEq] at e2
      subst e2
      refine ⟨⟨i24Of v, reduced24 v, ?_⟩, rfl, rfl, ?_⟩
      · show _ = if c.adj then _ else _
        rw [hc]; rfl
      · simp
    | true =>
      simp only [hc, if_true, sysStore_eq, Option.bind_eq_bind, Option.bind_some, Option.pure_def, Option.some.injEq] at e2
      subst e2
      refine ⟨⟨i24Of v, reduced24 v, ?_⟩, rfl, rfl, fun _ => rfl⟩
      show _ = if c.adj then _ else _
      rw [hc]; rfl
  | serial =>
    simp only [if_true, sysStore_eq, Option.bind_eq_bind, Option.bind_some, Option.pure_def] at e
    cases e
    exact ⟨⟨v % 256, reduced8 v, rfl⟩, rfl, rfl, fun _ => rfl⟩
  | unknown => cases e

/-- What was written is read back, if it is within the limits. -/
theorem C100_read_back (c : Conf) (s s' : Sys) (n : SimName) (v : Int) (h : RunningSim c s) (hv : InLimits n v)
    (hc : n = .adj → c.adj = true) (e : simWrite c s n v = some s') : ∃ s'', simRead c s' n = some (s'', v) := by
  have hn : n ≠ .unknown := by rintro rfl; exact hv
  obtain ⟨s'', u, eu, hu, -⟩ := C100_read c s' n (h.write hv e) hn
  refine ⟨s'', ?_⟩
  rw [eu]
  obtain ⟨⟨w, hw, hx⟩, -⟩ := C100_write c s s' n v e
  have : w = v := by
    cases n with
    | k mode f =>
      obtain ⟨h1, h2, d, h3⟩ : WrapsS 8388608 v w := by cases f <;> exact hw
      cases f <;> unfold InLimits at hv <;> omega
    | idleSp | setpoint | active | adj | serial =>
      unfold InLimits at hv
      obtain ⟨h1, h2, d, h3⟩ := hw
      omega
    | unknown => exact hv.elim
  subst this
  congr 2
  cases n with
  | k mode f =>
    cases f <;> (
      have hu := hu
      have hx := hx
      unfold Holds at hu
      unfold Written at hx
      rw [hu, hx]
      simp)
  | idleSp =>
    unfold Holds at hu
    unfold Written at hx
    rw [hu, hx]
  | setpoint =>
    unfold Holds at hu
    obtain ⟨ha, hx⟩ := hx
    rw [hx] at hu
    simpa using hu.symm
  | active | serial =>
    unfold Holds at hu
    unfold Written at hx
    obtain ⟨h1, -⟩ := hw
    rw [hu, hx]
    simp [h1]
  | adj =>
    have hu : u = if c.adj then _ else _ := hu
    have hx : _ = if c.adj then _ else _ := hx
    rw [hc rfl, if_pos rfl] at hu hx
    rw [hu, hx]
  | unknown => exact hv.elim

/-- While settings are read and written within their limits at any time: writing is defined, every work function and
    interrupt is defined, the heater is driven with 0 to 5 A and is off in an emergency, and set point, controller factors
    and adjustment in force are those of the settings. -/
theorem C100_safe (c : Conf) (s : Sys) (h : RunningSim c s) :
    (∀ n v, InLimits n v → ∃ s', simWrite c s n v = some s') ∧
    (∀ e, possible s e = true → ∃ s', step c s e = some s') ∧
    (∃ amps, 0 ≤ amps ∧ amps ≤ 5 * 640 ∧ HeaterAt s.ocr amps) ∧ (s.cc.emerg ≠ 0 → HeaterOff s.ocr) ∧
    WantedTemp s.set.cache s.ct.idle s.ct.pid.setpoint ∧ s.set.cache.k[s.ct.boost]? = some s.ct.pid.k ∧
    s.meas.chan[1].adj = if c.adj then s.set.cache.adj else 0 := by
  have hi := h.inv
  refine ⟨fun n v hv => ?_, fun e hp => ?_, ?_, hi.cc.off, hi.ct.sp, hi.ct.k, hi.meas.adj1⟩
  · obtain ⟨s', e, -⟩ := hi.write hv
    exact ⟨s', e⟩
  · obtain ⟨s', e, -⟩ := hi.step hp
    exact ⟨s', e⟩
  · obtain ⟨y, hy, hd⟩ := hi.cc.duty
    exact ⟨y, hy.1, hy.2, heaterAt_duty hy hd⟩

/-- The firmware without the simulator is a case of this. -/
theorem C100_covers (c : Conf) (s : Sys) (h : Running c s) : RunningSim c s := by
  induction h with
  | boot hv e => exact .boot hv e
  | step _ hp hs ih => exact ih.step hp hs

/-- The number of a preset that does not exist is not rejected; writing it is undefined behaviour (finding F32). -/
theorem C100_no_preset (c : Conf) (s : Sys) (v : Int) (hv : 6 ≤ v % 256) : simWrite c s .active v = none := by
  unfold simWrite simAccess settingsAccess
  simp only [if_true, sysStore_eq, Option.bind_eq_bind, Option.bind_some, Option.pure_def]
  unfold contrtempUpdateSetpoint Settings.presetsGet
  have : (s.set.cache.sp)[(v % 256).toNat]? = none := Vector.getElem?_eq_none (by omega)
  simp only [setCache, requested, this, Option.bind_eq_bind, Option.bind_none]

/-- Nor is a set point: every number of 24 bits is put in force, 1000 degrees as well (finding F32). -/
theorem C100_no_limit (c : Conf) (s : Sys) (v : Int) (h : RunningSim c s) (hv : S24 v) (hi : s.ct.idle = false) :
    ∃ s', simWrite c s .setpoint v = some s' ∧ s'.ct.pid.setpoint = v ∧ s'.set.cache.sp[s.set.cache.active]? = some v := by
  have ha := h.inv.set.lim.active
  unfold simWrite simAccess settingsAccess
  simp only [if_true, (presets_ok h.inv.set.lim _).1, (presets_ok h.inv.set.lim 0).2, Option.bind_eq_bind,
    Option.bind_some, Option.pure_def, sysStore_eq]
  unfold contrtempUpdateSetpoint Settings.presetsGet
  unfold S24 at hv
  simp only [setCache, requested, hi, i24Of_in (v := v) (by omega), Vector.getElem?_set_self ha, Option.bind_eq_bind,
    Option.bind_some, Option.pure_def, Bool.false_eq_true, false_and, if_false, Option.isSome_some, if_true]
  exact ⟨_, rfl, rfl, Vector.getElem?_set_self ha⟩

/-- The graphical program sets the temperature: with 0 to 480 degrees the first preset is selected and set to it, up to
    1/128 degree, and it is in force unless the idle mode lowers it. -/
theorem C100_gui (c : Conf) (s : Sys) (temp : Rat) (h : RunningSim c s) (h0 : 0 ≤ temp) (h1 : temp ≤ 480) :
    ∃ s', simGuiUpdate c s temp = some s' ∧ RunningSim c s' ∧ s'.set.cache.active = 0 ∧
      Within (1 / 128) (s'.set.cache.sp[0] / 64) temp ∧
      (s'.ct.idle = false → s'.ct.pid.setpoint = s'.set.cache.sp[0]) := by
  obtain ⟨w1, w2⟩ := C91_float temp
  have b1 : (-1 : Rat) < pyFloatToFixpt temp := by linarith
  have b2 : (pyFloatToFixpt temp : Rat) < 480 * 64 + 1 := by linarith
  have b1' : -1 < pyFloatToFixpt temp := by exact_mod_cast b1
  have b2' : pyFloatToFixpt temp < 480 * 64 + 1 := by exact_mod_cast b2
  have l1 : InLimits .active 0 := by unfold InLimits; omega
  have l2 : InLimits .setpoint (pyFloatToFixpt temp) := by unfold InLimits; omega
  obtain ⟨s1, e1⟩ := (C100_safe c s h).1 .active 0 l1
  have r1 := h.write l1 e1
  obtain ⟨s2, e2⟩ := (C100_safe c s1 r1).1 .setpoint _ l2
  have r2 := r1.write l2 e2
  obtain ⟨⟨u, hu, hx⟩, -⟩ := C100_write c s s1 _ _ e1
  obtain ⟨⟨u', hu', ha', hx'⟩, -⟩ := C100_write c s1 s2 _ _ e2
  unfold simGuiUpdate
  rw [e1]
  simp only [Option.bind_eq_bind, Option.bind_some]
  have a1 : s1.set.cache.active = 0 := by
    obtain ⟨k1, k2, d, k3⟩ := hu
    rw [hx]
    show u.toNat = 0
    omega
  have a2 : s2.set.cache.active = 0 := by rw [hx']; exact a1
  have v2 : s2.set.cache.sp[0] = pyFloatToFixpt temp := by
    have : u' = pyFloatToFixpt temp := by
      obtain ⟨k1, k2, d, k3⟩ := hu'
      omega
    rw [hx', ← this]
    simp [a1]
  refine ⟨s2, e2, r2, a2, by rw [v2]; exact ⟨w1, w2⟩, fun hi => ?_⟩
  obtain ⟨p, ep, hp⟩ := (C100_safe c s2 r2).2.2.2.2.1
  rw [hi] at hp
  rw [a2, Vector.getElem?_eq_getElem (by decide)] at ep
  cases ep
  exact hp

set_option maxRecDepth 100000 in
/-- the simulator at 250 C, the temperature controller with a past; no store is pending, idle mode is off -/
private theorem demo250 : ∃ s, RunningSim .m328p s ∧ s.ct.pid.integr ≠ 0 ∧ s.set.storeRequest = false ∧ s.ct.idle = false := by
  obtain ⟨s, h, hp⟩ := demo_any (c := .m328p) (pinb := 0xFF) validEeprom_m328p
    (es := reading 50 250 ++ reading 5 10 ++ reading 50 250)
    (P := fun s => decide (s.ct.pid.integr ≠ 0) && !s.set.storeRequest && !s.ct.idle)
    (by decide)
  simp only [Bool.and_eq_true, decide_eq_true_eq, Bool.not_eq_true'] at hp
  exact ⟨s, C100_covers _ _ h, hp.1.1, hp.1.2, hp.2⟩

/-- reading a factor of a mode which is not even selected clears the integral; reading the idle set point requests a
    store; a written set point of 380 C is read back; preset 6, and 262 as well, are undefined; 1000 C is accepted -/
example : ∃ s, RunningSim .m328p s ∧ s.ct.pid.integr ≠ 0 ∧ s.set.storeRequest = false ∧
    (∃ s' v, simRead .m328p s (.k 2 .kd) = some (s', v) ∧ s'.ct.pid.integr = 0) ∧
    (∃ s' v, simRead .m328p s .idleSp = some (s', v) ∧ s'.set.storeRequest = true) ∧
    (∃ s' s'', simWrite .m328p s .setpoint (380 * 64) = some s' ∧ simRead .m328p s' .setpoint = some (s'', 380 * 64)) ∧
    (∃ s', simGuiUpdate .m328p s 350 = some s' ∧ s'.set.cache.active = 0) ∧
    simWrite .m328p s .active 6 = none ∧ simWrite .m328p s .active 262 = none ∧
    (∃ s', simWrite .m328p s .setpoint (1000 * 64) = some s' ∧ s'.ct.pid.setpoint = 1000 * 64) := by
  obtain ⟨s, h, h1, h2, h3⟩ := demo250
  have l : InLimits .setpoint (380 * 64) := by unfold InLimits; omega
  obtain ⟨s1, v1, e1, f1⟩ := C100_read_factor _ s 2 .kd h
  obtain ⟨s2, v2, e2, f2, -⟩ := C100_read_idle _ s rfl h
  obtain ⟨s3, e3⟩ := (C100_safe _ s h).1 _ _ l
  obtain ⟨s4, e4⟩ := C100_read_back _ s s3 _ _ h l (fun h => by cases h) e3
  obtain ⟨s5, e5, -, f5, -⟩ := C100_gui _ s 350 h (by norm_num) (by norm_num)
  obtain ⟨s6, e6, f6, -⟩ := C100_no_limit _ s (1000 * 64) h (by unfold S24; omega) h3
  exact ⟨s, h, h1, h2, ⟨s1, v1, e1, by rw [f1]⟩, ⟨s2, v2, e2, f2⟩, ⟨s3, s4, e3, e4⟩, ⟨s5, e5, f5⟩,
    C100_no_preset _ s 6 (by decide), C100_no_preset _ s 262 (by decide), s6, e6, f6⟩

end Verif.Props
