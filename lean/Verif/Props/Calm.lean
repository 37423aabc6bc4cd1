import Verif.Spec.Interrupts
import Verif.Spec.Calm
import Verif.Props.Loop
/-
C77: a device whose settings are not changed while they are being written always boots with valid settings.
-/
namespace Verif.Props
open Spec

/-! ### what is in the EEPROM -/

/-- the newest complete slot holds settings within the limits -/
private def Good (c : Conf) (s : Sys) : Prop := ∃ m j, StoreInv c s.set m j ∧ WithinLimits c m

private theorem lim_same {c : Conf} {a b : Settings} (h : SameVals a b) (hb : WithinLimits c b) : WithinLimits c a := by
  have h : ({ a with serial := 0 } : Settings) = { b with serial := 0 } := h
  have hk : a.k = b.k := (congrArg (fun x : Settings => x.k) h :)
  have hi : a.idleSp = b.idleSp := (congrArg (fun x : Settings => x.idleSp) h :)
  have hs : a.sp = b.sp := (congrArg (fun x : Settings => x.sp) h :)
  have ha : a.active = b.active := (congrArg (fun x : Settings => x.active) h :)
  have hd : a.adj = b.adj := (congrArg (fun x : Settings => x.adj) h :)
  obtain ⟨k1, k2, k3, k4, k5⟩ := hb
  exact ⟨by rw [hk]; exact k1, by rw [hi]; exact k2, by rw [hs]; exact k3, by rw [ha]; exact k4, by rw [hd]; exact k5⟩

private theorem same_eq {a b : Settings} (h : SameVals a b) (hs : a.serial = b.serial) : a = b := by
  have : ({ a with serial := 0 } : Settings) = { b with serial := 0 } := h
  cases a
  cases b
  simp only [Settings.mk.injEq] at this hs ⊢
  exact ⟨this.1, this.2.1, this.2.2.1, this.2.2.2.1, this.2.2.2.2.1, this.2.2.2.2.2.1, this.2.2.2.2.2.2.1, hs⟩

private theorem shipped_ok {c : Conf} (hc : c.eering = true) {st : SettingsSt}
    (e : settingsInit c (shippedEeprom c) = some st) : StoreInv c st (shippedSettings c) 0 := by
  obtain ⟨h1, h2, h3⟩ := shipped_inv c hc
  obtain ⟨s, e', hi, -⟩ := init_inv hc h1 h2 h3
  rw [e] at e'
  cases e'
  exact hi

private theorem good_first {c : Conf} (hc : c.eering = true) {pinb : BitVec 8} {s : Sys}
    (e : boot c (shippedEeprom c) pinb = some s) : Good c s := by
  have hv := shipped_valid c
  have hs := boot_set hv e
  refine ⟨_, _, shipped_ok hc hs, ?_⟩
  obtain ⟨s', e', -, -, hca⟩ := init_inv hc (shipped_inv c hc).1 (shipped_inv c hc).2.1 (shipped_inv c hc).2.2
  rw [← hca]
  exact hv s' e'

private theorem good_step {c : Conf} (hc : c.eering = true) {s s' : Sys} {e : Ev} (hr : Running c s) (h : Good c s)
    (hp : possible s e = true) (hs : step c s e = some s') (hst : StartsStore s s' → storing s.set = false)
    (hcalm : storing s.set = true → SameVals s.set.cache s'.set.cache) : Good c s' := by
  obtain ⟨m, j, hi, hm⟩ := h
  have hr' := hr.step hp hs
  have hl' := (Running.inv hr').set.lim
  rcases step_set (Running.inv hr) hs with ⟨x, rfl, ex, rfl⟩ | ⟨rfl, rfl⟩ | ⟨rfl, rfl⟩ | h | ⟨x, hk, hx⟩
  · obtain ⟨y, ey, hca, h1, h2⟩ := hi.isr hc hp
    rw [ex] at ey
    cases ey
    cases hh : storing x with
    | true => exact ⟨m, j, h1 hh, hm⟩
    | false => exact ⟨_, _, h2 hh, hl'⟩
  · obtain ⟨hca, h1, h2⟩ := hi.progDone hc hp
    cases hh : storing (eeProgDone s.set) with
    | true => exact ⟨m, j, h1 hh, hm⟩
    | false => exact ⟨_, _, h2 hh, hl'⟩
  · refine ⟨m, j, (hi.work hc s.now fun h2 => hst ?_).1, hm⟩
    unfold settingsWork at h2
    have hq : s.set.storeRequest = true := by
      cases hq : s.set.storeRequest with
      | true => rfl
      | false => rw [if_pos (by rw [hq]; rfl)] at h2; cases h2
    have ht : timerExpired s.now s.set.storeTimer = true := by
      cases ht : timerExpired s.now s.set.storeTimer with
      | true => rfl
      | false => rw [if_neg (by rw [hq]; decide), if_pos (by rw [ht]; rfl)] at h2; cases h2
    refine ⟨hq, ?_⟩
    show (settingsWork c s.now s.set).1.storeRequest = false
    unfold settingsWork
    rw [if_neg (by rw [hq]; decide), if_neg (by rw [ht]; decide)]
    simp only []
    split <;> rfl
  · exact ⟨m, j, by rw [h]; exact hi, hm⟩
  · refine ⟨m, j, ?_, hm⟩
    rw [hx]
    refine hi.change rfl rfl rfl rfl rfl hk.serial (hk.wf (c := c) hi.cwf ?_) fun hh => ?_
    · rw [hx] at hl'
      exact hl'
    · have := hcalm hh
      rw [hx] at this
      exact (same_eq this hk.serial.symm).symm

private theorem good_valid {c : Conf} (hc : c.eering = true) {s : Sys} (hr : Running c s) (h : Good c s) {v : Nat}
    (hv : v < 256) : ValidEeprom c (powerFail s.set v) := by
  obtain ⟨m, j, hi, hm⟩ := h
  obtain ⟨s', m', j', e, -, -, hca, h⟩ := hi.crash hc hv
  intro st e'
  rw [e] at e'
  cases e'
  rw [hca]
  rcases h with ⟨rfl, -⟩ | ⟨-, h⟩
  · exact hm
  · exact lim_same h (Running.inv hr).set.lim

private theorem good_reboot {c : Conf} (hc : c.eering = true) {s s' : Sys} {pinb : BitVec 8} (hr : Running c s)
    (h : Good c s) {v : Nat} (hv : v < 256) (e : boot c (powerFail s.set v) pinb = some s') : Good c s' := by
  have hval := good_valid hc hr h hv
  obtain ⟨m, j, hi, hm⟩ := h
  obtain ⟨x, m', j', ex, hx, -, hca, -⟩ := hi.crash hc hv
  have := boot_set hval e
  rw [ex] at this
  have hset : x = s'.set := Option.some.inj this
  refine ⟨m', j', hset ▸ hx, ?_⟩
  rw [← hca]
  exact hval x ex

private theorem calm_inv {c : Conf} (hc : c.eering = true) {s : Sys} (h : Undisturbed c s) : Lasting c s ∧ Good c s := by
  induction h with
  | first e => exact ⟨Lasting.first e, good_first hc e⟩
  | step _ hp hs hst hcalm ih =>
    exact ⟨ih.1.step hp hs hst, good_step hc (lasting_inv ih.1).1 ih.2 hp hs hst hcalm⟩
  | reboot _ hv e ih =>
    have hr := (lasting_inv ih.1).1
    exact ⟨ih.1.reboot hv (good_valid hc hr ih.2 hv) e, good_reboot hc hr ih.2 hv e⟩

/-- **C79**: in the main loop a store starts only when the one before has finished; the EEPROM interrupt is then not
    enabled. -/
theorem C79_starts {v : Speed} {c : Conf} (hv : v.Sane) {x y : Loop} {e : Option Ev} (h : LoopLife v c x)
    (hs : LoopStep c x e y) (hst : StartsStore x.s y.s) : storing x.s.set = false := by
  obtain ⟨r, S, h⟩ := h.inv hv
  have hW : v.W ≤ 8191 := by
    have : 5 + 50 + 2 * v.A + 4 * v.W ≤ 32767 := hv.1
    omega
  rcases hs.sys with ⟨-, es, -⟩ | ⟨f, rfl, hp, hf, -⟩
  · rw [StartsStore, es] at hst
    rw [hst.1] at hst
    cases hst.2
  · have hfw := C66_only c x.s y.s f (window_inv h.inv.win).1 hf hst
    subst hfw
    obtain ⟨R, hR, hRT⟩ := (C66_served c x.s y.s x.T r h.un hf (fun R hR => by have := h.late hR; omega)).1.mp hst
    cases hq : storing x.s.set with
    | false => rfl
    | true =>
      have h1 := h.ends hq
      have h2 := (h.after R hR).1
      have := hv.2
      omega

/-! ### C77 -/

/-- With the EEPROM ring, over the whole life of the device: if no setting is changed while a store is in progress, then
    whenever power fails, the settings found at the next boot are within the limits, and the device boots. -/
theorem C77_valid (c : Conf) (hc : c.eering = true) (s : Sys) (h : Undisturbed c s) (v : Nat) (hv : v < 256)
    (pinb : BitVec 8) :
    Lasting c s ∧ ValidEeprom c (powerFail s.set v) ∧ ∃ s', boot c (powerFail s.set v) pinb = some s' := by
  obtain ⟨hl, hg⟩ := calm_inv hc h
  have hval := good_valid hc (lasting_inv hl).1 hg hv
  refine ⟨hl, hval, ?_⟩
  obtain ⟨s', e, -⟩ := boot_ok (pinb := pinb) hval
  exact ⟨s', e⟩

/-- The same for the main loop, where a store has always finished before the next one starts: everything proved about
    the life of the device holds, and nothing has to be assumed about the settings found at a boot. -/
theorem C77_life (v : Speed) (c : Conf) (hv : v.Sane) (hc : c.eering = true) (x : Loop) (h : CalmLife v c x) :
    LoopLife v c x ∧ Undisturbed c x.s ∧ ∀ b < 256, ValidEeprom c (powerFail x.s.set b) := by
  suffices hh : LoopLife v c x ∧ Undisturbed c x.s from
    ⟨hh.1, hh.2, fun b hb => (C77_valid c hc x.s hh.2 b hb 0).2.1⟩
  induction h with
  | first e => exact ⟨LoopLife.first e, Undisturbed.first e⟩
  | @step x e y _ hs ht hcalm ih =>
    have hy := ih.1.step hs ht
    refine ⟨hy, ?_⟩
    rcases hs.sys with ⟨-, es, -⟩ | ⟨f, rfl, hp, hf, -⟩
    · rw [es]; exact ih.2
    · exact ih.2.step hp hf (C79_starts hv ih.1 hs) hcalm
  | reboot _ hb e ih =>
    exact ⟨ih.1.reboot hb (C77_valid c hc _ ih.2 _ hb 0).2.1 e, ih.2.reboot hb e⟩

/-! ### a concrete life -/

/-- a setting is changed while a store is in progress -/
private def Disturbs (x : Loop) (_ : Option Ev) (y : Loop) : Prop :=
  storing x.s.set = true ∧ ¬ SameVals x.s.set.cache y.s.set.cache

private instance (x : Loop) (e : Option Ev) (y : Loop) : Decidable (Disturbs x e y) := by
  unfold Disturbs; infer_instance

private theorem disturbs_tick {c : Conf} : TickCheck c Disturbs := by
  rintro x n y t hs ⟨-, h⟩
  exact absurd (by cases hs with
    | isr h1 h2 h3 => cases h3; rfl
    | call h1 h2 => cases hp : x.pc <;> rw [show Loop.pc _ = x.pc from rfl, hp] at h1 <;> cases h1) h

private theorem stretch_calm {v : Speed} {c : Conf} {x y : Loop} (h : CalmLife v c x) (hs : Stretch v c Disturbs x y) :
    CalmLife v c y := by
  induction hs with
  | start => exact h
  | step _ hs ht hn ih =>
    exact ih.step hs ht fun hh => Classical.byContradiction fun hd => hn ⟨hh, hd⟩

private theorem bind_any {α β : Type} {x : Option α} {f : α → Option β} {P : α → β → Bool}
    (h : (x.bind fun a => (f a).map fun b => P a b) = some true) : ∃ a b, x = some a ∧ f a = some b ∧ P a b = true := by
  obtain ⟨a, h1, h2⟩ := Option.bind_eq_some_iff.mp h
  obtain ⟨b, h3, h4⟩ := Option.map_eq_some_iff.mp h2
  exact ⟨a, b, h1, h3, h4⟩

set_option maxRecDepth 100000 in
/-- Preset 4 is selected instead of 3; power fails in the middle of the store, while a byte is being programmed: the
    life goes on with preset 3. -/
example : ∃ x s, CalmLife .shipped .m88p x ∧ x.s.set.prog.isSome = true ∧ x.s.set.cache.active = 4 ∧
    boot .m88p (powerFail x.s.set 0x55) 0xFF = some s ∧ s.set.cache.active = 3 ∧
    CalmLife .shipped .m88p ⟨s, .reset, 0, 0, 0, 0, 0⟩ := by
  obtain ⟨x, s, h1, h2, h3⟩ := bind_any
    (x := (loopBoot .m88p 0xFF).bind fun x => (loopCmds .shipped .m88p Disturbs x
      (samples 20 280 ++ round 0xEF ++ samples 20 280 ++ round 0xFF ++ samples 10 280 ++ [.pause 10] ++ round 0xEF ++
        samples 5 0 ++ [.pause 15] ++ round 0xFF ++ cycles 2 280 0)).bind fun y => loopDrive .shipped .m88p Disturbs 73 y)
    (f := fun x => boot .m88p (powerFail x.s.set 0x55) 0xFF)
    (P := fun x s => x.s.set.prog.isSome && (x.s.set.cache.active == 4 && s.set.cache.active == 3)) (by decide)
  obtain ⟨b, hb, h1⟩ := Option.bind_eq_some_iff.mp h1
  obtain ⟨y, k1, k2⟩ := Option.bind_eq_some_iff.mp h1
  obtain ⟨s0, hb0, rfl⟩ := Option.map_eq_some_iff.mp hb
  simp only [Bool.and_eq_true, beq_iff_eq] at h3
  have hx : CalmLife .shipped .m88p x := stretch_calm (CalmLife.first hb0)
    ((loopCmds_stretch disturbs_tick k1).trans (loopDrive_stretch disturbs_tick 73 k2))
  exact ⟨x, s, hx, h3.1, h3.2.1, h2, h3.2.2, hx.reboot (by decide) h2⟩

/-! ### the condition is needed -/

/-- the EEPROM writer runs up to byte `stop`; a byte takes 3 ms -/
private def slowDrive (stop : Nat) : Nat → Loop → Option Loop
  | 0, x => some x
  | n + 1, x =>
    if x.s.set.prog.isSome then
      (loopCmds .shipped .m88p Never x [.pause 3, .ev .eeDone]).bind (slowDrive stop n)
    else if x.s.set.eerie && decide (x.s.set.eeOff < stop) then
      (loopCmds .shipped .m88p Never x [.ev .eeIsr]).bind (slowDrive stop n)
    else some x

private theorem slowDrive_stretch (stop n : Nat) : ∀ {x y : Loop},
    slowDrive stop n x = some y → Stretch .shipped .m88p Never x y := by
  induction n with
  | zero => intro x y h; cases h; exact Stretch.start
  | succ n ih =>
    intro x y h
    unfold slowDrive at h
    split at h
    · obtain ⟨z, h1, h2⟩ := Option.bind_eq_some_iff.mp h
      exact (loopCmds_stretch never_tick h1).trans (ih h2)
    · split at h
      · obtain ⟨z, h1, h2⟩ := Option.bind_eq_some_iff.mp h
        exact (loopCmds_stretch never_tick h1).trans (ih h2)
      · cases h; exact Stretch.start

private def temp (pinb : BitVec 8) (n : Nat) : List Cmd := samples 50 280 ++ [.pause n] ++ round pinb
private def curr (pinb : BitVec 8) (n : Nat) : List Cmd := samples 5 0 ++ [.pause n] ++ round pinb
private def both (p q : BitVec 8) : List Cmd := temp p 0 ++ curr q 45

/-- SET three times leads to the calibration screen; minus makes the adjustment -1 C at 700 ms; plus is pressed at
    1700 ms, when the store starts; its first byte is written. -/
private def minusPlus : List Cmd :=
  both 0xFB 0xFB ++ both 0xFB 0xFF ++ both 0xFB 0xFB ++ both 0xFB 0xFF ++ both 0xFB 0xFB ++ both 0xFB 0xFF ++
  both 0xF7 0xF7 ++ both 0xF7 0xF7 ++ both 0xFF 0xFF ++
  temp 0xFF 200 ++ curr 0xFF 245 ++ temp 0xFF 50 ++ curr 0xFF 45 ++ temp 0xEF 100 ++
  samples 3 0 ++ [.ev .eeIsr] ++ samples 2 0 ++ [.ev .eeDone]

/-- the adjustment becomes 0 C, and the rest of the store is written -/
private def rest : List Cmd :=
  round 0xFF ++ [.ev .eeIsr, .ev .eeIsr, .ev .eeIsr, .ev .eeIsr] ++ samples 3 280 ++ [.ev .eeDone]

set_option maxRecDepth 100000 in
/-- If a setting is changed while a store is in progress, the settings found at the next boot need not be within the
    limits: the adjustment is changed from -1 C to 0 C while the store of -1 C, 83 ms old, has written two of its three
    bytes; power fails when the store has finished (and before the next one has): the adjustment found is 1023 C. -/
theorem C77_needed : ∃ x s, LoopLife .shipped .m88p x ∧ ¬ ValidEeprom .m88p (powerFail x.s.set 0) ∧
    boot .m88p (powerFail x.s.set 0) 0xFF = some s ∧ s.set.cache.adj = 1023 * 64 := by
  obtain ⟨x, s, h1, h2, h3⟩ := bind_any
    (x := (loopBoot .m88p 0xFF).bind fun x => (loopCmds .shipped .m88p Never x minusPlus).bind fun y =>
      (slowDrive 60 200 y).bind fun z => loopCmds .shipped .m88p Never z rest)
    (f := fun x => (boot .m88p (powerFail x.s.set 0) 0xFF).bind fun s =>
      (settingsInit .m88p (powerFail x.s.set 0)).map fun t => (s, t))
    (P := fun x s => s.1.set.cache.adj == 1023 * 64 && s.2.cache.adj == 1023 * 64) (by decide)
  obtain ⟨b, hb, h1⟩ := Option.bind_eq_some_iff.mp h1
  obtain ⟨y, k1, h1⟩ := Option.bind_eq_some_iff.mp h1
  obtain ⟨z, k2, k3⟩ := Option.bind_eq_some_iff.mp h1
  obtain ⟨s0, e1, h2⟩ := Option.bind_eq_some_iff.mp h2
  obtain ⟨t, e2, h2⟩ := Option.map_eq_some_iff.mp h2
  subst h2
  simp only [Bool.and_eq_true, beq_iff_eq] at h3
  refine ⟨x, s0, ((((loopCmds_stretch never_tick k1).trans (slowDrive_stretch 60 200 k2)).trans
    (loopCmds_stretch never_tick k3))).life (loopBoot_life hb), fun hv => ?_, e1, h3.1⟩
  have := (hv t e2).adj
  omega

/-- With the adjustment found in `C77_needed` the shipped builds hardly measure the temperature any more: a mean
    reading is implausible unless it is at least 730, which stands for 1003 C; and the largest reading of all, which
    stands for 1485 C, is taken for 462 C. -/
theorem C77_blind (c : Conf) (now p : Int) (m m' : Meas) (mc mc' : MeasCurr) (pl : Plaus) (hc : c.adj = true)
    (hs : c.smd = true) (ha : m.active = 1) (hadj : m.chan[1].adj = 1023 * 64) (hn : 0 ≤ m.avgCount)
    (hr : 0 ≤ m.avgSum ∧ m.avgSum ≤ 1023 * m.avgCount) (e : measHandle c now m mc = some (m', mc', p, pl)) :
    (pl = .plausible ↔ 730 ≤ m.avgSum / m.avgCount) ∧ (m.avgSum / m.avgCount = 1023 → NearestAway p 64 462) := by
  obtain ⟨w, ⟨n, h1, h2⟩, ⟨h3, h4⟩, -⟩ := measHandle_temp e ha hr hn (by rw [hadj]; decide)
  have hlt : m.avgSum / m.avgCount ≤ 1023 := by
    rcases Int.le_iff_eq_or_lt.mp hn with h0 | h0
    · rw [← h0, Int.ediv_zero]; decide
    · exact Int.ediv_le_of_le_mul h0 hr.2
  unfold sensorRaw NearestAway at h1
  unfold PlausibleTemp at h3
  simp only [hc, hs, if_true, hadj] at h1 h2
  generalize m.avgSum / m.avgCount = r at *
  refine ⟨h3.trans ⟨fun h => by omega, fun h => by omega⟩, fun h => ?_⟩
  obtain rfl : p = w := h4.2.2.2.2 (by omega) (by omega)
  obtain rfl : p = 29554 := by omega
  unfold NearestAway
  decide

/-- 730 and 1023 stand for 1003.7 C and 1484.8 C -/
example : TempValue .m88p 730 0 64239 ∧ NearestAway 642390 64 10037 ∧ TempValue .m88p 1023 0 95026 ∧
    NearestAway 950260 64 14848 :=
  ⟨⟨54639, by unfold NearestAway sensorRaw; decide, by decide⟩, by unfold NearestAway; decide,
    ⟨85426, by unfold NearestAway sensorRaw; decide, by decide⟩, by unfold NearestAway; decide⟩

/-- the iron at 265 C (reading 280) is implausible, the reading 1023 plausible -/
example : let m : Meas := ⟨#v[⟨0, false, false, 0⟩, ⟨1023 * 64, false, false, 0⟩], 1, 50, 50 * 280, 0, true, false⟩
    (measHandle .m88p 0 m ⟨false, 0, 0⟩).any (fun x => x.2.2.2 == .notPlausible) = true ∧
    (measHandle .m88p 0 { m with avgSum := 50 * 1023 } ⟨false, 0, 0⟩).any (fun x => x.2.2 == (29554, .plausible)) = true := by
  decide

/-! ### interrupts (C79) -/

set_option maxRecDepth 100000 in
/-- a store starts: the adjustment of -1 C set at 700 ms is stored at 1700 ms -/
example : ∃ x e y, LoopLife .shipped .m88p x ∧ LoopStep .m88p x e y ∧ StartsStore x.s y.s ∧ x.T = 1700 := by
  obtain ⟨x, s, h1, h2, h3⟩ := bind_any
    (x := (loopBoot .m88p 0xFF).bind fun x => loopCmds .shipped .m88p Never x (minusPlus.take (minusPlus.length - 13)))
    (f := fun x => step .m88p x.s .settingsWork)
    (P := fun x s => decide (x.pc = .settings ∧ x.T = 1700 ∧ x.s.set.storeRequest = true ∧ s.set.storeRequest = false))
    (by decide)
  obtain ⟨b, hb, h1⟩ := Option.bind_eq_some_iff.mp h1
  have h3 := of_decide_eq_true h3
  exact ⟨x, _, _, (loopCmds_stretch never_tick h1).life (loopBoot_life hb),
    LoopStep.call (pinb := 0xEF) (e := .settingsWork) (by rw [h3.1]; rfl) h2, ⟨h3.2.2.1, h3.2.2.2⟩, h3.2.1⟩

set_option maxRecDepth 100000 in
/-- A work function which changes a setting and the EEPROM interrupt do not commute: in the state on the way to
    `C77_needed`, with the last byte of the adjustment to be stored, `menu_work` sets the adjustment from -1 C to 0 C; the
    byte programmed is 0xFF if the interrupt comes before it, and there is nothing to be programmed if it comes after. -/
theorem C79_needed : ∃ x, LoopLife .shipped .m88p x ∧ possible x.s .eeIsr = true ∧
    ¬ EitherOrder .m88p x.s .eeIsr .menuWork := by
  obtain ⟨x, s, h1, h2, h3⟩ := bind_any
    (x := (loopBoot .m88p 0xFF).bind fun x => (loopCmds .shipped .m88p Never x minusPlus).bind fun y =>
      slowDrive 60 200 y)
    (f := fun x => ((step .m88p x.s .eeIsr).bind fun s => step .m88p s .menuWork).bind fun s =>
      ((step .m88p x.s .menuWork).bind fun s => step .m88p s .eeIsr).map fun t => (s, t))
    (P := fun x s => possible x.s .eeIsr && (s.1.set.prog == some (124, 0xFF) && s.2.set.prog.isNone))
    (by decide)
  obtain ⟨b, hb, h1⟩ := Option.bind_eq_some_iff.mp h1
  obtain ⟨y, k1, k2⟩ := Option.bind_eq_some_iff.mp h1
  obtain ⟨s1, e1, h2⟩ := Option.bind_eq_some_iff.mp h2
  obtain ⟨s2, e2, rfl⟩ := Option.map_eq_some_iff.mp h2
  simp only [Bool.and_eq_true, beq_iff_eq] at h3
  refine ⟨x, ((loopCmds_stretch never_tick k1).trans (slowDrive_stretch 60 200 k2)).life (loopBoot_life hb), h3.1, ?_⟩
  intro h
  unfold EitherOrder at h
  rw [e1, e2] at h
  cases h
  rw [h3.2.1] at h3
  cases h3.2.2

end Verif.Props
