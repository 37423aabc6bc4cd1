import Verif.Proofs.InvWork
import Verif.Proofs.InvMeas
import Verif.Proofs.Store
/-
Initialisation establishes the invariant and every event keeps it.
-/
namespace Verif
open Spec

/-! ### settings -/

/-- the scan ends within the array for any EEPROM content -/
theorem eeScan_lt {c : Conf} (hc : c.eering = true) (ee : Nat → Nat) :
    ∀ d i fuel serial, i + d = c.nrEe → 0 < d → d < fuel →
      serial % 256 = (eeReadByte c ee 63 + i) % 256 →
      ∃ f, eeScan c ee fuel i serial = some f ∧ f < c.nrEe := by
  obtain ⟨hsz, hN, hN'⟩ := nrEe_ring hc
  intro d
  induction d with
  | zero => intro i fuel serial _ h; omega
  | succ d ih =>
    intro i fuel serial hi _ hf hs
    obtain ⟨f, rfl⟩ : ∃ f, fuel = f + 1 := ⟨fuel - 1, by omega⟩
    have hn : ringNext i (c.nrEe + 1) = i + 1 := by unfold ringNext; simp only []; split <;> omega
    simp only [eeScan, hn]
    by_cases hne : eeReadByte c ee ((i + 1) * 64 + 63) ≠ (serial + 1) % 256
    · rw [if_pos hne]; exact ⟨i, rfl, by omega⟩
    · rw [if_neg hne, if_pos (by omega)]
      have heq : eeReadByte c ee ((i + 1) * 64 + 63) = (serial + 1) % 256 := by simpa using hne
      by_cases hd : d = 0
      · exfalso
        have hw : ((i + 1) * 64 + 63) % c.e2size = 63 := by
          rw [← hsz, show (i + 1) * 64 + 63 = 63 + c.nrEe * 64 by omega, Nat.add_mod_right,
            Nat.mod_eq_of_lt (by omega)]
        have hz : eeReadByte c ee ((i + 1) * 64 + 63) = eeReadByte c ee 63 := by
          unfold eeReadByte
          rw [hw, Nat.mod_eq_of_lt (by omega)]
        rw [hz] at heq
        omega
      · exact ih (i + 1) f _ (by omega) (by omega) (by omega) (by omega)

theorem eeFind_lt (c : Conf) (ee : Nat → Nat) : ∃ f, eeFind c ee = some f ∧ f < c.nrEe := by
  unfold eeFind
  split
  · rename_i hc
    obtain ⟨hsz, hN, hN'⟩ := nrEe_ring hc
    exact eeScan_lt hc ee c.nrEe 0 _ _ (by omega) (by omega) (by omega) (by omega)
  · rename_i hc
    refine ⟨0, rfl, ?_⟩
    unfold Conf.nrEe
    rw [if_neg hc]
    decide

theorem settingsInit_ok (c : Conf) (ee : Nat → Nat) : ∃ st, settingsInit c ee = some st ∧
    (WithinLimits c st.cache → SetInv c st) := by
  obtain ⟨f, e, hf⟩ := eeFind_lt c ee
  refine ⟨_, by unfold settingsInit; rw [e]; rfl, fun h => ?_⟩
  exact { lim := h
          off := fun hh => absurd hh Bool.false_ne_true
          idx := (by
            show (if c.eering = true then f else 0) < c.nrEe
            split <;> omega) }

theorem SetInv.isr {c : Conf} {s : SettingsSt} (h : SetInv c s) (hr : eeReady s = true) :
    Safe (eeIsr c s) fun s' => SetInv c s' ∧ s'.cache = s.cache := by
  have he : s.eerie = true := by
    unfold eeReady at hr; revert hr; cases s.eerie <;> simp
  have ho := h.off he
  have hi : wslot c s < c.nrEe := by
    unfold wslot
    split
    · exact h.idx
    · have := h.idx; omega
  rw [eeIsr_eq ho hi]
  refine Safe.pure ⟨?_, rfl⟩
  exact { lim := h.lim
          off := fun hh => (by
            revert hh
            simp only []
            split
            · intro hh; cases hh
            · intro _; omega)
          idx := h.idx }

theorem SetInv.done {c : Conf} {s : SettingsSt} (h : SetInv c s) :
    SetInv c (eeProgDone s) ∧ (eeProgDone s).cache = s.cache := by
  unfold eeProgDone
  split
  · exact ⟨h, rfl⟩
  · exact ⟨{ h with }, rfl⟩

theorem withinLimits_serial {c : Conf} {x : Settings} (h : WithinLimits c x) (n : Nat) :
    WithinLimits c { x with serial := n } := { h with }

theorem SetInv.work {c : Conf} {s : SettingsSt} (h : SetInv c s) (now : Int) :
    SetInv c (settingsWork c now s).1 ∧
      ∃ n, (settingsWork c now s).1.cache = { s.cache with serial := n } := by
  unfold settingsWork
  split
  · exact ⟨h, s.cache.serial, rfl⟩
  · split
    · exact ⟨h, s.cache.serial, rfl⟩
    · simp only []
      split
      · rename_i hc
        obtain ⟨_, hN, hN'⟩ := nrEe_ring hc
        exact ⟨{ lim := withinLimits_serial h.lim _, off := fun _ => (by decide : 0 < 64),
                 idx := (ringNext_lt hN hN' h.idx).1 }, _, rfl⟩
      · exact ⟨{ h with off := fun _ => (by decide : 0 < 64) }, s.cache.serial, rfl⟩

/-- the serial number does not matter to the rest of the firmware -/
theorem Inv.withSet {c : Conf} {s : Sys} (h : Inv c s) {x : SettingsSt} (hx : SetInv c x) {n : Nat}
    (e : x.cache = { s.set.cache with serial := n }) : Inv c { s with set := x } :=
  { h with
    set := hx
    meas := (by
      show MeasInv s.meas (if c.adj then x.cache.adj else 0)
      rw [e]; exact h.meas)
    ct := (by
      show CtInv c x.cache s.ct
      rw [e]
      exact { h.ct with k := h.ct.k, sp := h.ct.sp }) }

/-! ### measurement interrupt -/

theorem MeasInv.isr {m : Meas} {adj : Int} (h : MeasInv m adj) {now raw : Int} (h0 : 0 ≤ raw)
    (h1 : raw < 1024) (hc : m.avgCount < 65535) (ha : m.adcOn = true) :
    MeasInv (adcIsr now m raw) adj := by
  obtain ⟨c0, c1⟩ := h.cnt
  obtain ⟨s0, s1⟩ := h.sum
  have e1 : toU16 (m.avgCount + 1) = m.avgCount + 1 := by unfold toU16; omega
  have e2 : toU32 (m.avgSum + raw) = m.avgSum + raw := by unfold toU32; omega
  have hn := h.conv ha
  unfold adcIsr
  simp only [e1, e2]
  split
  · exact { h with
      cnt := (by show 0 ≤ m.avgCount + 1 ∧ m.avgCount + 1 ≤ 65535; omega)
      sum := (by show 0 ≤ m.avgSum + raw ∧ m.avgSum + raw ≤ 1023 * (m.avgCount + 1); omega)
      avail := fun _ => (by show 0 < m.avgCount + 1; omega)
      conv := fun hh => absurd hh (by simp) }
  · exact { h with
      cnt := (by show 0 ≤ m.avgCount + 1 ∧ m.avgCount + 1 ≤ 65535; omega)
      sum := (by show 0 ≤ m.avgSum + raw ∧ m.avgSum + raw ≤ 1023 * (m.avgCount + 1); omega)
      avail := fun _ => (by show 0 < m.avgCount + 1; omega)
      conv := fun _ => hn }

/-! ### every event -/

theorem Inv.step {c : Conf} {s : Sys} (h : Inv c s) {e : Ev} (hp : possible s e = true) :
    Safe (step c s e) (Inv c) := by
  cases e with
  | tick =>
    refine Safe.pure { h with now := ?_ }
    show 0 ≤ timerTick s.now ∧ timerTick s.now ≤ 65535
    unfold timerTick toU16; omega
  | adc raw =>
    simp only [possible, Bool.and_eq_true, decide_eq_true_eq] at hp
    obtain ⟨⟨h1, h2⟩, h3⟩ := hp
    exact Safe.pure { h with meas := h.meas.isr (by omega) (by omega) h3 h1 }
  | eeIsr =>
    exact Safe.bind (h.set.isr hp) fun x ⟨hx, e⟩ =>
      Safe.pure (h.withSet hx (n := s.set.cache.serial) e)
  | eeDone =>
    exact Safe.pure (h.withSet h.set.done.1 (n := s.set.cache.serial) h.set.done.2)
  | measureWork => exact h.measureWork
  | menuWork => exact h.menuWork
  | displayWork =>
    exact Safe.bind h.disp.work fun pd hd => Safe.pure { h with disp := hd }
  | buttonsWork pinb => exact h.buttonsWork pinb
  | settingsWork =>
    obtain ⟨h1, n, e⟩ := h.set.work s.now
    exact Safe.pure (h.withSet h1 e)

/-! ### initialisation -/

/-- the ports after `buttons_init` -/
def bootPorts : Ports :=
  (Ports.clrBits { v := PortVals.reset, log := [] } .ddrB BUTTONS_MASK).orBits .portB BUTTONS_MASK

/-- ports after `pwmcurr_init` -/
def bootPwm (p : Ports) : Ports := (p.orBits .portB 0x02).orBits .ddrB 0x02

/-- ports after `unused_pins_init` -/
def bootUnused (p : Ports) : Ports :=
  ((((((p.clrBits .ddrB 0x20).orBits .portB 0x20).clrBits .ddrB 0x40).orBits .portB 0x40).clrBits
    .ddrC 0x01).orBits .portC 0x01)

/-- ports and display after initialisation, without and with debugging enabled at boot -/
def bootIo (dbg : Bool) : Option (Ports × Display) := do
  let (p, d) ← displayEnable 0 bootPorts Display.zero true
  let p := bootPwm p
  if dbg then do
    let (p, d) ← displayEnable 0 p d false
    return (bootUnused { p with v := { p.v with txen := true } }, d)
  else return (bootUnused p, d)

/-- what is left to check of `DispInv`, decidably -/
def ioCheck (dbg : Bool) (p : Ports) (d : Display) : Bool :=
  d.mux == 0 && (List.finRange 4).all (fun i => d.digit[i].sseg.iomap == some digitIomaps[i] &&
    d.digit[i].sseg.enMask == 0xFF) && d.enabled == !dbg && p.v.txen == dbg &&
  !p.v.portB.getLsbD 7 && !p.v.portC.getLsbD 3 && !p.v.portC.getLsbD 4 && !p.v.portC.getLsbD 5 &&
  p.v.ddrD == (if d.enabled then 0xFF else 0) && p.v.ddrC &&& 0x38 == (if d.enabled then 0x38 else 0) &&
  p.v.ddrB &&& 0x80 == (if d.enabled then 0x80 else 0) && (d.enabled || p.v.portD == 0) &&
  p.v.ddrB &&& 0x7F == 0x02 && p.v.portB &&& 0x7F == 0x7F && p.v.ddrC &&& 0xC7 == 0 &&
  p.v.portC &&& 0xC7 == 1

set_option maxRecDepth 100000 in
theorem bootIo_check : ∀ dbg, (bootIo dbg).any (fun pd => ioCheck dbg pd.1 pd.2) = true := by
  decide

theorem ioCheck_inv {c : Conf} {dbg : Bool} {p : Ports} {d : Display} (h : ioCheck dbg p d = true)
    (hc : c.debug = false → dbg = false) : DispInv c d p.v dbg := by
  simp only [ioCheck, Bool.and_eq_true, beq_iff_eq, Bool.not_eq_true', List.all_eq_true,
    List.mem_finRange, true_implies, Bool.or_eq_true] at h
  obtain ⟨⟨⟨⟨⟨⟨⟨⟨⟨⟨⟨⟨⟨⟨⟨h1, h2⟩, h3⟩, h4⟩, h5⟩, h6⟩, h7⟩, h8⟩, h9⟩, h10⟩, h11⟩, h12⟩, h13⟩, h14⟩, h15⟩, h16⟩ := h
  exact {
    mux := (by omega)
    io := fun i hi => h2 ⟨i, hi⟩
    en := h3
    nodbg := hc
    tx := h4
    drv := fun i hi => (by rw [driverOn_off h5 h6 h7 h8] at hi; cases hi)
    pins := ⟨h9, h10, h11⟩
    portD := fun hh => (by rcases h12 with e | e; rw [hh] at e; cases e; exact e)
    fixed := ⟨h13, h14, h15, h16⟩ }

theorem bootIo_ok {c : Conf} {dbg : Bool} (hc : c.debug = false → dbg = false) :
    ∃ p d, bootIo dbg = some (p, d) ∧ DispInv c d p.v dbg := by
  have h := bootIo_check dbg
  match e : bootIo dbg with
  | none => rw [e] at h; cases h
  | some (p, d) => rw [e] at h; exact ⟨p, d, rfl, ioCheck_inv h hc⟩

theorem bootDisp_ok : ∃ p d, displayEnable 0 bootPorts Display.zero true = some (p, d) ∧
    p.v.txen = false ∧ d.enabled = true := by
  have h : (displayEnable 0 bootPorts Display.zero true).any
      (fun pd => !pd.1.v.txen && pd.2.enabled) = true := by decide
  match e : displayEnable 0 bootPorts Display.zero true with
  | none => rw [e] at h; cases h
  | some (p, d) =>
    rw [e] at h
    simp only [Option.any_some, Bool.and_eq_true, Bool.not_eq_true'] at h
    exact ⟨p, d, rfl, h⟩

/-- `debug_init` and `display_init` together -/
theorem bootFirst (c : Conf) {s : Sys} (h1 : s.now = 0) (h2 : s.ports = bootPorts)
    (h3 : s.disp = Display.zero) (h4 : s.debugEn = false) {p : Ports} {d : Display}
    (e : displayEnable 0 bootPorts Display.zero true = some (p, d)) (hp : p.v.txen = false)
    (hd : d.enabled = true) :
    (debugEnable c s false).bind displayInit = some { s with ports := p, disp := d } := by
  have e2 : displayEnable 0 p d true = some (p, d) := by
    unfold displayEnable; rw [if_pos hd.symm]
  have e3 : ({ p with v := { p.v with txen := false } } : Ports) = p := by
    rw [← hp]
  unfold debugEnable displayInit
  cases c.debug
  · simp only [Bool.false_eq_true, if_false, Option.bind_some, h1, h2, h3, e, Option.bind_eq_bind, pure]
  · simp only [if_true, h1, h2, h3, Bool.not_false, e, Option.bind_eq_bind, Option.bind_some, pure, e3, e2]
    rw [← h4]

/-- current controller after initialisation -/
def bootCc : ContrCurr :=
  { enabled := true, restricted := true, emerg := 0,
    pid := { k := contrcurrFactors, setpoint := 0, iNeg := -320, iPos := 320, yNeg := 0, yPos := 3200,
             prevE := 0, integr := 0 },
    rState := .enabled, feedback := 0, prevY := 0, timer := 0, model := 0 }

theorem bootCurr {s : Sys} (h : s.cc = (zeroSys s.set).cc)
    (hn : s.now = 0) : contrcurrInit s = some { s with cc := bootCc, ocr := 0x1FFF } := by
  unfold contrcurrInit contrcurrSetEnabled contrcurrSetEmerg
  simp only [h, zeroSys, ne_eq, Bool.true_eq_false, not_false_eq_true, if_true, pwmcurrSet_zero, hn,
    Option.bind_eq_bind, Option.bind_some, pure, Bool.not_true, Bool.false_eq_true, if_false,
    not_true_eq_false]
  rfl

theorem bootTemp {c : Conf} {s : Sys} (hx : WithinLimits c s.set.cache)
    (h : s.ct = (zeroSys s.set).ct) :
    ∃ ct', contrtempInit c s = some { s with
        ct := ct'
        cc := { s.cc with pid := { s.cc.pid with setpoint := 0 } }
        menu := { s.menu with updReq := true } } ∧
      CtInv c s.set.cache ct' ∧ ct'.enabled = true ∧ ct'.emergency = false ∧ ct'.idle = false ∧
      ct'.boost = 0 ∧ ct'.dtTimer = s.now ∧ ct'.feedback = 0 ∧ ct'.pid.integr = 0 ∧ ct'.pid.prevE = 0 := by
  obtain ⟨w, e, ⟨b1, b2⟩, -⟩ := wanted_ok hx false
  have hb : 0 < c.nrBoost := by unfold Conf.nrBoost; split <;> decide
  have hw' : WantedTemp s.set.cache false w := ⟨w, e, rfl⟩
  have hk := hx.k 0 (by decide) hb
  have hr0 : PidRange { pidInit zeroPid s.set.cache.k[0] (-1920) 5120 0 30720 with setpoint := w } := by
    have hz : PidRange ⟨⟨0, 0, 0, 64⟩, w, -1920, 5120, 0, 30720, 0, 0⟩ :=
      { kp := (by decide : Int.natAbs 0 ≤ 6336), ki := (by decide : Int.natAbs 0 ≤ 576),
        kd := (by decide : Int.natAbs 0 ≤ 6336),
        decay := (by decide : (64 : Int) ≤ 64 ∧ (64 : Int) ≤ 8388607),
        sp := ⟨b1, b2⟩,
        prevE := (by decide : Int.natAbs 0 ≤ 32000),
        iLim := (by unfold S24; decide : S24 (-1920) ∧ S24 5120 ∧ (-1920 : Int) ≤ 5120),
        integr := (by decide : (-1920 : Int) ≤ 0 ∧ (0 : Int) ≤ 5120),
        yLim := (by decide : (0 : Int) ≤ 30720) }
    exact pidRange_factors hz (by decide : (-1920 : Int) ≤ 0 ∧ (0 : Int) ≤ 5120) hk
  obtain ⟨h3, eb⟩ := contrtempSetBoost_eq (c := c) (mode := 0)
    (s := { s with ct := { s.ct with
      enabled := true,
      pid := pidReset (pidSetSetpoint (pidInit s.ct.pid s.set.cache.k[0] (-1920) 5120 0 30720) w),
      dtTimer := timerSetNow s.now } }) (by rw [h]; exact hb) hb
  refine ⟨_, ?_, ctInv_boost (mode := 0) (ct := { s.ct with
      enabled := true,
      pid := pidReset (pidSetSetpoint (pidInit s.ct.pid s.set.cache.k[0] (-1920) 5120 0 30720) w),
      dtTimer := timerSetNow s.now,
      emergency := false }) hx ⟨rfl, rfl, rfl, rfl⟩ (by rw [h]; exact hr0) hb (by decide)
      (by rw [h]; exact hw') (by rw [h]; exact (by decide : (-1280 : Int) ≤ 0 ∧ (0 : Int) ≤ 32000)) (fun _ => by rw [h]; rfl), rfl, rfl,
      by rw [h]; rfl, rfl, rfl, by rw [h]; rfl, rfl, rfl⟩
  unfold contrtempInit contrtempDoSetEnabled
  simp only [e, Option.bind_eq_bind, Option.bind_some, eb]
  simp only [pidSetSetpoint, contrtempDoSetEmerg, Bool.false_eq_true, if_false, pure]
  rfl

theorem bootCc_inv : CcInv bootCc 0x1FFF where
  en := rfl
  k := rfl
  lim := ⟨rfl, rfl, rfl, rfl⟩
  sp := by decide
  range :=
    { kp := (by decide), ki := (by decide), kd := (by decide), decay := (by decide), sp := (by decide),
      prevE := (by decide), iLim := (by unfold S24; decide), integr := (by decide), yLim := (by decide) }
  prevY := by decide
  model0 := by decide
  model := by decide
  model' := by decide
  duty := ⟨0, by decide, Props.C13_endpoints.1⟩
  off := fun h => absurd rfl h

theorem zeroMeas_inv (c : Conf) (s : Sys) (h : s.meas = zeroMeas) :
    MeasInv (meastempInit c s).meas (if c.adj then s.set.cache.adj else 0) ∧
      ∃ m, meastempInit c s = { s with meas := m } ∧ m.resultAvail = false ∧ m.active = 0 ∧
        (m.chan[1].timerRunning = false ∧ m.chan[1].plausTimeout = false) ∧
        m.chan[0].timerRunning = false ∧ m.chan[0].plausTimeout = false := by
  unfold meastempInit measureAdjustSet
  cases c.adj
  · simp only [Bool.false_eq_true, if_false, h]
    refine ⟨?_, s.meas, rfl, by rw [h]; rfl, by rw [h]; rfl, by rw [h]; exact ⟨rfl, rfl⟩, by rw [h]; exact ⟨rfl, rfl⟩⟩
    exact { act := (by decide), cnt := (by decide), sum := (by decide), avail := (by decide),
            conv := (by decide), adj0 := (by decide), adj1 := (by decide) }
  · simp only [if_true]
    refine ⟨?_, _, rfl, by rw [h]; rfl, by rw [h]; rfl, by rw [h]; exact ⟨rfl, rfl⟩, by rw [h]; exact ⟨rfl, rfl⟩⟩
    rw [h]
    exact { act := (by decide : 0 < 2), cnt := (by decide : (0 : Int) ≤ 0 ∧ (0 : Int) ≤ 65535),
            sum := (by decide : (0 : Int) ≤ 0 ∧ (0 : Int) ≤ 1023 * 0),
            avail := fun hh => absurd hh Bool.false_ne_true,
            conv := fun hh => absurd hh Bool.false_ne_true,
            adj0 := rfl, adj1 := rfl }

/-- main.c from `meascurr_init` on -/
def bootTail (c : Conf) (pinb : BitVec 8) (s : Sys) : Option Sys := do
  let s := meascurrInit s
  let s := meastempInit c s
  let s ← contrcurrInit s
  let s ← contrtempInit c s
  let s := pwmcurrInit s
  let s ← menuInit c s (buttonIsPressed pinb .set ≠ 0)
  let s := unusedPinsInit s
  measureStart c s

theorem boot_eq (c : Conf) (ee : Nat → Nat) (pinb : BitVec 8) : boot c ee pinb =
    (settingsInit c ee).bind fun set =>
      ((debugEnable c (buttonsInit (zeroSys set)) false).bind displayInit).bind (bootTail c pinb) := by
  unfold boot
  simp only [Option.bind_eq_bind, Option.bind_assoc]
  rfl

/-- the state after the controllers have been initialised -/
structure BootCtl (c : Conf) (s : Sys) : Prop where
  now : s.now = 0
  set : SetInv c s.set
  meas : MeasInv s.meas (if c.adj then s.set.cache.adj else 0)
  avail : s.meas.resultAvail = false
  act : s.meas.active = 0
  fresh : s.meas.chan[1].timerRunning = false ∧ s.meas.chan[1].plausTimeout = false
  fresh0 : s.meas.chan[0].timerRunning = false ∧ s.meas.chan[0].plausTimeout = false
  mcurr : s.mcurr.prevFeedback = 0
  init : s.mcurr.initialized = false
  mt : s.mtPrev = 0
  cc : s.cc = bootCc
  ocr : s.ocr = 0x1FFF
  ct : CtInv c s.set.cache s.ct
  en : s.ct.enabled = true
  emerg : s.ct.emergency = false
  idle : s.ct.idle = false
  boost : s.ct.boost = 0
  fb : s.ct.feedback = 0
  mem : s.ct.pid.integr = 0 ∧ s.ct.pid.prevE = 0
  dtTimer : s.ct.dtTimer = 0
  btn : s.btn = { prev := 0, debounce := 0 }
  menu : ∃ t u, s.menu = ⟨t, 0, .none, 0, 0, none, 0, 0, false, u⟩ ∧
    ((t = .curtemp ∧ s.debugEn = false) ∨ (t = .debug ∧ c.debug = true))
  upd : s.menu.updReq = true
  dp : ∀ j (h : j < 4), s.disp.digit[j].dpForce = false

theorem BootCtl.inv {c : Conf} {s : Sys} (h : BootCtl c s)
    (hd : DispInv c s.disp s.ports.v s.debugEn) : Inv c s := by
  obtain ⟨t, u, em, ht⟩ := h.menu
  exact {
    now := (by rw [h.now]; decide)
    set := h.set
    meas := h.meas
    mcurr := (by rw [h.mcurr]; decide)
    mt := (by rw [h.mt]; decide)
    cc := (by rw [h.cc, h.ocr]; exact bootCc_inv)
    ct := h.ct
    emerg := fun hh => (by rw [h.emerg] at hh; cases hh)
    restr := (by rw [h.cc, h.mt]; rfl)
    menu := (by
      rw [em]
      exact {
        screen := (by rcases ht with ⟨rfl, _⟩ | ⟨rfl, hc⟩; rfl; exact hc)
        ramp := fun hh => absurd rfl hh
        period := (by decide : (0 : Int) ≤ 0 ∧ (0 : Int) ≤ 400)
        err := (by decide : 0 ≤ 3) })
    en := (by rw [h.en, em]; rcases ht with ⟨rfl, _⟩ | ⟨rfl, hc⟩ <;> rfl)
    dbg := fun hh => (by
      rw [em]
      rcases ht with ⟨_, e⟩ | ⟨rfl, _⟩
      · rw [e] at hh; cases hh
      · rfl)
    disp := hd }

/-- the state handed over to the main loop -/
def Booted (c : Conf) (set : SettingsSt) (s : Sys) : Prop :=
  ∃ b t, BootCtl c b ∧ (b.set = set ∧ t = 50) ∧ s = { b with meas := { b.meas with
    active := 1, avgSum := 0, avgCount := 0, avgTimer := t, adcOn := true } }

theorem BootCtl.start {c : Conf} {s : Sys} (h : BootCtl c s)
    (hd : DispInv c s.disp s.ports.v s.debugEn) :
    Safe (measureStart c s) fun s' => Inv c s' ∧ Booted c s.set s' := by
  obtain ⟨t, e, -⟩ := adcTriggerNext_ok (c := c) (now := s.now) h.meas.act h.avail h.meas.adj0
    h.meas.adj1
  obtain ⟨s', e', h'⟩ := (h.inv hd).measureStart h.avail
  have ht : t = 50 := by
    have := adcTriggerNext_timer h.meas.act e
    rw [if_pos h.act, h.now] at this
    exact this
  refine ⟨s', e', h', s, t, h, ⟨rfl, ht⟩, ?_⟩
  simp only [e, Option.bind_eq_bind, Option.bind_some, pure, Option.some.injEq, h.act] at e'
  exact e'.symm

theorem bootTail_ok {c : Conf} {pinb : BitVec 8} {s : Sys} (hs : SetInv c s.set) {p : Ports} {d : Display}
    (e1 : displayEnable 0 bootPorts Display.zero true = some (p, d))
    (hz : s = { zeroSys s.set with ports := p, disp := d, btn := { prev := 0, debounce := 0 } }) :
    Safe (bootTail c pinb s) (fun s' => Inv c s' ∧ Booted c s.set s') := by
  have hx := hs.lim
  have z1 : s.now = 0 := by rw [hz]; rfl
  have z2 : s.meas = zeroMeas := by rw [hz]; rfl
  have z3 : s.mcurr.prevFeedback = 0 := by rw [hz]; rfl
  have z4 : s.mtPrev = 0 := by rw [hz]; rfl
  have z5 : s.cc = (zeroSys s.set).cc := by rw [hz]; rfl
  have z6 : s.ct = (zeroSys s.set).ct := by rw [hz]; rfl
  have z7 : s.menu = ⟨.curtemp, 0, .none, 0, 0, none, 0, 0, false, false⟩ := by rw [hz]; rfl
  have z8 : s.ports = p := by rw [hz]
  have z9 : s.disp = d := by rw [hz]
  have z10 : s.debugEn = false := by rw [hz]; rfl
  have z11 : s.btn = { prev := 0, debounce := 0 } := by rw [hz]
  clear hz
  obtain ⟨hm, m, em, hav, hac, hfr, hfr0⟩ := zeroMeas_inv c (meascurrInit s) z2
  rw [em] at hm
  have ec := bootCurr (s := { meascurrInit s with meas := m }) z5 z1
  obtain ⟨ct', et, hct, hen, hem, hid, hbo, hdt, hfb, hmem⟩ := bootTemp (c := c)
    (s := { { meascurrInit s with meas := m } with cc := bootCc, ocr := 0x1FFF }) hx z6
  unfold bootTail
  simp only [em, ec, et, Option.bind_eq_bind, Option.bind_some]
  generalize hg : pwmcurrInit _ = s2
  have g1 : BootCtl c s2 ∧ s2.set = s.set ∧ s2.ports = bootPwm p ∧ s2.disp = d ∧ s2.debugEn = false ∧
      s2.menu.state = .curtemp := by
    rw [← hg]
    refine ⟨⟨z1, hs, hm, hav, hac, hfr, hfr0, z3, rfl, z4, rfl, rfl, hct, hen, hem, hid, hbo, hfb, hmem, hdt.trans z1, z11,
      ⟨.curtemp, true, ?_, Or.inl ⟨rfl, z10⟩⟩, rfl, ?_⟩, rfl, ?_, z9, z10, ?_⟩
    · show ({ s.menu with updReq := true } : Menu) = _
      rw [z7]
    · intro j hj
      show s.disp.digit[j].dpForce = false
      rw [z9, displayEnable_dp e1 j hj]
      simp [Display.zero]
    · show bootPwm s.ports = _
      rw [z8]
    · show s.menu.state = .curtemp
      rw [z7]
  clear hg
  obtain ⟨hb, g0, g2, g3, g4, g5⟩ := g1
  have key : ∀ s3 : Sys, BootCtl c s3 → s3.set = s.set → (∃ q dd, bootIo s3.debugEn = some (q, dd) ∧
      bootUnused s3.ports = q ∧ s3.disp = dd) → (c.debug = false → s3.debugEn = false) →
      Safe (measureStart c (unusedPinsInit s3)) (fun s' => Inv c s' ∧ Booted c s.set s') := by
    intro s3 h3 h0 ⟨q, dd, k1, k2, k3⟩ hc
    obtain ⟨q', dd', j1, j2⟩ := bootIo_ok hc
    rw [k1] at j1
    obtain ⟨rfl, rfl⟩ : q = q' ∧ dd = dd' := by
      simpa using j1
    have h4 : BootCtl c (unusedPinsInit s3) := { h3 with }
    rw [← h0]
    refine h4.start ?_
    show DispInv c s3.disp (bootUnused s3.ports).v s3.debugEn
    rw [k2, k3]
    exact j2
  have plain : Safe ((menuSetState c s2 .curtemp).bind fun s => measureStart c (unusedPinsInit s))
      (fun s' => Inv c s' ∧ Booted c s.set s') := by
    unfold menuSetState
    rw [if_pos g5]
    refine key s2 hb g0 ⟨bootUnused (bootPwm p), d, ?_, by rw [g2], g3⟩ (fun _ => g4)
    rw [g4]
    simp only [bootIo, e1, Option.bind_eq_bind, Option.bind_some, Bool.false_eq_true, if_false, pure]
  unfold menuInit
  split
  · rename_i hc
    split
    · have hio : ∃ q dd, displayEnable 0 (bootPwm p) d false = some (q, dd) ∧
          bootIo true = some (bootUnused { q with v := { q.v with txen := true } }, dd) := by
        obtain ⟨q, dd, j1, _⟩ := bootIo_ok (c := c) (dbg := true) (by rw [hc]; intro h; cases h)
        simp only [bootIo, e1, Option.bind_eq_bind, Option.bind_some, if_true, pure] at j1 ⊢
        match e : displayEnable 0 (bootPwm p) d false with
        | none => rw [e] at j1; cases j1
        | some (a, b) => exact ⟨a, b, rfl, rfl⟩
      obtain ⟨q, dd, j1, j2⟩ := hio
      have ed : debugEnable c s2 true = some { s2 with
          debugEn := true
          ports := { q with v := { q.v with txen := true } }
          disp := dd } := by
        unfold debugEnable
        simp only [hc, if_true, hb.now, g2, g3, Bool.not_true, j1, Option.bind_eq_bind,
          Option.bind_some, pure]
      simp only [ed, Option.bind_eq_bind, Option.bind_some]
      unfold menuSetState
      rw [if_neg (by rw [g5]; decide)]
      obtain ⟨t, u, k1, k2⟩ := hb.menu
      refine key _ { hb with
        menu := ⟨.debug, true, ?_, Or.inr ⟨rfl, hc⟩⟩, upd := rfl
        dp := fun j hj => (displayEnable_dp j1 j hj).trans (by rw [← g3]; exact hb.dp j hj) } g0 ⟨_, _, j2, rfl, rfl⟩
        (fun h => by rw [hc] at h; cases h)
      show ({ s2.menu with state := .debug, updReq := true } : Menu) = _
      rw [k1]
    · exact plain
  · exact plain

theorem boot_ok {c : Conf} {ee : Nat → Nat} {pinb : BitVec 8} (h : ValidEeprom c ee) :
    Safe (boot c ee pinb) fun s =>
      Inv c s ∧ ∃ st, settingsInit c ee = some st ∧ Booted c st s := by
  obtain ⟨st, e0, hst⟩ := settingsInit_ok c ee
  have hset := hst (h st e0)
  obtain ⟨p, d, e1, hp, hd⟩ := bootDisp_ok
  have hb := bootFirst c (s := buttonsInit (zeroSys st)) rfl rfl rfl rfl e1 hp hd
  rw [boot_eq, e0, Option.bind_some, hb, Option.bind_some]
  exact (bootTail_ok hset e1 rfl).mono fun _ ⟨h1, h2⟩ => ⟨h1, _, rfl, h2⟩

theorem Running.inv {c : Conf} {s : Sys} (h : Running c s) : Inv c s := by
  induction h with
  | boot hv e => exact ((boot_ok hv).elim e).1
  | step _ hp e ih => exact (ih.step hp).elim e

end Verif
