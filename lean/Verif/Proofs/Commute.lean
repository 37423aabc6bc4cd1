import Verif.Model.Main
/-
The work functions of menu, display and buttons neither read nor write what the interrupts of the ADC and of the EEPROM
write.
-/
namespace Verif

/-- what the interrupts of the ADC and the EEPROM, and the EEPROM itself, write -/
structure IsrData where
  avgCount : Int
  avgSum : Int
  resultAvail : Bool
  adcOn : Bool
  eeOff : Nat
  eerie : Bool
  eeprom : Nat → Nat
  prog : Option (Nat × Nat)

/-- the state with other values there -/
def isrSet (p : IsrData) (s : Sys) : Sys :=
  { s with
    meas := { s.meas with avgCount := p.avgCount, avgSum := p.avgSum, resultAvail := p.resultAvail, adcOn := p.adcOn }
    set := { s.set with eeOff := p.eeOff, eerie := p.eerie, eeprom := p.eeprom, prog := p.prog } }

variable {c : Conf} {p : IsrData} {s : Sys}

theorem com_bind {U : Sys → Sys} {x y : Option Sys} {f g : Sys → Option Sys} (h : x = y.map U)
    (hf : ∀ t, f (U t) = (g t).map U) : x.bind f = (y.bind g).map U := by
  subst h
  cases y with
  | none => rfl
  | some t => exact hf t

theorem com_bindV {U : Sys → Sys} {α : Type} {x : Option α} {f g : α → Option Sys}
    (hf : ∀ t, f t = (g t).map U) : x.bind f = (x.bind g).map U := by
  cases x with
  | none => rfl
  | some t => exact hf t

theorem com_ite {U : Sys → Sys} {P : Prop} [Decidable P] {a b a' b' : Option Sys} (h : a = a'.map U) (h' : b = b'.map U) :
    (if P then a else b) = (if P then a' else b').map U := by
  split
  · exact h
  · exact h'

theorem sysStore_com : sysStore (isrSet p s) = (sysStore s).map (isrSet p) := by
  unfold sysStore storeSettings
  show ((timerArm s.now 1000).bind _).bind _ = (((timerArm s.now 1000).bind _).bind _).map _
  cases timerArm s.now 1000 <;> rfl

theorem setBoost_com (m : Nat) : contrtempSetBoost c (isrSet p s) m = (contrtempSetBoost c s m).map (isrSet p) := by
  unfold contrtempSetBoost
  refine com_bindV (x := s.set.cache.k[m]?) fun k => ?_
  simp only []
  split <;> rfl

theorem updateSetpoint_com : contrtempUpdateSetpoint (isrSet p s) = (contrtempUpdateSetpoint s).map (isrSet p) := by
  unfold contrtempUpdateSetpoint
  exact com_bindV (x := s.set.cache.presetsGet) fun k => rfl

theorem setIdleSetpoint_com (w : Int) :
    contrtempSetIdleSetpoint c (isrSet p s) w = (contrtempSetIdleSetpoint c s w).map (isrSet p) := by
  unfold contrtempSetIdleSetpoint
  refine com_ite ?_ rfl
  exact com_bind (updateSetpoint_com (s := setCache s _)) fun t => sysStore_com

theorem setEnabled_com (en : Bool) :
    contrtempSetEnabled c (isrSet p s) en = (contrtempSetEnabled c s en).map (isrSet p) := by
  unfold contrtempSetEnabled
  refine com_ite (P := s.ct.enabled ≠ en) ?_ rfl
  unfold contrtempDoSetEnabled
  let ct : ContrTemp := { s.ct with enabled := en, pid := pidReset s.ct.pid, dtTimer := timerSetNow s.now }
  exact com_bind (setBoost_com 0 (s := { s with ct := ct })) fun t => rfl

theorem doIdle_com (i : Bool) : contrtempDoIdle (isrSet p s) i = (contrtempDoIdle s i).map (isrSet p) := by
  unfold contrtempDoIdle
  exact com_bind (updateSetpoint_com (s := { s with ct := { s.ct with idle := i } })) fun t => rfl

theorem nextBoost_com : contrtempNextBoost c (isrSet p s) = (contrtempNextBoost c s).map (isrSet p) := setBoost_com _

theorem contrtempButton_com (b : Button) (e : BState) :
    contrtempButton c (isrSet p s) b e = (contrtempButton c s b e).map (isrSet p) := by
  unfold contrtempButton
  cases hb : c.boost <;> cases hi : c.idle
  · rfl
  · simp only []
    refine com_ite rfl ?_
    refine com_ite (P := (if c.idleToggle then (if e = .posedge then !s.ct.idle else s.ct.idle)
        else if e = .negedge then false else if e = .posedge then true else s.ct.idle) ≠ s.ct.idle) ?_ rfl
    exact doIdle_com _
  · simp only []
    exact com_ite rfl (com_ite nextBoost_com rfl)
  · simp only []
    refine com_ite rfl ?_
    have hr : ∀ (i : Bool) (t : Sys),
        (if (isrSet p t).ct.biLet then
          if i = true ∨ (e = .pressed ∧ timerExpired (isrSet p t).now (isrSet p t).ct.biTimer = true) then do
            let s ← contrtempDoIdle (isrSet p t) !i
            return { s with ct := { s.ct with biLet := false } }
          else if e = .negedge then do
            let s ← contrtempNextBoost c (isrSet p t)
            return { s with ct := { s.ct with biLet := false } }
          else return isrSet p t
        else return isrSet p t : Option Sys) =
        Option.map (isrSet p) (if t.ct.biLet then
          if i = true ∨ (e = .pressed ∧ timerExpired t.now t.ct.biTimer = true) then do
            let s ← contrtempDoIdle t !i
            return { s with ct := { s.ct with biLet := false } }
          else if e = .negedge then do
            let s ← contrtempNextBoost c t
            return { s with ct := { s.ct with biLet := false } }
          else return t
        else return t) := by
      intro i t
      refine com_ite (P := t.ct.biLet = true) ?_ rfl
      refine com_ite (P := i = true ∨ (e = .pressed ∧ timerExpired t.now t.ct.biTimer = true)) ?_ ?_
      · exact com_bind (doIdle_com _) fun _ => rfl
      · exact com_ite (com_bind nextBoost_com fun _ => rfl) rfl
    refine com_ite (com_bindV (x := timerArm s.now 1000) fun t => ?_) (hr s.ct.idle s)
    exact hr s.ct.idle { s with ct := { s.ct with biTimer := t, biLet := true } }

theorem presetsStore_com : presetsStore (isrSet p s) = (presetsStore s).map (isrSet p) := by
  unfold presetsStore
  exact com_bind sysStore_com fun _ => com_bind updateSetpoint_com fun _ => rfl

theorem presetsNext_com : presetsNext (isrSet p s) = (presetsNext s).map (isrSet p) :=
  presetsStore_com (s := setCache s _)

theorem presetsPrev_com : presetsPrev (isrSet p s) = (presetsPrev s).map (isrSet p) :=
  presetsStore_com (s := setCache s _)

theorem presetsSetActive_com (v : Int) : presetsSetActive (isrSet p s) v = (presetsSetActive s v).map (isrSet p) := by
  unfold presetsSetActive
  exact com_bindV (x := s.set.cache.presetsSet v) fun x => presetsStore_com (s := setCache s x)

theorem adjustSet_com (a : Int) : meastempAdjustSet c (isrSet p s) a = (meastempAdjustSet c s a).map (isrSet p) := by
  unfold meastempAdjustSet measureAdjustSet
  split
  · exact com_bind (sysStore_com (s := setCache { s with meas := { s.meas with
      chan := s.meas.chan.set 1 { s.meas.chan[1] with adj := a } } } { s.set.cache with adj := a })) fun _ => rfl
  · rfl

theorem debugEnable_com (en : Bool) : debugEnable c (isrSet p s) en = (debugEnable c s en).map (isrSet p) := by
  unfold debugEnable
  refine com_ite ?_ rfl
  exact com_bindV (x := displayEnable s.now s.ports s.disp !en) fun _ => rfl

theorem menuArm_com (ms : Int) : menuArm (isrSet p s) ms = (menuArm s ms).map (isrSet p) := by
  unfold menuArm
  exact com_bindV (x := timerArm s.now ms) fun _ => rfl

theorem menuEnter_com (m : MenuState) : menuEnter c (isrSet p s) m = (menuEnter c s m).map (isrSet p) := by
  cases m <;> unfold menuEnter <;> first
    | rfl
    | exact menuArm_com _
    | exact setEnabled_com _
    | exact com_ite rfl (setEnabled_com _)
    | exact com_ite rfl (com_bind (menuArm_com _) fun _ => setEnabled_com _)

theorem menuSetState_com (m : MenuState) : menuSetState c (isrSet p s) m = (menuSetState c s m).map (isrSet p) := by
  unfold menuSetState
  refine com_ite (P := s.menu.state = m) rfl ?_
  exact com_bind (menuEnter_com m (s := { s with menu := { s.menu with state := m } })) fun _ => rfl

theorem menuSetNextState_com : menuSetNextState c (isrSet p s) = (menuSetNextState c s).map (isrSet p) :=
  menuSetState_com _

theorem doRampK_com (get : PidK → Int) (put : PidK → Int → PidK) (inc hi : Int) (up : Bool) :
    doRampK c (isrSet p s) get put inc hi up = (doRampK c s get put inc hi up).map (isrSet p) := by
  unfold doRampK
  by_cases hb : s.ct.boost < 3
  · rw [dif_pos (show (isrSet p s).ct.boost < 3 from hb), dif_pos hb]
    have hr : ∀ step : Int, ((fixptAddLimited (get s.set.cache.k[s.ct.boost]) step 0 hi).bind fun v =>
          (sysStore (isrSet p (setCache s { s.set.cache with
            k := s.set.cache.k.set s.ct.boost (put s.set.cache.k[s.ct.boost] v) }))).bind fun s =>
              contrtempUpdatePidConfig c s) =
        Option.map (isrSet p) ((fixptAddLimited (get s.set.cache.k[s.ct.boost]) step 0 hi).bind fun v =>
          (sysStore (setCache s { s.set.cache with
            k := s.set.cache.k.set s.ct.boost (put s.set.cache.k[s.ct.boost] v) })).bind fun s =>
              contrtempUpdatePidConfig c s) := fun step =>
      com_bindV fun v => com_bind sysStore_com fun _ => setBoost_com _
    exact com_ite (hr inc) (com_bindV (x := fixptNeg inc) fun st => hr st)
  · rw [dif_neg (show ¬ (isrSet p s).ct.boost < 3 from hb), dif_neg hb]
    rfl

theorem rampHandler_com (h : RampHandler) (up : Bool) :
    rampHandler c (isrSet p s) h up = (rampHandler c s h up).map (isrSet p) := by
  cases h <;> unfold rampHandler <;> simp only []
  · refine com_bindV (x := s.set.cache.presetsGet) fun sp => com_bindV fun sp => ?_
    exact com_bind (presetsSetActive_com _) fun _ => menuSetState_com _
  · exact com_bindV (x := doRampTemp s.set.cache.idleSp up 0 30720) fun sp => setIdleSetpoint_com _
  · exact com_bindV (x := doRampTemp (measureAdjustGet c s) up (-6336) 6336) fun a => adjustSet_com _
  · exact doRampK_com ..
  · exact doRampK_com ..
  · exact doRampK_com ..

theorem startRamping_com (up pre : Bool) (h : Option RampHandler) :
    startRamping (isrSet p s) up pre h = (startRamping s up pre h).map (isrSet p) := by
  unfold startRamping
  exact com_ite (com_bindV (x := timerArm s.now 1000) fun t => rfl) rfl

theorem startRampingButton_com (b : Button) (e : BState) (pre : Bool) (h : RampHandler) :
    startRampingButton (isrSet p s) b e pre h = (startRampingButton s b e pre h).map (isrSet p) := by
  unfold startRampingButton
  exact com_ite (com_ite (startRamping_com ..) (com_ite (startRamping_com ..) rfl)) rfl

theorem menuButtonScreen_com (b : Button) (e : BState) :
    menuButtonScreen c (isrSet p s) b e = (menuButtonScreen c s b e).map (isrSet p) := by
  unfold menuButtonScreen
  rw [show (isrSet p s).menu.state = s.menu.state from rfl]
  cases s.menu.state <;> simp only []
  · exact com_bind (startRampingButton_com ..) fun _ => com_ite (menuSetState_com _) rfl
  · refine com_bind (menuArm_com _) fun _ => ?_
    refine com_ite (com_ite ?_ ?_) (startRampingButton_com ..)
    · exact com_bind presetsNext_com fun _ =>
        com_ite (com_bind presetsPrev_com fun _ => startRampingButton_com ..) (startRampingButton_com ..)
    · exact com_ite (com_bind presetsPrev_com fun _ => startRampingButton_com ..) (startRampingButton_com ..)
  · exact com_bind (menuArm_com _) fun _ => startRampingButton_com ..
  · exact com_ite rfl (com_bind (menuArm_com _) fun _ => startRampingButton_com ..)
  · refine com_ite rfl (com_ite ?_ rfl)
    exact com_ite (com_bind (debugEnable_com _) fun _ => com_ite (com_bind (debugEnable_com _) fun _ => rfl) rfl)
      (com_ite (com_bind (debugEnable_com _) fun _ => rfl) rfl)
  · rfl
  · exact com_ite rfl (startRampingButton_com ..)
  · rfl
  · exact com_ite rfl (startRampingButton_com ..)
  · rfl
  · exact com_ite rfl (startRampingButton_com ..)
  · rfl
  · exact com_ite rfl (startRampingButton_com ..)

theorem menuButton_com (b : Button) (e : BState) :
    menuButton c (isrSet p s) b e = (menuButton c s b e).map (isrSet p) := by
  unfold menuButton
  refine com_ite rfl (com_bind (menuButtonScreen_com ..) fun t => com_ite ?_ rfl)
  refine com_ite ?_ rfl
  refine com_ite (P := (!(stopRamping t).debugEn) = true) ?_ rfl
  exact menuSetNextState_com (s := stopRamping t)

theorem callButtonHandlers_com (x : Button × BState) :
    callButtonHandlers c (isrSet p s) x = (callButtonHandlers c s x).map (isrSet p) :=
  com_bind (contrtempButton_com ..) fun _ => menuButton_com ..

theorem foldlM_com (l : List (Button × BState)) : ∀ {s : Sys},
    l.foldlM (callButtonHandlers c) (isrSet p s) = (l.foldlM (callButtonHandlers c) s).map (isrSet p) := by
  induction l with
  | nil => intro s; rfl
  | cons x l ih => intro s; exact com_bind (callButtonHandlers_com x) fun _ => ih

theorem buttonsWork_com (pinb : BitVec 8) : buttonsWork c (isrSet p s) pinb = (buttonsWork c s pinb).map (isrSet p) := by
  unfold buttonsWork
  exact com_bindV (x := buttonsSample s.now s.btn pinb) fun x => foldlM_com x.2 (s := { s with btn := x.1 })

theorem menuTimeouts_com : menuTimeouts c (isrSet p s) = (menuTimeouts c s).map (isrSet p) := by
  unfold menuTimeouts
  rw [show (isrSet p s).menu.state = s.menu.state from rfl]
  cases s.menu.state <;> simp only [] <;> first
    | rfl
    | exact com_ite (P := timerExpired s.now s.menu.timeout = true)
        (com_ite (com_bind (menuSetState_com _) fun _ => rfl) (com_bind menuSetNextState_com fun _ => rfl)) rfl

theorem menuIndicate_com : menuIndicate (isrSet p s) = isrSet p (menuIndicate s) := by
  unfold menuIndicate
  have h1 : ∀ t : Sys, (if contrtempIsHeatingUp (isrSet p t) ≠ (isrSet p t).menu.dispHeating then
      { isrSet p t with menu := { (isrSet p t).menu with dispHeating := contrtempIsHeatingUp (isrSet p t), updReq := true } }
      else isrSet p t) = isrSet p (if contrtempIsHeatingUp t ≠ t.menu.dispHeating then
      { t with menu := { t.menu with dispHeating := contrtempIsHeatingUp t, updReq := true } } else t) := by
    intro t
    by_cases hh : contrtempIsHeatingUp t ≠ t.menu.dispHeating
    · rw [if_pos hh, if_pos (show contrtempIsHeatingUp (isrSet p t) ≠ (isrSet p t).menu.dispHeating from hh)]
      rfl
    · rw [if_neg hh, if_neg (show ¬ contrtempIsHeatingUp (isrSet p t) ≠ (isrSet p t).menu.dispHeating from hh)]
  by_cases he : menuError s ≠ s.menu.dispErr
  · rw [if_pos (show menuError (isrSet p s) ≠ (isrSet p s).menu.dispErr from he), if_pos he]
    exact h1 { stopRamping { s with menu := { s.menu with dispErr := menuError s } } with menu :=
      { (stopRamping { s with menu := { s.menu with dispErr := menuError s } }).menu with updReq := true } }
  · rw [if_neg (show ¬ menuError (isrSet p s) ≠ (isrSet p s).menu.dispErr from he), if_neg he]
    exact h1 s

theorem menuRamp_com : menuRamp c (isrSet p s) = (menuRamp c s).map (isrSet p) := by
  unfold menuRamp
  rw [show (isrSet p s).menu.ramp = s.menu.ramp from rfl]
  cases s.menu.ramp <;> simp only [] <;> first
    | rfl
    | exact com_ite (P := timerExpired s.now s.menu.rampPreTimer = true) (startRamping_com ..) rfl
    | (refine com_ite (P := timerExpired s.now s.menu.rampTimer = true) ?_ rfl
       refine com_bindV (x := s.menu.handler) fun h => com_bind (rampHandler_com ..) fun t => ?_
       exact com_bindV (x := timerAdd t.menu.rampTimer t.menu.period) fun _ => rfl)

theorem menuText_com : menuText c (isrSet p s) = menuText c s := rfl

theorem menuRefresh_com : menuRefresh c (isrSet p s) = (menuRefresh c s).map (isrSet p) := by
  unfold menuRefresh
  refine com_ite (P := s.menu.updReq = true) ?_ rfl
  unfold menuUpdateDisplay
  refine com_bindV (x := menuText c { s with menu := { s.menu with updReq := false } }) fun x => ?_
  refine com_bindV (x := displayForceDp s.disp 2 true (if x.2 then s.menu.dispHeating else false)) fun d => ?_
  exact com_bindV fun d => rfl

theorem menuWork_com : menuWork c (isrSet p s) = (menuWork c s).map (isrSet p) := by
  unfold menuWork
  refine com_bind menuTimeouts_com fun t => ?_
  simp only [menuIndicate_com]
  exact com_bind menuRamp_com fun _ => menuRefresh_com

/-! ### the work function of the measurements does not use the settings -/

/-- the state with another state of the settings module -/
def setSet (q : SettingsSt) (s : Sys) : Sys := { s with set := q }

variable {q : SettingsSt}

theorem pwmcurrSet_com (y : Int) : pwmcurrSet (setSet q s) y = (pwmcurrSet s y).map (setSet q) := by
  unfold pwmcurrSet
  refine com_bindV fun _ => rfl

theorem contrcurrSetEmerg_com (f : BitVec 8) :
    contrcurrSetEmerg (setSet q s) f = (contrcurrSetEmerg s f).map (setSet q) := by
  unfold contrcurrSetEmerg
  refine com_ite (P := f ≠ s.cc.emerg) (com_ite ?_ rfl) rfl
  exact pwmcurrSet_com (s := { s with cc := { s.cc with emerg := f } }) _

theorem contrcurrRun_com (r : Int) : contrcurrRun (setSet q s) r = (contrcurrRun s r).map (setSet q) := by
  unfold contrcurrRun
  refine com_ite (P := (!s.cc.enabled) = true) rfl (com_ite (P := s.cc.emerg ≠ 0) rfl ?_)
  refine com_bindV (x := elapsedDt s.now s.cc.timer) fun dt => ?_
  refine com_bindV (x := contrcurrSelect s.cc r) fun x => ?_
  refine com_bindV (x := pidRun s.cc.pid dt x.1) fun z => ?_
  let y := if s.cc.restricted then (if z.2 > 1280 then 1280 else z.2) else z.2
  let cc : ContrCurr := { s.cc with timer := timerSetNow s.now, rState := x.2.1, model := x.2.2, pid := z.1, prevY := y }
  exact pwmcurrSet_com (s := { s with cc := cc }) y

theorem contrtempRun_com (r : Int) : contrtempRun (setSet q s) r = (contrtempRun s r).map (setSet q) := by
  unfold contrtempRun
  refine com_ite (P := (!s.ct.enabled) = true) rfl (com_ite (P := s.ct.emergency = true) rfl ?_)
  refine com_bindV (x := elapsedDt s.now s.ct.dtTimer) fun dt => ?_
  refine com_bindV (x := pidRun s.ct.pid dt r) fun x => ?_
  refine com_bindV (x := tempToAmps x.2) fun y => ?_
  simp only []
  let ct : ContrTemp := { s.ct with dtTimer := timerSetNow s.now, pid := x.1 }
  split
  · exact com_bind (contrcurrSetEmerg_com (s := { s with ct := ct }) _) fun _ => rfl
  · exact com_bind (contrcurrSetEmerg_com (s := { s with ct := ct }) _) fun _ => rfl

theorem contrtempSetFeedback_com (r : Int) :
    contrtempSetFeedback (setSet q s) r = (contrtempSetFeedback s r).map (setSet q) := by
  unfold contrtempSetFeedback
  by_cases h : r ≠ s.ct.feedback
  · rw [if_pos h, if_pos (show r ≠ (setSet q s).ct.feedback from h)]
    exact contrtempRun_com (s := menuRequestUpdate { s with ct := { s.ct with feedback := r } }) r
  · rw [if_neg h, if_neg (show ¬ r ≠ (setSet q s).ct.feedback from h)]
    exact contrtempRun_com r

theorem contrtempSetEmerg_com (e : Bool) : contrtempSetEmerg (setSet q s) e = setSet q (contrtempSetEmerg s e) := by
  unfold contrtempSetEmerg
  by_cases h : e ≠ s.ct.emergency
  · rw [if_pos h, if_pos (show e ≠ (setSet q s).ct.emergency from h)]
    cases e <;> rfl
  · rw [if_neg h, if_neg (show ¬ e ≠ (setSet q s).ct.emergency from h)]

theorem meastempResult_com (phys : Int) (pl : Plaus) :
    meastempResult (setSet q s) phys pl = (meastempResult s phys pl).map (setSet q) := by
  unfold meastempResult
  cases pl <;> simp only [contrtempSetEmerg_com]
  · exact contrtempSetFeedback_com
      (s := contrcurrSetRestricted { contrtempSetEmerg s false with mtPrev := phys } (phys < 6400)) _
  · exact contrtempSetFeedback_com _
  · rfl

theorem contrcurrSetFeedback_com (r : Int) :
    contrcurrSetFeedback (setSet q s) r = (contrcurrSetFeedback s r).map (setSet q) :=
  contrcurrRun_com (s := { s with cc := { s.cc with feedback := r } }) r

theorem meascurrResult_com (phys : Int) (pl : Plaus) :
    meascurrResult (setSet q s) phys pl = (meascurrResult s phys pl).map (setSet q) := by
  unfold meascurrResult
  refine com_bind (contrcurrSetEmerg_com _) fun t => ?_
  cases pl
  · exact com_bind (contrcurrSetFeedback_com (s := { t with mcurr := { t.mcurr with prevFeedback := phys } }) _)
      fun _ => rfl
  · exact com_bind (contrcurrSetFeedback_com _) fun _ => rfl
  · rfl

theorem measureWork_com : measureWork c (setSet q s) = (measureWork c s).map (setSet q) := by
  unfold measureWork
  refine com_ite (P := s.meas.resultAvail = true) ?_ rfl
  let m : Meas := { s.meas with resultAvail := false }
  refine com_bindV (x := measHandle c s.now m s.mcurr) fun x => ?_
  simp only []
  have hn : ∀ t : Sys, ((adcTriggerNext c (setSet q t).now (setSet q t).meas).bind fun m =>
      (pure { setSet q t with meas := m } : Option Sys)) = Option.map (setSet q)
      ((adcTriggerNext c t.now t.meas).bind fun m => pure { t with meas := m }) := fun t =>
    com_bindV (x := adcTriggerNext c t.now t.meas) fun m => rfl
  refine com_ite ?_ ?_
  · exact com_bind (meastempResult_com (s := { s with meas := x.1, mcurr := x.2.1 }) _ _) hn
  · exact com_bind (meascurrResult_com (s := { s with meas := x.1, mcurr := x.2.1 }) _ _) hn

end Verif
