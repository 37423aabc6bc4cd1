import Verif.Model.Debug
/-
Model of firmware/menu.c.  CONF_PRESETS is 1 (DESIGN.md finding F7).
The text buffer `char disp[6]` (menu.c:172) is a list of 6 cells; a cell that has not been
written is `none`; an access outside of the buffer is undefined.
-/
namespace Verif

/-- the local buffer `char disp[6]`, menu.c:172 -/
abbrev TextBuf := List (Option Nat)

/-- an uninitialised buffer -/
def TextBuf.fresh : TextBuf := List.replicate 6 none

/-- `buf[i] = c` -/
def bufPut (b : TextBuf) (i : Nat) (ch : Nat) : Option TextBuf :=
  if i < b.length then some (b.set i (some ch)) else none

/-- menu.c:120-121: fill the positions `i`, `i-1`, …, 0 behind `off`; `n` = i + 1 -/
def fillLeft (b : TextBuf) (off : Nat) (fill : Nat) : Nat → Option TextBuf
  | 0 => some b
  | n + 1 => do
    let b ← bufPut b (off + n) fill
    fillLeft b off fill n

/-- menu.c:108-115, the digit loop; `n` = i + 1 positions are left.  Gives the buffer and the
    number of positions left afterwards. -/
def digitLoop (b : TextBuf) (off : Nat) : Nat → Int → Option (TextBuf × Nat)
  | 0, _ => none
  | n + 1, val => do
    let d := val.tmod 10
    let val := val.tdiv 10
    let b ← bufPut b (off + n) (48 + d).toNat
    if n = 0 then return (b, 0)
    else if val = 0 then return (b, n)
    else digitLoop b off n val

/-- menu.c:92-122 `int_to_ascii_align_right` on the buffer at offset `off` -/
def intToAscii (b : TextBuf) (off align : Nat) (val lo hi : Int) (fill : Nat) : Option TextBuf := do
  let val := cClamp val lo hi
  let neg := val < 0
  let val ← if neg then ck16 (-val) else some val
  let b ← bufPut b (off + align + 1) 0
  let (b, n) ← digitLoop b off (align + 1) val
  if neg ∧ n > 0 then do
    let b ← bufPut b (off + n - 1) 45
    fillLeft b off fill (n - 1)
  else fillLeft b off fill n

/-- `strcpy(&disp[off], str)`, menu.c:124; `str` without its NUL -/
def putStr (b : TextBuf) (off : Nat) : List Nat → Option TextBuf
  | [] => bufPut b off 0
  | ch :: str => do
    let b ← bufPut b off ch
    putStr b (off + 1) str

/-- menu.c:126-138 `menu_put_temp` -/
def menuPutTemp (b : TextBuf) (temp : Int) (symbol : List Nat) : Option TextBuf := do
  let i ← fixptToInt temp
  let b ← intToAscii b 0 2 (toS16 i) (-99) 999 32
  putStr b 3 symbol

/-- menu.c:140-168 `menu_put_fixpt` (`fract_digits` is 2 or 3) -/
def menuPutFixpt (b : TextBuf) (val : Int) (fract : Nat) : Option TextBuf := do
  let (ipMax, ipAlign, fpMax, fpAlign) : Int × Nat × Int × Nat :=
    if fract = 2 then (99, 1, 99, 1) else (9, 0, 999, 2)
  let ipDigits := 4 - fract
  let ip ← fixptGetIntPart val
  let ip := toS16 (cClamp ip 0 ipMax)
  let fp ← fixptGetDecFract val fract
  let fp := toS16 fp
  let b ← intToAscii b 0 ipAlign ip 0 ipMax 32
  let b ← bufPut b ipDigits 46
  intToAscii b (ipDigits + 1) fpAlign fp 0 fpMax 48

/-- a string literal as character codes -/
def str (s : String) : List Nat := s.toList.map Char.toNat

/-- menu.c:193-211: the unit shown behind the temperature -/
def tempSymbol (c : Conf) (s : Sys) : List Nat :=
  if s.ct.idle then str "L."
  else if c.boost ∧ s.ct.boost = 1 then str "b."
  else if c.boost ∧ s.ct.boost = 2 then str "8."
  else str "C."

/-- menu.c:185-285: compose the text; also gives `show_heating` -/
def menuText (c : Conf) (s : Sys) : Option (TextBuf × Bool) := do
  let b ← bufPut TextBuf.fresh 0 0
  let err := s.menu.dispErr
  let kOf (f : PidK → Int) : Option Int := (s.set.cache.k[s.ct.boost]?).map f
  match s.menu.state with
  | .curtemp =>
    if err ≠ 0 then do
      let b ← putStr b 0 (str "Err ")
      let b ← bufPut b 3 ((48 + err) % 256)
      return (b, false)
    else do
      let b ← menuPutTemp b s.ct.feedback (tempSymbol c s)
      return (b, true)
  | .selpreset | .chgpreset => do
    let v ← s.set.cache.presetsGet
    let b ← menuPutTemp b v [(49 + s.set.cache.active) % 256, 46]
    return (b, true)
  | .idletemp =>
    if !c.idle then return (b, true)
    else do
      let b ← menuPutTemp b s.set.cache.idleSp (str "L")
      return (b, true)
  | .debug =>
    if !c.debug then return (b, true)
    else do
      let b ← putStr b 0 (str "DBG")
      return (b, true)
  | .adjPre =>
    if !c.adj then return (b, true)
    else do
      let b ← putStr b 0 (str "ADJC.")
      return (b, false)
  | .adj =>
    if !c.adj then return (b, true)
    else do
      let b ← menuPutTemp b (measureAdjustGet c s) (str "C.")
      return (b, false)
  | .kpPre =>
    if !c.kconf then return (b, true)
    else do
      let b ← putStr b 0 (str " P")
      return (b, false)
  | .kp =>
    if !c.kconf then return (b, true)
    else do
      let b ← menuPutFixpt b (← kOf (·.kp)) 2
      return (b, false)
  | .kiPre =>
    if !c.kconf then return (b, true)
    else do
      let b ← putStr b 0 (str " I")
      return (b, false)
  | .ki =>
    if !c.kconf then return (b, true)
    else do
      let b ← menuPutFixpt b (← kOf (·.ki)) 3
      return (b, false)
  | .kdPre =>
    if !c.kconf then return (b, true)
    else do
      let b ← putStr b 0 (str " D")
      return (b, false)
  | .kd =>
    if !c.kconf then return (b, true)
    else do
      let b ← menuPutFixpt b (← kOf (·.kd)) 2
      return (b, false)

/-- menu.c:170-291 `menu_update_display` -/
def menuUpdateDisplay (c : Conf) (s : Sys) : Option Sys := do
  let (b, heat) ← menuText c s
  let d ← displayForceDp s.disp 2 true (if heat then s.menu.dispHeating else false)
  let d ← displayShow d (b.map (Option.map (BitVec.ofNat 8)))
  return { s with disp := d }

/-- menu.c:299-366 `next_menu_state` -/
def nextMenuState (c : Conf) : MenuState → MenuState
  | .curtemp =>
    if c.idle then .idletemp else if c.debug then .debug else if c.adj then .adjPre
    else if c.kconf then .kpPre else .curtemp
  | .selpreset | .chgpreset => .curtemp
  | .idletemp =>
    if c.debug then .debug else if c.adj then .adjPre else if c.kconf then .kpPre else .curtemp
  | .debug => if c.adj then .adjPre else if c.kconf then .kpPre else .curtemp
  | .adjPre => if c.adj then .adj else if c.kconf then .kpPre else .curtemp
  | .adj => if c.kconf then .kpPre else .curtemp
  | .kpPre => if c.kconf then .kp else .curtemp
  | .kp => if c.kconf then .kiPre else .curtemp
  | .kiPre => if c.kconf then .ki else .curtemp
  | .ki => if c.kconf then .kdPre else .curtemp
  | .kdPre => if c.kconf then .kd else .curtemp
  | .kd => .curtemp

/-- `timer_arm(&menu.timeout, ms)` -/
def menuArm (s : Sys) (ms : Int) : Option Sys := do
  let t ← timerArm s.now ms
  return { s with menu := { s.menu with timeout := t } }

/-- menu.c:374-413 the actions on entering a screen -/
def menuEnter (c : Conf) (s : Sys) : MenuState → Option Sys
  | .selpreset => menuArm s 3000
  | .chgpreset => menuArm s 3000
  | .idletemp => menuArm s 3000
  | .adjPre =>
    if !c.adj then some s
    else do
      let s ← menuArm s 1500
      contrtempSetEnabled c s false
  | .adj => if !c.adj then some s else contrtempSetEnabled c s false
  | .kpPre | .kiPre | .kdPre =>
    if !c.kconf then some s
    else do
      let s ← menuArm s 1500
      contrtempSetEnabled c s false
  | .kp | .ki | .kd => if !c.kconf then some s else contrtempSetEnabled c s false
  | .curtemp => contrtempSetEnabled c s true
  | .debug => some s

/-- menu.c:368-416 `menu_set_state` -/
def menuSetState (c : Conf) (s : Sys) (new : MenuState) : Option Sys :=
  if s.menu.state = new then some s
  else do
    let s ← menuEnter c { s with menu := { s.menu with state := new } } new
    return menuRequestUpdate s

/-- menu.c:418-421 `menu_set_next_state` -/
def menuSetNextState (c : Conf) (s : Sys) : Option Sys :=
  menuSetState c s (nextMenuState c s.menu.state)

/-- menu.c:423-430 `do_ramp_temp` -/
def doRampTemp (temp : Int) (up : Bool) (lo hi : Int) : Option Int :=
  fixptAddLimited temp (if up then 64 else -64) lo hi

/-- menu.c:456-462 `do_ramp_k` on one member of `temp_k[boost mode]`, selected by `get`/`put` -/
def doRampK (c : Conf) (s : Sys) (get : PidK → Int) (put : PidK → Int → PidK) (inc hi : Int)
    (up : Bool) : Option Sys := do
  let b := s.ct.boost
  if h : b < 3 then do
    let k := s.set.cache.k[b]
    let step ← if up then some inc else fixptNeg inc
    let v ← fixptAddLimited (get k) step 0 hi
    let s := setCache s { s.set.cache with k := s.set.cache.k.set b (put k v) }
    let s ← sysStore s
    contrtempUpdatePidConfig c s
  else none

/-- the ramp handlers: menu.c:432-443 settemp, 445-454 idletemp, 464-473 adj, 475-480 kp,
    482-487 ki, 489-494 kd.  Limits: 480 C = 30720, 99 C = 6336, factor 99.0 = 6336,
    9.0 = 576; steps 1 C = 64, 1/32 = 2, 1/64 = 1. -/
def rampHandler (c : Conf) (s : Sys) (h : RampHandler) (up : Bool) : Option Sys :=
  match h with
  | .settemp => do
    let sp ← s.set.cache.presetsGet
    let sp ← doRampTemp sp up 0 30720
    let s ← presetsSetActive s sp
    menuSetState c s .chgpreset
  | .idletemp => do
    let sp ← doRampTemp s.set.cache.idleSp up 0 30720
    contrtempSetIdleSetpoint c s sp
  | .adj => do
    let a ← doRampTemp (measureAdjustGet c s) up (-6336) 6336
    meastempAdjustSet c s a
  | .kp => doRampK c s (·.kp) (fun k v => { k with kp := v }) 2 6336 up
  | .ki => doRampK c s (·.ki) (fun k v => { k with ki := v }) 1 576 up
  | .kd => doRampK c s (·.kd) (fun k v => { k with kd := v }) 2 6336 up

/-- menu.c:496-507 `start_ramping` -/
def startRamping (s : Sys) (up pre : Bool) (h : Option RampHandler) : Option Sys := do
  let m ← if pre then do
      let t ← timerArm s.now 1000
      pure { s.menu with ramp := if up then .preUp else .preDown, rampPreTimer := t }
    else pure { s.menu with ramp := if up then .up else .down }
  return { s with menu := { m with handler := h, period := 400, rampTimer := timerSetNow s.now } }

/-- menu.c:509-520 `start_ramping_button` -/
def startRampingButton (s : Sys) (b : Button) (e : BState) (pre : Bool) (h : RampHandler) :
    Option Sys :=
  if e = .posedge then
    if b = .minus then startRamping s false pre (some h)
    else if b = .plus then startRamping s true pre (some h)
    else some s
  else some s

/-- menu.c:522-525 `stop_ramping` -/
def stopRamping (s : Sys) : Sys := { s with menu := { s.menu with ramp := .none } }

/-- menu.c:537-622 the part of the button handler that depends on the screen -/
def menuButtonScreen (c : Conf) (s : Sys) (b : Button) (e : BState) : Option Sys :=
  match s.menu.state with
  | .curtemp => do
    let s ← startRampingButton s b e true .settemp
    if e = .negedge ∧ b ≠ .set then menuSetState c s .selpreset else return s
  | .selpreset => do
    let s ← menuArm s 3000
    let s ← if e = .negedge then do
        let s ← if b = .plus then presetsNext s else pure s
        if b = .minus then presetsPrev s else pure s
      else pure s
    startRampingButton s b e true .settemp
  | .chgpreset => do
    let s ← menuArm s 3000
    startRampingButton s b e false .settemp
  | .idletemp =>
    if !c.idle then some s
    else do
      let s ← menuArm s 3000
      startRampingButton s b e false .idletemp
  | .debug =>
    if !c.debug then some s
    else if e = .posedge then do
      let s ← if b = .plus then debugEnable c s true else pure s
      if b = .minus then do
        let s ← debugEnable c s false
        return menuRequestUpdate s
      else return s
    else some s
  | .adjPre | .kpPre | .kiPre | .kdPre => some s
  | .adj => if !c.adj then some s else startRampingButton s b e false .adj
  | .kp => if !c.kconf then some s else startRampingButton s b e false .kp
  | .ki => if !c.kconf then some s else startRampingButton s b e false .ki
  | .kd => if !c.kconf then some s else startRampingButton s b e false .kd

/-- menu.c:531-634 `menu_button_handler` -/
def menuButton (c : Conf) (s : Sys) (b : Button) (e : BState) : Option Sys :=
  if b = .iron then some s
  else do
    let s ← menuButtonScreen c s b e
    if e = .negedge then
      let s := stopRamping s
      if b = .set then
        if !s.debugEn then menuSetNextState c s else return s
      else return s
    else return s

/-- menu.c:643-668 the menu timeouts -/
def menuTimeouts (c : Conf) (s : Sys) : Option Sys :=
  match s.menu.state with
  | .curtemp | .debug | .adj | .kp | .ki | .kd => some s
  | .adjPre | .kpPre | .kiPre | .kdPre | .selpreset | .chgpreset | .idletemp =>
    if timerExpired s.now s.menu.timeout then do
      let s ← if s.menu.state = .idletemp then menuSetState c s .curtemp else menuSetNextState c s
      return stopRamping s
    else some s

/-- menu.c:671-675 the error number -/
def menuError (s : Sys) : Nat :=
  (if s.cc.emerg &&& 1#8 ≠ 0 then 1 else 0) ||| (if s.ct.emergency then 2 else 0)

/-- menu.c:670-687 error and heating indication -/
def menuIndicate (s : Sys) : Sys :=
  let s := if menuError s ≠ s.menu.dispErr then
      let s := stopRamping { s with menu := { s.menu with dispErr := menuError s } }
      { s with menu := { s.menu with updReq := true } }
    else s
  if contrtempIsHeatingUp s ≠ s.menu.dispHeating then
    { s with menu := { s.menu with dispHeating := contrtempIsHeatingUp s, updReq := true } }
  else s

/-- menu.c:689-707 the ramping; a null handler is undefined -/
def menuRamp (c : Conf) (s : Sys) : Option Sys :=
  match s.menu.ramp with
  | .none => some s
  | .preUp | .preDown =>
    if timerExpired s.now s.menu.rampPreTimer then
      startRamping s (s.menu.ramp = .preUp) false s.menu.handler
    else some s
  | .up | .down =>
    if timerExpired s.now s.menu.rampTimer then do
      let h ← s.menu.handler
      let s ← rampHandler c s h (s.menu.ramp = .up)
      let t ← timerAdd s.menu.rampTimer s.menu.period
      return { s with menu := { s.menu with
        updReq := true, rampTimer := t,
        period := if s.menu.period > 25 then s.menu.period / 2 else s.menu.period } }
    else some s

/-- menu.c:709-715 the display update -/
def menuRefresh (c : Conf) (s : Sys) : Option Sys :=
  if s.menu.updReq then
    menuUpdateDisplay c { s with menu := { s.menu with updReq := false } }
  else some s

/-- menu.c:637-716 `menu_work` -/
def menuWork (c : Conf) (s : Sys) : Option Sys := do
  let s ← menuTimeouts c s
  let s := menuIndicate s
  let s ← menuRamp c s
  menuRefresh c s

/-- menu.c:718-730 `menu_init`; `setPressed` is `button_is_pressed(BUTTON_SET)` -/
def menuInit (c : Conf) (s : Sys) (setPressed : Bool) : Option Sys :=
  if c.debug then
    if setPressed then do
      let s ← debugEnable c s true
      menuSetState c s .debug
    else menuSetState c s .curtemp
  else menuSetState c s .curtemp

end Verif
