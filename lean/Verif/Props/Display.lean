import Verif.Proofs.TextAny
import Verif.Proofs.PortLog
import Verif.Proofs.Demo
/-
C47: composing and showing texts stays inside the buffer.  C48: the displayed number is the value.
C49: error indication.  C51: multiplexing.  C52: glyphs.  C53: unrelated pins.
C61: the display is up to date.  C62: the heating indicator.
-/
namespace Verif.Props
open Spec

/-! ### C47 -/

/-- Composing the text of the current screen touches only the 6 cells of the buffer (an access outside would be
    undefined, `none`) and leaves a NUL terminated text in it. -/
theorem C47_compose (c : Conf) (s : Sys) (h : Running c s) :
    ∃ b heat txt, menuText c s = some (b, heat) ∧ b.length = 6 ∧ HoldsText b txt := by
  obtain ⟨b, heat, txt, e, ht, -⟩ := menuText_ok (Running.inv h)
  exact ⟨b, heat, txt, e, menuText_length _ e, ht⟩

/-- The same for a temperature of any value and a unit of one or two characters. -/
theorem C47_temp (v : Int) (hv : S24 v) (buf : TextBuf) (hb : buf.length = 6) (unit : List Nat)
    (hu : unit.length = 1 ∨ unit.length = 2) (hc : ∀ ch ∈ unit, 0 < ch ∧ ch < 256) :
    ∃ b txt, menuPutTemp buf v unit = some b ∧ b.length = 6 ∧ HoldsText b txt ∧ txt.length = 3 + unit.length := by
  obtain ⟨b0, b1, b2, b3, b4, b5, rfl⟩ := six hb
  obtain ⟨n, e, -⟩ := C05_to_int v hv
  obtain ⟨rest, e'⟩ := menuPutTemp_any b0 b1 b2 b3 b4 b5 e rfl unit hu
  exact ⟨_, _, e', SameLen.menuPutTemp hb _ _ _ e', holds_temp hc rest, by rw [List.length_append, chars3_length]⟩

/-- The same for a factor of any value with two or three decimals. -/
theorem C47_fixpt (v : Int) (hv : S24 v) (buf : TextBuf) (hb : buf.length = 6) (digits : Nat)
    (hd : digits = 2 ∨ digits = 3) :
    ∃ b txt, menuPutFixpt buf v digits = some b ∧ b.length = 6 ∧ HoldsText b txt ∧ txt.length = 5 := by
  obtain ⟨b0, b1, b2, b3, b4, b5, rfl⟩ := six hb
  obtain ⟨txt, e, h1, h2⟩ := menuPutFixpt_any b0 b1 b2 b3 b4 b5 hv hd
  exact ⟨_, txt, e, SameLen.menuPutFixpt hb _ _ _ e, ⟨h1, [], rfl⟩, h2⟩

/-- `display_show` reads nothing behind the terminating NUL: whatever is there, even nothing at all (where reading
    would be undefined), makes no difference. -/
theorem C47_show (c : Conf) (s : Sys) (h : Running c s) (txt : List (BitVec 8)) (ht : ∀ ch ∈ txt, ch ≠ 0)
    (rest : List (Option (BitVec 8))) :
    ∃ d, displayShow s.disp (txt.map some ++ [some 0]) = some d ∧
      displayShow s.disp (txt.map some ++ some 0 :: rest) = some d := by
  have hio := fun j hj => ((Running.inv h).disp.io j hj).1
  obtain ⟨dg, e1, h1⟩ := displayShow_eq s.disp txt [] ht hio
  obtain ⟨dg', e2, h2⟩ := displayShow_eq s.disp txt rest ht hio
  have : dg' = dg := Vector.ext fun j hj => (h2 j hj).trans (h1 j hj).symm
  exact ⟨_, e1, by rw [e2, this]⟩

example : ∃ s, Running .m88p s ∧ ∃ b, menuText .m88p s = some (b, true) ∧
    b = [some 32, some 32, some 48, some 67, some 46, some 0] := by
  obtain ⟨s, hr, hP⟩ := demo_any (c := .m88p) (pinb := 0xFF) (es := [])
    (P := fun s => decide (menuText .m88p s = some ([some 32, some 32, some 48, some 67, some 46, some 0], true)))
    validEeprom_m88p (by decide)
  exact ⟨s, hr, _, of_decide_eq_true hP, rfl⟩

example : menuPutTemp TextBuf.fresh (-8388608) [67, 46] =
    some [some 32, some 32, some 48, some 67, some 46, some 0] := by decide

example : S24 (-8388608) ∧ TextBuf.fresh.length = 6 ∧ ([67, 46] : List Nat).length = 2 := by decide

example : menuPutFixpt TextBuf.fresh 8388607 2 = some [some 57, some 57, some 46, some 57, some 56, some 0] := by decide

/-! ### C48 -/

/-- The text of the current screen is the one that belongs there: the temperature, the set point with its number,
    the factor … as a number that reads back as the value. -/
theorem C48_text (c : Conf) (s : Sys) (h : Running c s) :
    ∃ b heat txt, menuText c s = some (b, heat) ∧ HoldsText b txt ∧ ScreenText s txt := by
  obtain ⟨b, heat, txt, e, ht, hs⟩ := menuText_ok (Running.inv h)
  exact ⟨b, heat, txt, e, ht, hs.screenText (Running.inv h)⟩

/-- Every temperature whose rounded value fits into an `int16_t` reads back as this value, limited to -99..999. -/
theorem C48_temp (v : Int) (hv : -32768 * 64 - 32 < v ∧ v < 32767 * 64 + 32) (buf : TextBuf) (hb : buf.length = 6)
    (unit : List Nat) (hu : unit.length = 1 ∨ unit.length = 2) (hc : ∀ ch ∈ unit, 0 < ch ∧ ch < 256) :
    ∃ b txt, menuPutTemp buf v unit = some b ∧ HoldsText b txt ∧ TempText v unit txt := by
  obtain ⟨b0, b1, b2, b3, b4, b5, rfl⟩ := six hb
  obtain ⟨n, e, hn⟩ := C05_to_int v (by unfold S24; omega)
  have h16 : toS16 n = n := by
    unfold NearestAway at hn
    unfold toS16
    omega
  obtain ⟨rest, e'⟩ := menuPutTemp_any b0 b1 b2 b3 b4 b5 e h16 unit hu
  exact ⟨_, _, e', holds_temp hc rest, TempText.of hn unit⟩

/-- Every factor that fits into the digits reads back as its integer part and its decimals, rounded. -/
theorem C48_factor (v : Int) (digits : Nat) (hd : digits = 2 ∨ digits = 3) (hv : 0 ≤ v ∧ v < 64 * 10 ^ (4 - digits))
    (buf : TextBuf) (hb : buf.length = 6) :
    ∃ b txt, menuPutFixpt buf v digits = some b ∧ HoldsText b txt ∧ FactorText v digits txt := by
  obtain ⟨b0, b1, b2, b3, b4, b5, rfl⟩ := six hb
  obtain ⟨txt, e, h⟩ := menuPutFixpt_factor b0 b1 b2 b3 b4 b5 hd hv
  have hs : S24 v := by
    rcases hd with rfl | rfl
    · norm_num at hv; unfold S24; omega
    · norm_num at hv; unfold S24; omega
  obtain ⟨txt', e', h1, -⟩ := menuPutFixpt_any b0 b1 b2 b3 b4 b5 hs hd
  rw [e] at e'
  have : txt' = txt := by
    have h2 := List.append_cancel_right (Option.some.inj e')
    exact (List.map_inj_right (fun _ _ h => Option.some.inj h)).mp h2.symm
  rw [this] at h1
  exact ⟨_, txt, e, ⟨h1, [], rfl⟩, h⟩

/-- 32768 °C is beyond that: it would be shown as -99. -/
theorem C48_temp_limit : menuPutTemp TextBuf.fresh (32768 * 64) [67] =
    some [some 45, some 57, some 57, some 67, some 0, none] := by decide

/-- A reading of 350.5 °C is shown as 351 with the unit "C."; the factor 12.39 (793/64 = 12.390625) as 12.39. -/
example : menuPutTemp TextBuf.fresh 22432 [67, 46] = some [some 51, some 53, some 49, some 67, some 46, some 0] ∧
    menuPutFixpt TextBuf.fresh 793 2 = some [some 49, some 50, some 46, some 51, some 57, some 0] := by decide

example : TempText 22432 [67, 46] [51, 53, 49, 67, 46] :=
  ⟨351, [51, 53, 49], by unfold NearestAway; omega, rfl, rfl, rfl⟩

/-! ### C49 -/

theorem menuWork_flags {c : Conf} {s s' : Sys} (hi : Inv c s) (e : step c s .menuWork = some s') :
    s'.menu.dispErr < 4 ∧ s'.menu.dispErr.testBit 0 = s'.cc.emerg.getLsbD 0 ∧
    s'.menu.dispErr.testBit 1 = s'.ct.emergency ∧
    s'.cc.emerg = s.cc.emerg ∧ s'.ct.emergency = s.ct.emergency := by
  obtain ⟨-, -, -, -, h1, -⟩ := menuWork_eff hi s' e
  have h2 := Hand.menuWork hi s' e
  have k1 : ∀ x : BitVec 8, (x &&& 1#8 ≠ 0) ↔ x.getLsbD 0 = true := by decide
  refine ⟨?_, ?_, ?_, h2.emerg, h2.ctEmerg⟩
  all_goals
    rw [h1]
    try rw [h2.emerg]
    try rw [h2.ctEmerg]
    unfold menuError
    simp only [k1]
    cases s.cc.emerg.getLsbD 0 <;> cases s.ct.emergency <;> decide

/-- After each `menu_work` bit 0 of the error number tells whether the current readings are in plausibility
    emergency, bit 1 whether the temperature readings are; no other bit is set.  `menu_work` does not change these. -/
theorem C49_flags (c : Conf) (s s' : Sys) (h : Running c s) (e : step c s .menuWork = some s') :
    s'.menu.dispErr < 4 ∧ s'.menu.dispErr.testBit 0 = s'.cc.emerg.getLsbD 0 ∧
    s'.menu.dispErr.testBit 1 = s'.ct.emergency ∧
    s'.cc.emerg = s.cc.emerg ∧ s'.ct.emergency = s.ct.emergency := menuWork_flags (Running.inv h) e

/-- A change of the error number stops the ramping. -/
theorem C49_stops (c : Conf) (s s' : Sys) (h : Running c s) (e : step c s .menuWork = some s')
    (hc : s'.menu.dispErr ≠ s.menu.dispErr) : s'.menu.ramp = .none := by
  have hi := Running.inv h
  obtain ⟨-, -, -, -, h1, h2⟩ := menuWork_eff hi s' e
  have hn : (afterError (menuError s) (afterTimeout s.now s.menu)).ramp = .none := by
    have : (afterTimeout s.now s.menu).dispErr = s.menu.dispErr := by
      unfold afterTimeout
      split <;> rfl
    unfold afterError
    rw [this, ← h1]
    exact if_neg hc
  cases h2 with
  | same _ _ h3 => exact h3.trans hn
  | start _ _ h3 => rw [hn] at h3; rcases h3 with ⟨h3, -⟩ | ⟨h3, -⟩ <;> cases h3
  | step _ _ _ h3 => rw [hn] at h3; cases h3

/-- After each `menu_work` the temperature screen shows "Err n" exactly if the error number n is not 0; otherwise it
    shows the temperature. -/
theorem C49_shows (c : Conf) (s s' : Sys) (h : Running c s) (e : step c s .menuWork = some s')
    (hst : s'.menu.state = .curtemp) :
    ∃ txt dot, DisplayShows s'.disp txt dot ∧
      (txt = [69, 114, 114, 48 + s'.menu.dispErr] ↔ s'.menu.dispErr ≠ 0) ∧
      (s'.menu.dispErr = 0 → TempText s'.ct.feedback (unitOf s'.ct.idle s'.ct.boost) txt) := by
  obtain ⟨-, ⟨txt, h1, h2⟩, -⟩ := Shown.menuWork (Running.inv h) (Running.shown h) s' e
  unfold ScreenText at h1
  rw [hst] at h1
  simp only [] at h1
  refine ⟨txt, _, h2, ?_⟩
  by_cases hz : s'.menu.dispErr = 0
  · rw [if_pos hz] at h1
    refine ⟨⟨fun ht => ?_, fun hh => absurd hz hh⟩, fun _ => h1⟩
    obtain ⟨n, num, -, hl, hr, rfl⟩ := h1
    match num, hl with
    | [a, b, d], _ =>
      simp only [List.cons_append, List.nil_append, List.cons.injEq] at ht
      obtain ⟨rfl, rfl, rfl, -⟩ := ht
      exact absurd hr (by simp [readNumber, readDigits])
  · rw [if_neg hz] at h1
    exact ⟨⟨fun _ => hz, fun _ => h1⟩, fun hh => absurd hh hz⟩

set_option maxRecDepth 100000 in
/-- A broken temperature sensor: after some implausible readings the display says "Err 2". -/
example : ∃ s s', Running .m88p s ∧ step .m88p s .menuWork = some s' ∧ s.menu.dispErr = 0 ∧ s'.menu.dispErr = 2 ∧
    s'.menu.state = .curtemp := by
  obtain ⟨s, hr, hP⟩ := demo_any (c := .m88p) (pinb := 0xFF)
    (es := (reading 50 1023 ++ reading 5 0) ++ ticks 3000 ++ reading 50 1023)
    (P := fun s => decide (s.menu.dispErr = 0) && (step .m88p s .menuWork).any fun (s' : Sys) =>
      decide (s'.menu.dispErr = 2) && decide (s'.menu.state = .curtemp))
    validEeprom_m88p (demo_pause validEeprom_m88p (by decide))
  simp only [Bool.and_eq_true, decide_eq_true_eq] at hP
  match e : step .m88p s .menuWork with
  | none => rw [e] at hP; cases hP.2
  | some s' =>
    rw [e] at hP
    simp only [Option.any_some, Bool.and_eq_true, decide_eq_true_eq] at hP
    exact ⟨s, s', hr, e, hP.1, hP.2.1, hP.2.2⟩

/-! ### C51 -/

/-- At most one digit is lit. -/
theorem C51_one (c : Conf) (s : Sys) (h : Running c s) (i j : Nat) (hi : DriverOn s.ports.v i = true)
    (hj : DriverOn s.ports.v j = true) : i = j := by
  have := (Running.inv h).disp.drv
  rw [(this i hi).2, (this j hj).2]

/-- what `display_work` lights -/
theorem displayWork_round {c : Conf} {s s' : Sys} (hi : DispInv c s.disp s.ports.v s.debugEn)
    (e : step c s .displayWork = some s') :
    (s.debugEn = false ∧ timerExpired s.now s.disp.muxTimer = true ∧
      ∃ j, j < 4 ∧ (∀ k, DriverOn s'.ports.v k = true ↔ k = j) ∧
        ∀ i, DriverOn s.ports.v i = true → j = (i + 1) % 4) ∨
    ((s.debugEn = true ∨ timerExpired s.now s.disp.muxTimer = false) ∧ s' = s) := by
  obtain ⟨⟨p, d⟩, e1, e⟩ := Option.bind_eq_some_iff.mp e
  cases e
  by_cases hq : s.disp.enabled = true ∧ timerExpired s.now s.disp.muxTimer = true
  · have hdbg : s.debugEn = false := by
      have := hi.en
      rw [hq.1] at this
      simpa using this
    refine Or.inl ⟨hdbg, hq.2, ?_⟩
    rcases displayWork_eq s.now s.ports hi with e' | ⟨t, j, he, -, -, hj, hj4, e'⟩
    · exfalso
      rw [e'] at e1
      have hne : displayWork s.now s.ports s.disp ≠ some (s.ports, s.disp) := by
        unfold displayWork
        rw [hq.1, hq.2]
        simp only [Bool.not_true, Bool.false_eq_true, if_false]
        intro hh
        obtain ⟨t, -, hh⟩ := Option.bind_eq_some_iff.mp hh
        obtain ⟨src, -, hh⟩ := Option.bind_eq_some_iff.mp hh
        obtain ⟨dst, -, hh⟩ := Option.bind_eq_some_iff.mp hh
        obtain ⟨p', -, hh⟩ := Option.bind_eq_some_iff.mp hh
        have := congrArg (fun x => x.2.mux) (Option.some.inj hh)
        have hm := hi.mux
        change ringNext s.disp.mux 3 = s.disp.mux at this
        have : s.disp.mux = 0 ∨ s.disp.mux = 1 ∨ s.disp.mux = 2 ∨ s.disp.mux = 3 := by omega
        rename_i hr
        rcases this with k | k | k | k <;> rw [k] at hr <;> exact absurd hr (by decide)
      exact hne e'
    · rw [e'] at e1
      cases e1
      refine ⟨j, hj4, fun k => ?_, fun i hh => ?_⟩
      · show DriverOn (driver _ j true).v k = true ↔ _
        rw [driverOn_driver _ hj4]
        by_cases hk : k = j
        · simp [hk]
        · rw [if_neg hk]
          refine ⟨fun hh => ?_, fun hh => absurd hh hk⟩
          exfalso
          have hh : DriverOn (driver s.ports s.disp.mux false).v k = true := hh
          rw [driverOn_driver _ hi.mux] at hh
          by_cases hm : k = s.disp.mux
          · rw [if_pos hm] at hh; cases hh
          · rw [if_neg hm] at hh
            exact hm (hi.drv k hh).2
      · rw [(hi.drv i hh).2, hj]
        have := hi.mux
        split <;> omega
  · have hx : s.debugEn = true ∨ timerExpired s.now s.disp.muxTimer = false := by
      have := hi.en
      cases hd : s.debugEn with
      | true => exact Or.inl rfl
      | false =>
        rw [hd] at this
        cases ht : timerExpired s.now s.disp.muxTimer with
        | true => exact absurd ⟨this, ht⟩ hq
        | false => exact Or.inr rfl
    refine Or.inr ⟨hx, ?_⟩
    have : displayWork s.now s.ports s.disp = some (s.ports, s.disp) := by
      rcases displayWork_eq s.now s.ports hi with e' | ⟨t, j, he, ht, -⟩
      · exact e'
      · exact absurd ⟨he, ht⟩ hq
    rw [this] at e1
    cases e1
    rfl

/-- The digits are lit round-robin: while the display is on, `display_work` lights, once its timer has expired, the
    digit after the one that was lit, and no other. -/
theorem C51_round (c : Conf) (s s' : Sys) (h : Running c s) (e : step c s .displayWork = some s') :
    (s.debugEn = false ∧ timerExpired s.now s.disp.muxTimer = true ∧
      ∃ j, j < 4 ∧ (∀ k, DriverOn s'.ports.v k = true ↔ k = j) ∧
        ∀ i, DriverOn s.ports.v i = true → j = (i + 1) % 4) ∨
    ((s.debugEn = true ∨ timerExpired s.now s.disp.muxTimer = false) ∧ s' = s) :=
  displayWork_round (Running.inv h).disp e

/-- The claim of C51 about the writes of a step: those to the segment port happen with all digits off. -/
def SegmentsCalm (p p' : Ports) : Prop :=
  ∃ new, Wrote p p' new ∧ ∀ w ∈ new, w.reg = .portD → AllOff w.before

/-- Full claim: `∀ c s s' e, Running c s → step c s e = some s' → SegmentsCalm s.ports s'.ports`.  It does not hold
    (`C51_false`).  This is it with the one exception: in builds with the debug interface, pressing PLUS (in the
    debug screen, which hands the segment pins to the UART). -/
theorem C51_partial (c : Conf) (s s' : Sys) (e : Ev) (h : Running c s) (hs : step c s e = some s') :
    SegmentsCalm s.ports s'.ports ∨ (c.debug = true ∧ ∃ pinb, e = .buttonsWork pinb ∧ Down pinb .plus = true) := by
  rcases (step_writes h hs).2 with ⟨new, h1, h2⟩ | h1
  · exact Or.inl ⟨new, h1, fun w hw => (h2 w hw).2⟩
  · exact Or.inr h1

/-- Builds without the debug interface: every write to the segment port happens with all digits off. -/
theorem C51_no_debug (c : Conf) (hc : c.debug = false) (s s' : Sys) (e : Ev) (h : Running c s)
    (hs : step c s e = some s') : SegmentsCalm s.ports s'.ports := by
  rcases C51_partial c s s' e h hs with h1 | ⟨h1, -⟩
  · exact h1
  · rw [hc] at h1; cases h1

/-- Debugging was on and has been switched off with MINUS, so that the display is multiplexed; switching it on again
    with PLUS writes the segment port while a digit is lit. -/
theorem C51_false : ¬ ∀ c s s' e, Running c s → step c s e = some s' → SegmentsCalm s.ports s'.ports := by
  intro hall
  obtain ⟨s, hr, hP⟩ := demo_any (c := .m328p) (pinb := 0xFB)
    (es := [.buttonsWork 0xF7] ++ ticks 10 ++ [.displayWork])
    (P := fun s => (step .m328p s (.buttonsWork 0xEF)).any fun (s' : Sys) =>
      (s'.ports.log.take (s'.ports.log.length - s.ports.log.length)).any fun w =>
        decide (w.reg = .portD) && DriverOn w.before 1)
    validEeprom_m328p (by decide)
  match e : step .m328p s (.buttonsWork 0xEF) with
  | none => rw [e] at hP; cases hP
  | some s' =>
    rw [e] at hP
    obtain ⟨new, h1, h2⟩ := hall _ s s' _ hr e
    unfold Wrote at h1
    simp only [Option.any_some, h1, List.length_append, Nat.add_sub_cancel, List.take_left, List.any_eq_true,
      Bool.and_eq_true, decide_eq_true_eq] at hP
    obtain ⟨w, hw, hp, hd⟩ := hP
    have := h2 w hw hp 1
    rw [hd] at this
    cases this

/-- A multiplexing step of the release build: digit 1 is lit, then digit 2. -/
example : ∃ s s', Running .m88p s ∧ step .m88p s .displayWork = some s' ∧ DriverOn s.ports.v 1 = true ∧
    timerExpired s.now s.disp.muxTimer = true ∧ DriverOn s'.ports.v 2 = true ∧ s'.ports ≠ s.ports := by
  obtain ⟨s, hr, hP⟩ := demo_any (c := .m88p) (pinb := 0xFF) (es := ticks 3 ++ [.menuWork, .displayWork])
    (P := fun s => DriverOn s.ports.v 1 && timerExpired s.now s.disp.muxTimer &&
      (step .m88p s .displayWork).any fun (s' : Sys) => DriverOn s'.ports.v 2 && decide (s'.ports ≠ s.ports))
    validEeprom_m88p (by decide)
  simp only [Bool.and_eq_true] at hP
  match e : step .m88p s .displayWork with
  | none => rw [e] at hP; cases hP.2
  | some s' =>
    rw [e] at hP
    simp only [Option.any_some, Bool.and_eq_true, decide_eq_true_eq] at hP
    exact ⟨s, s', hr, e, hP.1.1, hP.1.2, hP.2.1, hP.2.2⟩

/-! ### C52 -/

/-- `display_show` of any text, then multiplexing: the digit that is switched on glows exactly in the shape of its
    character, with the decimal point if the text has one there or it is forced; the other digits are dark. -/
theorem C52_glyphs (c : Conf) (s : Sys) (h : Running c s) (txt : List Nat) (ht : ∀ ch ∈ txt, 0 < ch ∧ ch < 256)
    (rest : List (Option (BitVec 8))) (d d' : Display) (p' : Ports) (now : Int)
    (e1 : displayShow s.disp (txt.map (fun ch => some (BitVec.ofNat 8 ch)) ++ some 0 :: rest) = some d)
    (e2 : displayWork now s.ports d = some (p', d')) (hen : s.debugEn = false)
    (hx : timerExpired now s.disp.muxTimer = true) :
    ∃ i, ∃ hi : i < 4, ∀ j x, Glows p'.v j x =
      (decide (j = i) && wanted (forced s.disp.digit[i]) (layout txt)[i]? x) := by
  have hd := (Running.inv h).disp
  obtain ⟨rest', hb1, hb2⟩ := HoldsText.bytes (b := txt.map some ++ [some 0]) (txt := txt) ⟨ht, [], rfl⟩
  have hmap : txt.map (fun ch => some (BitVec.ofNat 8 ch)) = (txt.map (BitVec.ofNat 8)).map some := by
    rw [List.map_map]; rfl
  rw [hmap] at e1
  obtain ⟨dg, e1', hdg⟩ := displayShow_eq s.disp (txt.map (BitVec.ofNat 8)) rest hb2 (fun j hj => (hd.io j hj).1)
  rw [e1'] at e1
  cases e1
  have hd' : DispInv c { s.disp with digit := dg } s.ports.v s.debugEn :=
    { hd with io := fun i hi => (by
        show dg[i].sseg.iomap = _ ∧ dg[i].sseg.enMask = _
        rw [hdg i hi]
        exact hd.io i hi) }
  obtain ⟨i, hi, hg⟩ := work_glows hd' hen hx e2
  refine ⟨i, hi, fun j x => (hg j x).trans ?_⟩
  congr 1
  show dg[i].sseg.enSet.getLsbD _ = _
  rw [hdg i hi]
  show (lit i hi (glyphByte s.disp.digit[i].dpForce s.disp.digit[i].dpOn _)).getLsbD _ = _
  rw [layout_bytes txt (fun ch hch => (ht ch hch).2), List.getElem?_map]
  exact lit_glyph i hi s.disp.digit[i] _ x fun ch dp hh => (ht ch (layout_mem (List.mem_of_getElem? hh))).2

/-- The ten numerals are pairwise distinguishable. -/
theorem C52_numerals (a b : Nat) (ha : a < 10) (hb : b < 10) (hne : a ≠ b) :
    ∃ x, x ≠ Seg.dp ∧ (x ∈ shape (48 + a)) ≠ (x ∈ shape (48 + b)) := by
  have key : ∀ a, a < 10 → ∀ b, b < 10 → a ≠ b →
      [Seg.a, .b, .c, .d, .e, .f, .g].any (fun x => decide (x ∈ shape (48 + a)) != decide (x ∈ shape (48 + b))) = true := by
    decide
  obtain ⟨x, hx, hd⟩ := List.any_eq_true.mp (key a ha b hb hne)
  refine ⟨x, ?_, fun hh => ?_⟩
  · rintro rfl
    exact absurd hx (by decide)
  · simp only [eq_iff_iff] at hh
    simp [hh] at hd

/-- Characters other than letters, numerals and the minus sign are blank. -/
theorem C52_unknown (ch : Nat) (h1 : ¬ (48 ≤ ch ∧ ch ≤ 57)) (h2 : ¬ (65 ≤ ch ∧ ch ≤ 90)) (h3 : ¬ (97 ≤ ch ∧ ch ≤ 122))
    (h4 : ch ≠ 45) : shape ch = [] := by
  unfold shape
  rw [if_neg h3]
  split <;> first | rfl | omega

/-- "12.3C" on the display of the running firmware, then a multiplexing step that lights the second digit: a 2 with
    its decimal point. -/
example : ∃ s d d' p', Running .m88p s ∧ s.debugEn = false ∧ timerExpired s.now s.disp.muxTimer = true ∧
    displayShow s.disp ([49, 50, 46, 51, 67].map (fun ch => some (BitVec.ofNat 8 ch)) ++ some 0 :: []) = some d ∧
    displayWork s.now s.ports d = some (p', d') ∧ Glows p'.v 1 .a = true ∧ Glows p'.v 1 .f = false ∧
    Glows p'.v 1 .dp = true ∧ layout [49, 50, 46, 51, 67] = [(49, false), (50, true), (51, false), (67, false)] := by
  obtain ⟨s, hr, hP⟩ := demo_any (c := .m88p) (pinb := 0xFF) (es := ticks 3)
    (P := fun s => !s.debugEn && timerExpired s.now s.disp.muxTimer &&
      ((displayShow s.disp ([49, 50, 46, 51, 67].map (fun ch => some (BitVec.ofNat 8 ch)) ++ some 0 :: [])).bind fun d =>
        displayWork s.now s.ports d).any fun (x : Ports × Display) =>
          Glows x.1.v 1 .a && !Glows x.1.v 1 .f && Glows x.1.v 1 .dp)
    validEeprom_m88p (by decide)
  simp only [Bool.and_eq_true, Bool.not_eq_true'] at hP
  match e1 : displayShow s.disp ([49, 50, 46, 51, 67].map (fun ch => some (BitVec.ofNat 8 ch)) ++ some 0 :: []) with
  | none => rw [e1] at hP; cases hP.2
  | some d =>
    rw [e1, Option.bind_some] at hP
    match e2 : displayWork s.now s.ports d with
    | none => rw [e2] at hP; cases hP.2
    | some (p', d') =>
      rw [e2] at hP
      simp only [Option.any_some, Bool.and_eq_true, Bool.not_eq_true'] at hP
      exact ⟨s, d, d', p', hr, hP.1.1, hP.1.2, e1, e2, hP.2.1.1, hP.2.1.2, hP.2.2, by decide⟩

/-! ### C53 -/

/-- Whatever happens, the shared ports are changed only in the pins of the display. -/
theorem C53_steps (c : Conf) (s s' : Sys) (e : Ev) (h : Running c s) (hs : step c s e = some s') :
    ∃ new, Wrote s.ports s'.ports new ∧ ∀ w ∈ new, Confined w :=
  (step_writes h hs).1

/-- The operations of the display do this for every port content. -/
theorem C53_operations (c : Conf) (s : Sys) (h : Running c s) (p p' : Ports) (d' : Display) (now : Int) (en : Bool)
    (e : displayWork now p s.disp = some (p', d') ∨ displayEnable now p s.disp en = some (p', d')) :
    ∃ new, Wrote p p' new ∧ ∀ w ∈ new, Confined w := by
  have hi := (Running.inv h).disp
  have hinit : ∀ (q : Ports) i, i < 4 → Logs Confined q (digitInit q i) := by
    intro q i hi
    unfold digitInit
    exact Logs.trans (Logs.trans (Logs.trans (p' := q.write .portD 0xFF) (Logs.one trivial)
      (Logs.one (r := .ddrD) trivial)) ((driver_confined hi _).mono fun _ h => h.1))
      ((driverDdr_confined hi _).mono fun _ h => h.1)
  rcases e with e | e
  · rcases displayWork_eq now p hi with e' | ⟨t, j, -, -, -, -, hj, e'⟩
    · rw [e'] at e
      cases e
      exact Logs.refl _ _
    · rw [e'] at e
      cases e
      exact (((driver_confined hi.mux false).mono fun _ h => h.1).trans (Logs.one (r := .portD) trivial)).trans
        ((driver_confined hj true).mono fun _ h => h.1)
  · cases hd : s.disp.enabled <;> cases en
    · unfold displayEnable at e
      rw [if_pos (by rw [hd])] at e
      cases e
      exact Logs.refl _ _
    · obtain ⟨dg, e', -⟩ := displayOn_eq now p hd
      rw [e'] at e
      cases e
      exact (((hinit _ 0 (by decide)).trans (hinit _ 1 (by decide))).trans (hinit _ 2 (by decide))).trans
        (hinit _ 3 (by decide))
    · have e' := displayOff_eq now p hi hd
      rw [e'] at e
      cases e
      exact (((digitExit_confined (by decide)).trans (digitExit_confined (by decide))).trans
        (digitExit_confined (by decide))).trans (digitExit_confined (by decide))
    · unfold displayEnable at e
      rw [if_pos (by rw [hd])] at e
      cases e
      exact Logs.refl _ _

/-- So the other pins stay as they were set up: on port B only the heater output PB1 is an output and the button
    inputs PB0, PB2..PB4 have their pull-ups; on port C the pins PC0..PC2 of the ADC are inputs. -/
theorem C53_pins (c : Conf) (s : Sys) (h : Running c s) :
    s.ports.v.ddrB &&& 0x7F = 0x02 ∧ s.ports.v.portB &&& 0x7F = 0x7F ∧
    s.ports.v.ddrC &&& 0xC7 = 0 ∧ s.ports.v.portC &&& 0xC7 = 1 :=
  (Running.inv h).disp.fixed

/-- A multiplexing step that switches the small digit on writes port B, of which the other pins are set. -/
example : ∃ s s', Running .m88p s ∧ step .m88p s .displayWork = some s' ∧ s.ports.v.portB = 0x7F ∧
    s'.ports.v.portB = 0xFF := by
  obtain ⟨s, hr, hP⟩ := demo_any (c := .m88p) (pinb := 0xFF) (es := ticks 4 ++ [.displayWork, .displayWork])
    (P := fun s => decide (s.ports.v.portB = 0x7F) && (step .m88p s .displayWork).any fun (s' : Sys) =>
      decide (s'.ports.v.portB = 0xFF))
    validEeprom_m88p (by decide)
  simp only [Bool.and_eq_true, decide_eq_true_eq] at hP
  match e : step .m88p s .displayWork with
  | none => rw [e] at hP; cases hP.2
  | some s' =>
    rw [e] at hP
    simp only [Option.any_some, decide_eq_true_eq] at hP
    exact ⟨s, s', hr, e, hP.1, hP.2⟩

/-! ### C61 -/

/-- After each `menu_work` the digits hold the text that belongs to the screen and the present values. -/
theorem C61_work (c : Conf) (s s' : Sys) (h : Running c s) (e : step c s .menuWork = some s') :
    s'.menu.updReq = false ∧
    ∃ txt, ScreenText s' txt ∧ DisplayShows s'.disp txt (ShowsHeating s' && s'.menu.dispHeating) := by
  obtain ⟨-, h2, h3⟩ := Shown.menuWork (Running.inv h) (Running.shown h) s' e
  exact ⟨h3, h2⟩

/-- In between they do so unless an update has been requested: no change of what is to be shown goes unnoticed. -/
theorem C61_between (c : Conf) (s : Sys) (h : Running c s) (hu : s.menu.updReq = false) :
    ∃ txt, ScreenText s txt ∧ DisplayShows s.disp txt (ShowsHeating s && s.menu.dispHeating) := by
  rcases (Running.shown h).shown with h1 | h1
  · rw [hu] at h1; cases h1
  · exact h1

/-- So, as long as no update is pending, each digit glows in the shape of its character of the text that belongs to
    the screen when it is switched on. -/
theorem C61_glows (c : Conf) (s s' : Sys) (h : Running c s) (hu : s.menu.updReq = false) (hen : s.debugEn = false)
    (hx : timerExpired s.now s.disp.muxTimer = true) (e : step c s .displayWork = some s') :
    ∃ txt, ScreenText s txt ∧ ∃ i < 4, ∀ j x, Glows s'.ports.v j x = (decide (j = i) &&
      wanted (if i = 2 then some (ShowsHeating s && s.menu.dispHeating) else none) (layout txt)[i]? x) := by
  obtain ⟨txt, h1, h2⟩ := C61_between c s h hu
  obtain ⟨⟨p, d⟩, e1, e⟩ := Option.bind_eq_some_iff.mp e
  cases e
  obtain ⟨i, hi, hg⟩ := work_glows (Running.inv h).disp hen hx e1
  refine ⟨txt, h1, i, hi, fun j x => ?_⟩
  rw [← h2 i hi x]
  exact hg j x

/-- After booting, with no reading yet, the display says "0C"; the last digit glows in the shape of C with its
    point. -/
example : ∃ s s', Running .m88p s ∧ s.menu.updReq = false ∧ s.debugEn = false ∧
    timerExpired s.now s.disp.muxTimer = true ∧ step .m88p s .displayWork = some s' ∧
    ScreenText s [32, 32, 48, 67, 46] ∧ Glows s'.ports.v 3 .a = true ∧ Glows s'.ports.v 3 .b = false ∧
    Glows s'.ports.v 3 .dp = true := by
  obtain ⟨s, hr, hP⟩ := demo_any (c := .m88p) (pinb := 0xFF) (es := ticks 4 ++ [.menuWork, .displayWork, .displayWork])
    (P := fun s => !s.menu.updReq && !s.debugEn && timerExpired s.now s.disp.muxTimer &&
      (step .m88p s .displayWork).any (fun (s' : Sys) =>
        Glows s'.ports.v 3 .a && !Glows s'.ports.v 3 .b && Glows s'.ports.v 3 .dp) &&
      decide (s.menu.state = .curtemp) && decide (s.menu.dispErr = 0) && decide (s.ct.feedback = 0) &&
      decide (unitOf s.ct.idle s.ct.boost = [67, 46]))
    validEeprom_m88p (by decide)
  simp only [Bool.and_eq_true, Bool.not_eq_true', decide_eq_true_eq] at hP
  obtain ⟨⟨⟨⟨⟨⟨⟨p1, p2⟩, p3⟩, p4⟩, p5⟩, p6⟩, p7⟩, p8⟩ := hP
  match e : step .m88p s .displayWork with
  | none => rw [e] at p4; cases p4
  | some s' =>
    rw [e] at p4
    simp only [Option.any_some, Bool.and_eq_true, Bool.not_eq_true'] at p4
    refine ⟨s, s', hr, p1, p2, p3, e, ?_, p4.1.1, p4.1.2, p4.2⟩
    unfold ScreenText
    rw [p5]
    simp only [p6, if_true, p7, p8]
    exact ⟨0, [32, 32, 48], by unfold NearestAway; omega, rfl, rfl, rfl⟩

/-! ### C62 -/

/-- Each `menu_work` notes whether the temperature is below the set point. -/
theorem C62_heating (c : Conf) (s s' : Sys) (h : Running c s) (e : step c s .menuWork = some s') :
    s'.menu.dispHeating = decide (s.ct.feedback < s.ct.pid.setpoint) :=
  menuWork_heat (Running.inv h) (Running.shown h).dp s' e

/-- The decimal point of the third digit tells so in the temperature, preset, idle temperature and debug screens; in
    the other screens and with an error message it is off.  (It is on as soon as the digit is switched on, `C61_glows`.) -/
theorem C62_dot (c : Conf) (s s' : Sys) (h : Running c s) (e : step c s .menuWork = some s') :
    s'.disp.digit[2].sseg.enSet.getLsbD (segPin false .dp) =
      (ShowsHeating s' && decide (s.ct.feedback < s.ct.pid.setpoint)) := by
  obtain ⟨-, txt, h1, h2⟩ := C61_work c s s' h e
  have := h2 2 (by decide) .dp
  rw [C62_heating c s s' h e] at this
  refine Eq.trans this ?_
  cases hl : (layout txt)[2]? with
  | some p => rfl
  | none =>
    cases hs : ShowsHeating s' with
    | false => rfl
    | true => exact absurd hl (layout_third h1 hs)

/-- A cold iron after booting: the point is on. -/
example : ∃ s s', Running .m88p s ∧ step .m88p s .menuWork = some s' ∧ s.ct.feedback < s.ct.pid.setpoint ∧
    ShowsHeating s' = true ∧ s'.disp.digit[2].sseg.enSet.getLsbD (segPin false .dp) = true := by
  obtain ⟨s, hr, hP⟩ := demo_any (c := .m88p) (pinb := 0xFF) (es := [])
    (P := fun s => decide (s.ct.feedback < s.ct.pid.setpoint) && (step .m88p s .menuWork).any fun (s' : Sys) =>
      ShowsHeating s' && s'.disp.digit[2].sseg.enSet.getLsbD (segPin false .dp))
    validEeprom_m88p (by decide)
  simp only [Bool.and_eq_true, decide_eq_true_eq] at hP
  match e : step .m88p s .menuWork with
  | none => rw [e] at hP; cases hP.2
  | some s' =>
    rw [e] at hP
    simp only [Option.any_some, Bool.and_eq_true] at hP
    exact ⟨s, s', hr, e, hP.1, hP.2.1, hP.2.2⟩

end Verif.Props
