import Verif.Spec.Ui
import Verif.Proofs.Ui
/-
C107: the user interface is a machine of the samples of the buttons and the calls of the menu's work function.
-/
namespace Verif.Props
open Spec

/-- The screen, the change of a value, the settings and the debug switch are at every moment what the user interface
    makes of the samples of the buttons and the times of the calls of the menu's work function: of buttons pressed and
    released in any combination and at any time. -/
theorem C107_follows (v : Speed) (c : Conf) (x : Loop) (u : Ui) (hv : v.Sane) (hW : v.W ≤ 25) (h : LoopUi v c x u) :
    Agrees x.s u := (h.inv hv hW).rel.agrees

/-- Every execution of the main loop has such a user interface beside it. -/
theorem C107_any (v : Speed) (c : Conf) (x : Loop) (h : LoopRun v c x) : ∃ u, LoopUi v c x u := ui_any h

/-- iterations every 10 ms, with a very slow converter -/
private def turns (pinb : BitVec 8) (n : Nat) : List Cmd :=
  (List.replicate n (round pinb ++ [.pause 10])).flatten

set_option maxRecDepth 100000 in
/-- `C107_follows`: SET and plus go down together and up together, while the temperature is displayed.  SET comes first:
    the idle temperature is displayed, and the preset remains. -/
example : ∃ x u, LoopUi ⟨10, 2000, 4⟩ .m88p x u ∧ Speed.Sane ⟨10, 2000, 4⟩ ∧ x.T = 30 ∧ u.pins = 0xFF ∧
    u.screen = .idletemp ∧ u.since = 20 ∧ u.ramp = .none ∧ u.vals.active = 3 ∧ x.s.menu.state = .idletemp := by
  have h : (uiCmds ⟨10, 2000, 4⟩ .m88p 0xFF (turns 0xEB 2 ++ turns 0xFF 1)).any (fun x => x.1.T == 30 && (x.2.pins == 0xFF &&
      (x.2.screen == .idletemp && (x.2.since == 20 && (x.2.ramp == .none && (x.2.vals.active == 3 &&
        x.1.s.menu.state == .idletemp)))))) = true := by decide +kernel
  match e : uiCmds ⟨10, 2000, 4⟩ .m88p 0xFF (turns 0xEB 2 ++ turns 0xFF 1) with
  | none => rw [e] at h; cases h
  | some x =>
    rw [e] at h
    simp only [Option.any_some, Bool.and_eq_true, beq_iff_eq] at h
    exact ⟨x.1, x.2, uiCmds_ui validEeprom_m88p e, by unfold Speed.Sane; decide, h⟩

private theorem ui_run {v : Speed} {c : Conf} {x : Loop} {u : Ui} (h : LoopUi v c x u) : LoopRun v c x := by
  induction h with
  | boot hv e => exact .boot hv e
  | sample _ hs ht _ ih => exact ih.step hs ht
  | work _ hs ht ih => exact ih.step hs ht
  | other _ hs ht _ _ ih => exact ih.step hs ht

/-- `C107_any`: an execution of 20 ms with SET and plus held -/
example : ∃ x, LoopRun ⟨10, 2000, 4⟩ .m88p x ∧ x.T = 20 := by
  have h : (uiCmds ⟨10, 2000, 4⟩ .m88p 0xFF (turns 0xEB 2)).any (fun x => x.1.T == 20) = true := by decide +kernel
  match e : uiCmds ⟨10, 2000, 4⟩ .m88p 0xFF (turns 0xEB 2) with
  | none => rw [e] at h; cases h
  | some x =>
    rw [e] at h
    exact ⟨x.1, ui_run (uiCmds_ui validEeprom_m88p e), by simpa using h⟩

set_option maxRecDepth 100000 in
/-- `C107_follows`: minus and plus go down together, plus goes up, comes back and stays down for 1.6 s, which raises the
    selected preset, 350 C, by two degrees; the next step is due at 1640 ms. -/
example : ∃ x u, LoopUi ⟨10, 2000, 4⟩ .m88p x u ∧ Speed.Sane ⟨10, 2000, 4⟩ ∧ x.T = 1640 ∧ u.pins = 0xE7 ∧
    u.screen = .chgpreset ∧ u.ramp = .up ∧ u.rampAt = 1640 ∧ u.vals.sp[3] = 352 * 64 ∧ x.s.set.cache.sp[3] = 352 * 64 := by
  have h : (uiCmds ⟨10, 2000, 4⟩ .m88p 0xFF (turns 0xE7 2 ++ turns 0xF7 2 ++ turns 0xE7 160)).any (fun x => x.1.T == 1640 &&
      (x.2.pins == 0xE7 && (x.2.screen == .chgpreset && (x.2.ramp == .up && (x.2.rampAt == 1640 &&
        (x.2.vals.sp[3] == 352 * 64 && x.1.s.set.cache.sp[3] == 352 * 64)))))) = true := by decide +kernel
  match e : uiCmds ⟨10, 2000, 4⟩ .m88p 0xFF (turns 0xE7 2 ++ turns 0xF7 2 ++ turns 0xE7 160) with
  | none => rw [e] at h; cases h
  | some x =>
    rw [e] at h
    simp only [Option.any_some, Bool.and_eq_true, beq_iff_eq] at h
    exact ⟨x.1, x.2, uiCmds_ui validEeprom_m88p e, by unfold Speed.Sane; decide, h⟩

end Verif.Props
