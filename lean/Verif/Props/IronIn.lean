import Verif.Proofs.IronIn
/-
C119: the iron button in the main loop with interrupts inside the work functions.
-/
namespace Verif.Props
open Spec

/-- While the iron button is down (since the sample at the time `t`), also with interrupts inside the work functions: a
    press in idle mode leaves idle mode at once and does not enter it again.  Any other press does not enter idle mode
    before the button has been held for 1000 ms, and has entered it when it has been held for 1010 ms and three
    iterations.  No sequence of presses, however long, confuses the 16-bit time. -/
theorem C119_held (v : Speed) (c : Conf) (x : LoopI) (l : List (Nat × BitVec 8)) (i : Bool) (t : Nat) (hb : c.boost = true)
    (hc : c.idle = true) (hv : v.SaneI) (hW : v.W ≤ 10) (h : LoopIIron v c x l i) (hh : heldSince .iron l = some t) :
    (i = true → x.s.ct.idle = false) ∧
    (i = false → (x.T < t + 1000 → x.s.ct.idle = false) ∧ (t + 1010 + 3 * v.W ≤ x.T → x.s.ct.idle = true)) := by
  have k := h.held hb hc hv hW t hh
  refine ⟨fun hi => (k.used hi).1, fun hi => ⟨fun hT => ?_, fun hT => ?_⟩⟩
  · rw [k.idle hi]
    cases hl : x.s.ct.biLet
    · have := k.done hi hl
      omega
    · rfl
  · rw [k.idle hi]
    cases hl : x.s.ct.biLet
    · rfl
    · obtain ⟨a, a1, a2, -, -, a5⟩ := k.wait hi hl
      have hs := h.samples.inv hv hW
      obtain ⟨u, hu⟩ := hs.ui
      have := hu.inv.dog
      have := hs.behind.le
      cases l with
      | nil => cases hh
      | cons z l =>
        have := a5 z.1 z.2 rfl
        have := (hs.times l.length z.1 z.2 (by simp)).1
        simp only [List.length_cons] at *
        omega

/-- Nothing but a sample of the buttons changes idle or boost mode, and a sample which sees the iron button up leaves
    idle mode as it is. -/
theorem C119_otherwise (v : Speed) (c : Conf) (x y : LoopI) (e : Option Ev) (l : List (Nat × BitVec 8)) (i : Bool)
    (hb : c.boost = true) (hc : c.idle = true) (hv : v.SaneI) (hW : v.W ≤ 10) (h : LoopIIron v c x l i)
    (hs : LoopIStep c x e y) (ht : InTimeI v y) :
    (y.s.btn.debounce = x.s.btn.debounce → y.s.ct.idle = x.s.ct.idle ∧ y.s.ct.boost = x.s.ct.boost) ∧
    ∀ pinb, e = some (.buttonsWork pinb) → Down pinb .iron = false → y.s.ct.idle = x.s.ct.idle := by
  have keep : y.s.btn.debounce = x.s.btn.debounce → y.s.ct.idle = x.s.ct.idle ∧ y.s.ct.boost = x.s.ct.boost := fun heq =>
    ⟨(h.samples.ironless hv hW hs heq).idle, h.samples.boostKept hv hW hs ht heq⟩
  refine ⟨keep, fun pinb he hd => ?_⟩
  by_cases heq : y.s.btn.debounce = x.s.btn.debounce
  · exact (keep heq).1
  · subst he
    have hi := h.samples.inv hv hW
    obtain ⟨u, hu⟩ := hi.ui
    have hy : y.T ≤ y.reset + v.W := ht.1
    have hres := hu.inv.reset
    cases hs with
    | ee he => rcases he with he | he <;> cases he
    | @call _ g s' pinb' hD hp hw =>
      have hx : timerExpired (nowAt (x.T + g.headD 0)) x.s.btn.debounce = true := by
        have full : Full c x.T x.s u := Full.of hu.inv.inv hu.inv.now hu.rel
        rcases full.sampleAt pinb hw with ⟨k1, -⟩ | ⟨-, k2⟩
        · exact k1
        · exact absurd (congrArg Buttons.debounce k2) heq
      have k := iron_sampleT hb hc hu.inv.now (fun h1 h2 => by
        obtain ⟨t, hh⟩ := was_held ((prev_iron hi .iron).symm.trans h1)
        have k := h.held hb hc hv hW t hh
        cases i with
        | true => exact (k.used rfl).1
        | false => rw [k.idle rfl, h2]; rfl) pinb hw (by
          have : x.T + g.sum ≤ x.reset + v.W := ht.1
          omega) hx
      rw [show (!pinb.getLsbD 0) = Down pinb .iron by simp [Down], hd] at k
      cases hwas : x.s.btn.prev.getLsbD 0 <;> rw [hwas] at k <;> exact k

/-- The sample which sees the iron button released advances the boost mode by one of three, unless the press was begun in
    idle mode or has entered it; any other sample leaves the boost mode.  (`b` is the boost mode before, or 0 if SET is
    released in the same sample, which may leave or enter a tuning screen.) -/
theorem C119_boost (v : Speed) (c : Conf) (x y : LoopI) (l : List (Nat × BitVec 8)) (i : Bool) (pinb : BitVec 8)
    (hb : c.boost = true) (hc : c.idle = true) (hv : v.SaneI) (hW : v.W ≤ 10) (h : LoopIIron v c x l i)
    (hs : LoopIStep c x (some (.buttonsWork pinb)) y) (ht : InTimeI v y) (hne : y.s.btn.debounce ≠ x.s.btn.debounce) :
    ∃ b, (b = x.s.ct.boost ∨ (b = 0 ∧ WasDown l .set = true ∧ Down pinb .set = false)) ∧
      y.s.ct.boost = if WasDown l .iron = true ∧ Down pinb .iron = false ∧ i = false ∧ x.s.ct.idle = false
        then (b + 1) % 3 else b := by
  have hi := h.samples.inv hv hW
  obtain ⟨u, hu⟩ := hi.ui
  have raw : y.s.btn.prev = buttonsRaw pinb := by
    cases hs with
    | ee he => rcases he with he | he <;> cases he
    | @call _ g s' pinb' hD hp hw =>
      have full : Full c x.T x.s u := Full.of hu.inv.inv hu.inv.now hu.rel
      rcases full.sampleAt pinb hw with ⟨-, k2⟩ | ⟨-, k2⟩
      · exact congrArg Buttons.prev k2
      · exact absurd (congrArg Buttons.debounce k2) hne
  rcases hs.once hv hu.inv ht with ⟨he, -⟩ | ⟨f, t, t', he, it, it', k1, es, k2⟩
  · cases he
  · cases he
    have b1 : t.ct.boost = x.s.ct.boost := (congrArg (·.ct.boost) k1 :)
    have b2 : t'.ct.boost = y.s.ct.boost := (congrArg (·.ct.boost) k2 :)
    have l1 : t.ct.biLet = x.s.ct.biLet := (congrArg (·.ct.biLet) k1 :)
    have i1 : t.ct.idle = x.s.ct.idle := (congrArg (·.ct.idle) k1 :)
    have p1 : t.btn.prev = x.s.btn.prev := (congrArg (·.btn.prev) k1 :)
    have p2 : t'.btn.prev = y.s.btn.prev := (congrArg (·.btn.prev) k2 :)
    have w0 : x.s.btn.prev.getLsbD 0 = WasDown l .iron := prev_iron hi .iron
    have w2 : x.s.btn.prev.getLsbD 2 = WasDown l .set := prev_iron hi .set
    have known : WasDown l .iron = true → x.s.ct.biLet = (!i && !x.s.ct.idle) := by
      intro hw
      obtain ⟨t, hh⟩ := was_held hw
      have k := h.held hb hc hv hW t hh
      cases i with
      | true => rw [(k.used rfl).2]; rfl
      | false => rw [k.idle rfl]; simp
    obtain ⟨b, h1, h2⟩ := boost_sample hb hc it es (by rw [p2, raw]; exact buttonsRaw_bit .iron pinb) (by
      rw [p1, l1, i1, w0]
      intro hw hl
      rw [known hw] at hl
      simp at hl
      exact hl.2)
    rw [b1, p1, w2] at h1
    rw [b2, p1, l1, w0] at h2
    have d0 : (Down pinb .iron = false) ↔ pinb.getLsbD 0 = true := by simp [Down]
    have d2 : (Down pinb .set = false) ↔ pinb.getLsbD 2 = true := by simp [Down]
    refine ⟨b, ?_, ?_⟩
    · rw [d2]; exact h1
    · rw [h2]
      simp only [d0]
      cases hw : WasDown l .iron
      · simp
      · rw [known hw]
        cases i <;> cases x.s.ct.idle <;> simp

/-! ### concrete runs -/

/-- an iteration with ticks inside the work function of the buttons; a very slow converter -/
private def turn (pinb : BitVec 8) (b : List Nat) (n : Nat) : List CmdI :=
  [.reset, .call .measureWork [], .call .menuWork [], .call .displayWork [], .call (.buttonsWork pinb) b] ++
    List.replicate b.sum .pass ++ [.call .settingsWork []] ++ List.replicate n .tick

private def turns (pinb : BitVec 8) (b : List Nat) (n k : Nat) : List CmdI := (List.replicate k (turn pinb b n)).flatten

private def long : List CmdI :=
  turns 0xFF [1] 9 2 ++ turn 0xFE [1, 2, 3] 4 ++ turns 0xFE [1, 1] 8 101 ++ turns 0xFE [1] 9 3

set_option maxRecDepth 100000 in
private theorem long_run : (ironCmdsI ⟨10, 2000, 4⟩ .m88p 0xFF long).any (fun x =>
    decide (heldSince .iron x.2.1 = some 21) && (x.2.2 == false && (x.1.T == 1070 && x.1.s.ct.idle == true))) = true := by
  decide +kernel

/-- `C119_held`: the iron button is held from 21 ms on, with ticks before each reading of the timer; at 1070 ms idle mode
    is on. -/
example : ∃ x l, LoopIIron ⟨10, 2000, 4⟩ .m88p x l false ∧ Speed.SaneI ⟨10, 2000, 4⟩ ∧ Conf.m88p.boost = true ∧
    Conf.m88p.idle = true ∧ heldSince .iron l = some 21 ∧ x.T = 1070 ∧ x.s.ct.idle = true := by
  have h := long_run
  match e : ironCmdsI ⟨10, 2000, 4⟩ .m88p 0xFF long with
  | none => rw [e] at h; cases h
  | some x =>
    rw [e] at h
    simp only [Option.any_some, Bool.and_eq_true, beq_iff_eq, decide_eq_true_eq] at h
    have hx := ironCmdsI_iron validEeprom_m88p e
    rw [h.2.1] at hx
    exact ⟨x.1, x.2.1, hx, by unfold Speed.SaneI; decide, rfl, rfl, h.1, h.2.2.1, h.2.2.2⟩

private def short : List CmdI :=
  turns 0xFF [1] 9 2 ++ turn 0xFE [1, 2, 3] 4 ++ turns 0xFE [1, 1] 8 5 ++
    [.reset, .call .measureWork [], .call .menuWork [], .call .displayWork []]

set_option maxRecDepth 100000 in
private theorem short_run : (ironCmdsI ⟨10, 2000, 4⟩ .m88p 0xFF short).any (fun x =>
    (loopCmdI ⟨10, 2000, 4⟩ .m88p NeverI x.1 (.call (.buttonsWork 0xFF) [2])).any fun y =>
    decide (y.s.btn.debounce ≠ x.1.s.btn.debounce) && (decide (heldSince .iron x.2.1 = some 21) &&
      (x.2.2 == false && (x.1.s.ct.boost == 0 && y.s.ct.boost == 1)))) = true := by
  decide +kernel

/-- `C119_boost`, `C119_otherwise`: a press of 60 ms, released, advances the boost mode from 0 to 1. -/
example : ∃ x y l, LoopIIron ⟨10, 2000, 4⟩ .m88p x l false ∧ LoopIStep .m88p x (some (.buttonsWork 0xFF)) y ∧
    InTimeI ⟨10, 2000, 4⟩ y ∧ y.s.btn.debounce ≠ x.s.btn.debounce ∧ heldSince .iron l = some 21 ∧ x.s.ct.boost = 0 ∧
    y.s.ct.boost = 1 := by
  have h := short_run
  match e : ironCmdsI ⟨10, 2000, 4⟩ .m88p 0xFF short with
  | none => rw [e] at h; cases h
  | some x =>
    rw [e] at h
    simp only [Option.any_some] at h
    match e' : loopCmdI ⟨10, 2000, 4⟩ .m88p NeverI x.1 (.call (.buttonsWork 0xFF) [2]) with
    | none => rw [e'] at h; cases h
    | some y =>
      rw [e'] at h
      simp only [Option.any_some, Bool.and_eq_true, beq_iff_eq, decide_eq_true_eq] at h
      have hx := ironCmdsI_iron validEeprom_m88p e
      rw [h.2.2.1] at hx
      obtain ⟨q1, q2, -⟩ := loopCmdI_call e'
      exact ⟨x.1, y, x.2.1, hx, q1, q2, h.1, h.2.1, h.2.2.2.1, h.2.2.2.2⟩

end Verif.Props
