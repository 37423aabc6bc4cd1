import Verif.Spec.Serial
/-
The transmitter and the timer.
-/
namespace Verif
open Spec

namespace Serial

/-- the bytes given to the transmitter -/
def queue (s : Serial) : List Nat := s.sent ++ s.shift.toList.map Prod.fst ++ s.udr.toList

/-- the cycles the transmitter needs for the bytes it has -/
def work (frame : Nat) (s : Serial) : Nat := (s.shift.elim 0 Prod.snd) + (s.udr.elim 0 fun _ => frame)

/-- the byte being sent needs between one cycle and a frame -/
def Good (frame : Nat) (s : Serial) : Prop := ∀ b n, s.shift = some (b, n) → 1 ≤ n ∧ n ≤ frame

variable {frame tick : Nat}

@[simp] theorem serve_t (s : Serial) : s.serve.t = s.t := by unfold serve; split <;> rfl
@[simp] theorem serve_udr (s : Serial) : s.serve.udr = s.udr := by unfold serve; split <;> rfl
@[simp] theorem serve_shift (s : Serial) : s.serve.shift = s.shift := by unfold serve; split <;> rfl
@[simp] theorem serve_sent (s : Serial) : s.serve.sent = s.sent := by unfold serve; split <;> rfl
@[simp] theorem serve_irq (s : Serial) : s.serve.irq = s.irq := by unfold serve; split <;> rfl

theorem transmit_rest (s : Serial) :
    (s.transmit frame).t = s.t ∧ (s.transmit frame).irq = s.irq ∧ (s.transmit frame).ocf = s.ocf ∧
      (s.transmit frame).ticks = s.ticks := by
  unfold transmit load
  split
  · exact ⟨rfl, rfl, rfl, rfl⟩
  · split <;> exact ⟨rfl, rfl, rfl, rfl⟩

@[simp] theorem cycle_t (s : Serial) : (s.cycle frame tick).t = s.t + 1 := by
  unfold cycle; simp [(transmit_rest s).1]

@[simp] theorem cycle_irq (s : Serial) : (s.cycle frame tick).irq = s.irq := by
  unfold cycle; simp [(transmit_rest s).2.1]

@[simp] theorem cycle_udr (s : Serial) : (s.cycle frame tick).udr = (s.transmit frame).udr := by unfold cycle; simp
@[simp] theorem cycle_shift (s : Serial) : (s.cycle frame tick).shift = (s.transmit frame).shift := by unfold cycle; simp
@[simp] theorem cycle_sent (s : Serial) : (s.cycle frame tick).sent = (s.transmit frame).sent := by unfold cycle; simp

theorem cycle_queue (s : Serial) : (s.cycle frame tick).queue = s.queue := by
  unfold queue
  rw [cycle_sent, cycle_shift, cycle_udr]
  unfold transmit load
  cases h : s.shift with
  | none => cases hu : s.udr <;> simp [hu]
  | some x =>
    obtain ⟨b, n⟩ := x
    simp only
    split <;> cases hu : s.udr <;> simp [hu]

theorem cycle_good (hf : 1 ≤ frame) {s : Serial} (h : s.Good frame) : (s.cycle frame tick).Good frame := by
  intro b n
  rw [cycle_shift]
  unfold transmit load
  cases hs : s.shift with
  | none =>
    cases hu : s.udr <;> simp [hu]
    omega
  | some x =>
    obtain ⟨b', n'⟩ := x
    have := h b' n' hs
    simp only
    split
    · cases hu : s.udr <;> simp [hu]
      omega
    · simp
      omega

theorem cycle_work {s : Serial} : s.work frame ≤ (s.cycle frame tick).work frame + 1 := by
  unfold work
  rw [cycle_shift, cycle_udr]
  unfold transmit load
  cases hs : s.shift with
  | none => cases hu : s.udr <;> simp [hu]
  | some x =>
    obtain ⟨b', n'⟩ := x
    simp only
    split
    · cases hu : s.udr <;> simp [hu] <;> omega
    · cases hu : s.udr <;> simp [hu] <;> omega

/-- the work is done as fast as possible: with something to send, a cycle does a cycle of work or moves the byte -/
theorem cycle_works {s : Serial} (h : s.Good frame) (hs : s.shift.isSome = true) :
    (s.cycle frame tick).work frame + 1 = s.work frame := by
  unfold work
  rw [cycle_shift, cycle_udr]
  unfold transmit load
  cases hs' : s.shift with
  | none => rw [hs'] at hs; cases hs
  | some x =>
    obtain ⟨b', n'⟩ := x
    have := h b' n' hs'
    simp only
    split
    · cases hu : s.udr <;> simp [hu] <;> omega
    · cases hu : s.udr <;> simp [hu] <;> omega

theorem cycle_moves {s : Serial} (hs : s.shift = none) :
    (s.cycle frame tick).work frame = s.work frame ∧ (s.cycle frame tick).udr = none := by
  unfold work
  rw [cycle_shift, cycle_udr]
  unfold transmit load
  rw [hs]
  cases hu : s.udr <;> simp [hu]

theorem succ_div' (t k : Nat) (hk : 0 < k) : (t + 1) / k = t / k + if (t + 1) % k = 0 then 1 else 0 := by
  rw [Nat.succ_div]
  simp only [Nat.dvd_iff_mod_eq_zero]

/-- with interrupts enabled every tick is counted -/
theorem cycle_on (hk : 0 < tick) {s : Serial} (hi : s.irq = true) (ho : s.ocf = false) :
    (s.cycle frame tick).ocf = false ∧
    (s.cycle frame tick).ticks + s.t / tick = s.ticks + (s.t + 1) / tick := by
  obtain ⟨h1, h2, h3, h4⟩ := transmit_rest (frame := frame) s
  rw [succ_div' _ _ hk]
  unfold cycle serve
  simp only [h1, h2, h3, h4, hi, ho, Bool.true_and, Bool.false_or, decide_eq_true_eq]
  split
  · simp; omega
  · rename_i h
    simp [h]

/-- with interrupts disabled they are remembered -/
theorem cycle_off (hk : 0 < tick) {s : Serial} (hi : s.irq = false) :
    (s.cycle frame tick).ocf = (s.ocf || decide (s.t / tick < (s.t + 1) / tick)) ∧
    (s.cycle frame tick).ticks = s.ticks := by
  obtain ⟨h1, h2, h3, h4⟩ := transmit_rest (frame := frame) s
  rw [succ_div' _ _ hk]
  unfold cycle serve
  simp only [h1, h2, h3, h4, hi, Bool.false_and, Bool.false_eq_true, if_false, and_true]
  congr 1
  split <;> simp [*]

theorem cycles_succ (n : Nat) (s : Serial) : s.cycles frame tick (n + 1) = (s.cycles frame tick n).cycle frame tick := by
  induction n generalizing s with
  | zero => rfl
  | succ n ih => exact ih (s.cycle frame tick)

/-- What does not depend on the interrupts, for several cycles. -/
theorem cycles_all (hf : 1 ≤ frame) (n : Nat) {s : Serial} (h : s.Good frame) :
    (s.cycles frame tick n).t = s.t + n ∧ (s.cycles frame tick n).irq = s.irq ∧
    (s.cycles frame tick n).queue = s.queue ∧ (s.cycles frame tick n).Good frame ∧
    s.work frame ≤ (s.cycles frame tick n).work frame + n := by
  induction n with
  | zero => exact ⟨rfl, rfl, rfl, h, Nat.le_refl _⟩
  | succ n ih =>
    obtain ⟨h1, h2, h3, h4, h5⟩ := ih
    rw [cycles_succ]
    refine ⟨by rw [cycle_t, h1]; omega, by rw [cycle_irq, h2], by rw [cycle_queue, h3], cycle_good hf h4, ?_⟩
    have := cycle_work (frame := frame) (tick := tick) (s := s.cycles frame tick n)
    omega

/-- with interrupts disabled -/
theorem cycles_off (hk : 0 < tick) (n : Nat) {s : Serial} (hi : s.irq = false) :
    (s.cycles frame tick n).ocf = (s.ocf || decide (s.t / tick < (s.t + n) / tick)) ∧
    (s.cycles frame tick n).ticks = s.ticks ∧ (s.cycles frame tick n).irq = false ∧
    (s.cycles frame tick n).t = s.t + n := by
  induction n with
  | zero => exact ⟨by simp [cycles], rfl, hi, rfl⟩
  | succ n ih =>
    obtain ⟨h1, h2, h3, h4⟩ := ih
    rw [cycles_succ]
    obtain ⟨a, b⟩ := cycle_off (frame := frame) hk h3
    refine ⟨?_, by rw [b, h2], by rw [cycle_irq, h3], by rw [cycle_t, h4]; omega⟩
    rw [a, h1, h4]
    have m1 : s.t / tick ≤ (s.t + n) / tick := Nat.div_le_div_right (by omega)
    have m2 : (s.t + n) / tick ≤ (s.t + n + 1) / tick := Nat.div_le_div_right (by omega)
    rw [show s.t + (n + 1) = s.t + n + 1 by omega]
    cases s.ocf
    · simp only [Bool.false_or, ← Bool.decide_or, decide_eq_decide]
      omega
    · rfl

/-- with interrupts enabled -/
theorem cycles_on (hk : 0 < tick) (n : Nat) {s : Serial} (hi : s.irq = true) (ho : s.ocf = false) :
    (s.cycles frame tick n).ocf = false ∧ (s.cycles frame tick n).irq = true ∧
    (s.cycles frame tick n).t = s.t + n ∧
    (s.cycles frame tick n).ticks + s.t / tick = s.ticks + (s.t + n) / tick := by
  induction n with
  | zero => exact ⟨ho, hi, rfl, rfl⟩
  | succ n ih =>
    obtain ⟨h1, h2, h3, h4⟩ := ih
    rw [cycles_succ]
    obtain ⟨a, b⟩ := cycle_on (frame := frame) hk h2 h1
    refine ⟨a, by rw [cycle_irq, h2], by rw [cycle_t, h3]; omega, ?_⟩
    rw [h3] at b
    rw [show s.t + (n + 1) = s.t + n + 1 by omega]
    omega

/-- if no byte is waiting there is at most a frame to send -/
theorem work_le {s : Serial} (h : s.Good frame) (hu : s.udr.isSome = false) : s.work frame ≤ frame := by
  unfold work
  rw [Option.isSome_eq_false_iff, Option.isNone_iff_eq_none] at hu
  rw [hu]
  cases hs : s.shift with
  | none => simp
  | some x => exact (h x.1 x.2 hs).2

theorem write_work {s : Serial} (hu : s.udr.isSome = false) (b : Nat) :
    (s.write b).work frame = s.work frame + frame ∧ (s.write b).queue = s.queue ++ [b] := by
  unfold write work queue
  rw [Option.isSome_eq_false_iff, Option.isNone_iff_eq_none] at hu
  rw [hu]
  simp

/-- A waiting byte moves to the shift register within a frame. -/
theorem soon_empty (hf : 1 ≤ frame) {s : Serial} (h : s.Good frame) :
    ∃ n, n ≤ frame ∧ (s.cycles frame tick n).udr.isSome = false := by
  cases hs : s.shift with
  | none => exact ⟨1, hf, by rw [cycles_succ]; exact congrArg _ (cycle_moves hs).2⟩
  | some x =>
    obtain ⟨b, k⟩ := x
    have hk := (h b k hs)
    suffices ∃ n, n ≤ k ∧ (s.cycles frame tick n).udr.isSome = false by
      obtain ⟨n, h1, h2⟩ := this
      exact ⟨n, by omega, h2⟩
    obtain ⟨h1, -⟩ := hk
    clear h
    induction k generalizing s with
    | zero => omega
    | succ k ih =>
      by_cases h0 : k = 0
      · refine ⟨1, by omega, ?_⟩
        show (s.cycle frame tick).udr.isSome = false
        rw [cycle_udr]
        unfold transmit load
        rw [hs]
        simp [h0]
      · obtain ⟨n, h2, h3⟩ := ih (s := s.cycle frame tick) (by
          rw [cycle_shift]
          unfold transmit
          rw [hs]
          simp [h0]) (by omega)
        exact ⟨n + 1, by omega, h3⟩

/-- `SendByte`, without the clock -/
theorem sendByte_all {delay b : Nat} (hf : 1 ≤ frame) {s s' : Serial} (h : s.Good frame)
    (e : SendByte frame tick delay b s s') :
    s'.Good frame ∧ s'.queue = s.queue ++ [b] ∧ s.t ≤ s'.t ∧ s'.t ≤ s.t + frame + delay ∧
    s.t + s.work frame ≤ s'.t + frame ∧ s.t + s.work frame + frame ≤ s'.t + s'.work frame := by
  obtain ⟨n, h1, h2, rfl⟩ := e
  obtain ⟨k1, k2, k3, k4, k5⟩ := cycles_all (tick := tick) hf n h
  obtain ⟨w1, w2⟩ := write_work (frame := frame) h1 b
  have hw := work_le k4 h1
  have hn : n ≤ frame + delay := by
    obtain ⟨m, m1, m2⟩ := soon_empty (tick := tick) hf h
    by_cases hc : n ≤ m + delay
    · omega
    · have := h2 m (by omega)
      rw [m2] at this
      cases this
  have hwt : ((s.cycles frame tick n).write b).t = (s.cycles frame tick n).t := by
    unfold write; split <;> rfl
  refine ⟨?_, by rw [w2, k3], by omega, by omega, by omega, by omega⟩
  have : ((s.cycles frame tick n).write b).shift = (s.cycles frame tick n).shift := by
    unfold write; split <;> rfl
  unfold Good
  rw [this]
  exact k4

theorem write_rest (s : Serial) (b : Nat) :
    (s.write b).t = s.t ∧ (s.write b).irq = s.irq ∧ (s.write b).ocf = s.ocf ∧ (s.write b).ticks = s.ticks := by
  unfold write; split <;> exact ⟨rfl, rfl, rfl, rfl⟩

theorem sendText_all {delay : Nat} (hf : 1 ≤ frame) (bs : List Nat) {s s' : Serial} (h : s.Good frame)
    (e : SendText frame tick delay bs s s') :
    s'.Good frame ∧ s'.queue = s.queue ++ bs ∧ s.t ≤ s'.t ∧ s'.t ≤ s.t + bs.length * (frame + delay) ∧
    s.t + s.work frame + bs.length * frame ≤ s'.t + s'.work frame ∧
    (bs ≠ [] → s.t + s.work frame + bs.length * frame ≤ s'.t + 2 * frame) := by
  induction bs generalizing s with
  | nil =>
    have e : s' = s := e
    subst e
    exact ⟨h, by simp, by omega, by omega, by simp, fun hh => absurd rfl hh⟩
  | cons b bs ih =>
    obtain ⟨s1, e1, e2⟩ := e
    obtain ⟨a1, a2, a3, a4, a5, a6⟩ := sendByte_all hf h e1
    obtain ⟨b1, b2, b3, b4, b5, b6⟩ := ih a1 e2
    have l1 : (bs.length + 1) * (frame + delay) = bs.length * (frame + delay) + (frame + delay) := by rw [Nat.succ_mul]
    have l2 : (bs.length + 1) * frame = bs.length * frame + frame := by rw [Nat.succ_mul]
    refine ⟨b1, by rw [b2, a2]; simp, by omega, by rw [List.length_cons, l1]; omega, by rw [List.length_cons, l2]; omega,
      fun _ => ?_⟩
    rw [List.length_cons, l2]
    by_cases hb : bs = []
    · subst hb
      simp only [List.length_nil, Nat.zero_mul] at *
      omega
    · have := b6 hb
      omega

theorem sendText_off {delay : Nat} (hk : 0 < tick) (bs : List Nat) {s s' : Serial} (hi : s.irq = false)
    (e : SendText frame tick delay bs s s') :
    s'.ocf = (s.ocf || decide (s.t / tick < s'.t / tick)) ∧ s'.ticks = s.ticks ∧ s'.irq = false ∧ s.t ≤ s'.t := by
  induction bs generalizing s with
  | nil =>
    have e : s' = s := e
    subst e
    exact ⟨by simp, rfl, hi, by omega⟩
  | cons b bs ih =>
    obtain ⟨s1, ⟨n, -, -, rfl⟩, e2⟩ := e
    obtain ⟨a1, a2, a3, a4⟩ := cycles_off (frame := frame) hk n hi
    obtain ⟨w1, w2, w3, w4⟩ := write_rest (s.cycles frame tick n) b
    obtain ⟨b1, b2, b3, b4⟩ := ih (by rw [w2, a3]) e2
    rw [w1, a4] at b4
    refine ⟨?_, by rw [b2, w4, a2], b3, by omega⟩
    rw [b1, w3, a1, w1, a4]
    have m1 : s.t / tick ≤ (s.t + n) / tick := Nat.div_le_div_right (by omega)
    have m2 : (s.t + n) / tick ≤ s'.t / tick := Nat.div_le_div_right (by omega)
    cases s.ocf
    · simp only [Bool.false_or, ← Bool.decide_or, decide_eq_decide]
      omega
    · rfl

theorem sendText_on {delay : Nat} (hk : 0 < tick) (bs : List Nat) {s s' : Serial} (hi : s.irq = true)
    (ho : s.ocf = false) (e : SendText frame tick delay bs s s') :
    s'.ocf = false ∧ s'.irq = true ∧ s'.ticks + s.t / tick = s.ticks + s'.t / tick := by
  induction bs generalizing s with
  | nil =>
    have e : s' = s := e
    subst e
    exact ⟨ho, hi, rfl⟩
  | cons b bs ih =>
    obtain ⟨s1, ⟨n, -, -, rfl⟩, e2⟩ := e
    obtain ⟨a1, a2, a3, a4⟩ := cycles_on (frame := frame) hk n hi ho
    obtain ⟨w1, w2, w3, w4⟩ := write_rest (s.cycles frame tick n) b
    obtain ⟨b1, b2, b3⟩ := ih (by rw [w2, a2]) (by rw [w3, a1]) e2
    rw [w4, w1, a3] at b3
    exact ⟨b1, b2, by omega⟩

theorem cycle_serves {s : Serial} (hi : s.irq = true) :
    (s.cycle frame tick).ocf = false ∧
    (s.cycle frame tick).ticks = s.ticks + if (s.ocf || decide ((s.t + 1) % tick = 0)) = true then 1 else 0 := by
  obtain ⟨h1, h2, h3, h4⟩ := transmit_rest (frame := frame) s
  unfold cycle serve
  simp only [h1, h2, h3, h4, hi, Bool.true_and]
  split
  · exact ⟨rfl, rfl⟩
  · rename_i h
    exact ⟨by simpa using h, rfl⟩

/-- A line: the text, and then a cycle in which a pending interrupt is served. -/
theorem sendLine_clock {delay : Nat} (hk : 0 < tick) (bs : List Nat) {s s' : Serial} (hi : s.irq = true)
    (ho : s.ocf = false) (e : SendLine frame tick delay bs s s') :
    s'.ocf = false ∧ s'.irq = true ∧ s.t ≤ s'.t ∧
    s'.ticks = s.ticks + if s.t / tick < s'.t / tick then 1 else 0 := by
  obtain ⟨s1, e1, rfl⟩ := e
  obtain ⟨a1, a2, a3, a4⟩ := sendText_off (s := { s with irq := false }) hk bs rfl e1
  have a1 : s1.ocf = (s.ocf || decide (s.t / tick < s1.t / tick)) := a1
  have a4 : s.t ≤ s1.t := a4
  have a2 : s1.ticks = s.ticks := a2
  rw [ho, Bool.false_or] at a1
  have m1 : s.t / tick ≤ s1.t / tick := Nat.div_le_div_right (by omega)
  obtain ⟨c1, c2⟩ := cycle_serves (frame := frame) (tick := tick) (s := { s1 with irq := s.irq }) hi
  refine ⟨c1, by rw [cycle_irq]; exact hi, by rw [cycle_t]; show s.t ≤ s1.t + 1; omega, ?_⟩
  rw [cycle_t, c2]
  show (s1.ticks + if (s1.ocf || decide ((s1.t + 1) % tick = 0)) = true then 1 else 0) =
    s.ticks + if s.t / tick < (s1.t + 1) / tick then 1 else 0
  rw [succ_div' _ _ hk, a1, a2]
  simp only [Bool.or_eq_true, decide_eq_true_eq]
  congr 1
  by_cases h0 : (s1.t + 1) % tick = 0
  · rw [if_pos h0, if_pos (Or.inr h0), if_pos (by omega)]
  · rw [if_neg h0]
    by_cases h1 : s.t / tick < s1.t / tick
    · rw [if_pos (Or.inl h1), if_pos (by omega)]
    · rw [if_neg (by omega), if_neg (by omega)]

/-- what is always true -/
theorem talks_inv {delay : Nat} (hf : 1 ≤ frame) (hk : 0 < tick) {text : List Nat} {s : Serial}
    (h : Talks frame tick delay text s) : s.Good frame ∧ s.queue = text ∧ s.irq = true ∧ s.ocf = false := by
  induction h with
  | start => exact ⟨fun b n (hh : none = some (b, n)) => (by cases hh), rfl, rfl, rfl⟩
  | pass _ ih =>
    obtain ⟨h1, h2, h3, h4⟩ := ih
    exact ⟨cycle_good hf h1, by rw [cycle_queue, h2], by rw [cycle_irq, h3], (cycle_on hk h3 h4).1⟩
  | text _ e ih =>
    obtain ⟨h1, h2, h3, h4⟩ := ih
    obtain ⟨a1, a2, -⟩ := sendText_all hf _ h1 e
    obtain ⟨b1, b2, -⟩ := sendText_on hk _ h3 h4 e
    exact ⟨a1, by rw [a2, h2], b2, b1⟩
  | @line text s bs s' _ e ih =>
    obtain ⟨h1, h2, h3, h4⟩ := ih
    obtain ⟨b1, b2, -⟩ := sendLine_clock hk _ h3 h4 e
    obtain ⟨s1, e1, rfl⟩ := e
    obtain ⟨a1, a2, -⟩ := sendText_all (s := { s with irq := false }) hf _ h1 e1
    refine ⟨cycle_good hf a1, ?_, b2, b1⟩
    rw [cycle_queue]
    show s1.queue = _
    rw [a2]
    show s.queue ++ bs = _
    rw [h2]

/-- the cycles until all bytes have been sent -/
def rest (frame : Nat) (s : Serial) : Nat := s.work frame + if s.shift.isNone && s.udr.isSome then 1 else 0

theorem cycle_rest {s : Serial} (h : s.Good frame) : (s.cycle frame tick).rest frame ≤ s.rest frame - 1 := by
  unfold rest
  cases hs : s.shift with
  | none =>
    have h1 := cycle_moves (frame := frame) (tick := tick) hs
    rw [h1.1, h1.2]
    cases hu : s.udr with
    | none => simp [work, hs, hu]
    | some b => simp
  | some x =>
    have h1 := cycle_works (tick := tick) h (by rw [hs]; rfl)
    have h2 : ((s.cycle frame tick).shift.isNone && (s.cycle frame tick).udr.isSome) = false := by
      rw [cycle_shift, cycle_udr]
      unfold transmit load
      rw [hs]
      simp only
      split
      · simp
      · simp
    rw [h2]
    simp
    omega

/-- Everything is sent when the cycles have passed. -/
theorem cycles_done (hf : 1 ≤ frame) (n : Nat) {s : Serial} (h : s.Good frame) (hn : s.rest frame ≤ n) :
    (s.cycles frame tick n).sent = s.queue := by
  induction n generalizing s with
  | zero =>
    have h0 : s.rest frame = 0 := by omega
    unfold rest work at h0
    show s.sent = _
    unfold queue
    cases hs : s.shift with
    | some x =>
      have := h x.1 x.2 hs
      rw [hs] at h0
      simp only [Option.elim] at h0
      omega
    | none =>
      cases hu : s.udr with
      | none => simp
      | some b =>
        rw [hu] at h0
        simp only [Option.elim] at h0
        omega
  | succ n ih =>
    have := ih (s := s.cycle frame tick) (cycle_good hf h) (by have := cycle_rest (tick := tick) h; omega)
    rw [cycle_queue] at this
    exact this

theorem rest_le {s : Serial} (h : s.Good frame) : s.rest frame ≤ 2 * frame + 1 := by
  unfold rest work
  cases hs : s.shift with
  | none => cases hu : s.udr <;> simp [Option.elim] <;> omega
  | some x =>
    have := h x.1 x.2 hs
    cases hu : s.udr <;> simp [Option.elim] <;> omega

/-- A text can be sent. -/
theorem sendText_exists (hf : 1 ≤ frame) (bs : List Nat) {s : Serial} (h : s.Good frame) :
    ∃ s', SendText frame tick 0 bs s s' := by
  induction bs generalizing s with
  | nil => exact ⟨s, rfl⟩
  | cons b bs ih =>
    have first : ∀ k, (∃ n, n ≤ k ∧ (s.cycles frame tick n).udr.isSome = false) →
        ∃ n, (s.cycles frame tick n).udr.isSome = false ∧ ∀ m, m < n → (s.cycles frame tick m).udr.isSome = true := by
      intro k
      induction k with
      | zero =>
        rintro ⟨n, h1, h2⟩
        exact ⟨n, h2, by omega⟩
      | succ k ih =>
        rintro ⟨n, h1, h2⟩
        by_cases hk : ∃ n, n ≤ k ∧ (s.cycles frame tick n).udr.isSome = false
        · exact ih hk
        · refine ⟨n, h2, fun m hm => ?_⟩
          cases hh : (s.cycles frame tick m).udr.isSome with
          | true => rfl
          | false => exact absurd ⟨m, by omega, hh⟩ hk
    obtain ⟨n, h1, h2⟩ := first frame (soon_empty hf h)
    have e : SendByte frame tick 0 b s ((s.cycles frame tick n).write b) := ⟨n, h1, by simpa using h2, rfl⟩
    obtain ⟨s', h'⟩ := ih (sendByte_all hf h e).1
    exact ⟨s', _, e, h'⟩

end Serial

end Verif
