import Verif.Proofs.Serial
import Verif.Proofs.Debug
import Verif.Spec.Host
/-
C87: the debug interface and the clock.
-/
namespace Verif.Props
open Spec

/-- With the registers set by debug_uart_init and timer_init a byte takes 9152 cycles (1.144 ms), more than a tick of
    8064 cycles. -/
theorem C87_byte : frameCycles (uartTx uartInit true) = some 9152 ∧ tickCycles timerInit = 8064 := by decide

/-- No byte is lost or overtaken: what has been sent is always the beginning of the text that was printed, and two
    frames and a cycle later it is all of it. -/
theorem C87_sent (frame tick delay : Nat) (hf : 1 ≤ frame) (hk : 0 < tick) (text : List Nat) (s : Serial)
    (h : Talks frame tick delay text s) :
    s.sent <+: text ∧ ∀ n, 2 * frame + 1 ≤ n → (s.cycles frame tick n).sent = text := by
  obtain ⟨h1, h2, -⟩ := Serial.talks_inv hf hk h
  refine ⟨?_, fun n hn => ?_⟩
  · rw [← h2]
    unfold Serial.queue
    rw [List.append_assoc]
    exact List.prefix_append _ _
  · rw [Serial.cycles_done hf n h1 (by have := Serial.rest_le h1; omega), h2]

/-- A line of n bytes takes at least n - 2 frames and at most n (and what the firmware loses in between); in this
    time at most one tick is counted. -/
theorem C87_line (frame tick delay : Nat) (hf : 1 ≤ frame) (hk : 0 < tick) (text line : List Nat) (s s' : Serial)
    (h : Talks frame tick delay text s) (e : SendLine frame tick delay line s s') :
    s.t + (line.length - 2) * frame ≤ s'.t ∧ s'.t ≤ s.t + line.length * (frame + delay) + 1 ∧
    s'.ticks = s.ticks + if s.t / tick < s'.t / tick then 1 else 0 := by
  obtain ⟨h1, h2, h3, h4⟩ := Serial.talks_inv hf hk h
  obtain ⟨-, -, -, hc⟩ := Serial.sendLine_clock hk _ h3 h4 e
  obtain ⟨s1, e1, rfl⟩ := e
  obtain ⟨-, -, a1, a2, -, a3⟩ := Serial.sendText_all (s := { s with irq := false }) hf _ h1 e1
  have a1 : s.t ≤ s1.t := a1
  have a2 : s1.t ≤ s.t + line.length * (frame + delay) := a2
  have ht : ({ s1 with irq := s.irq }.cycle frame tick).t = s1.t + 1 := Serial.cycle_t _
  refine ⟨?_, by rw [ht]; omega, hc⟩
  rw [ht]
  by_cases hl : line = []
  · subst hl
    simp only [List.length_nil]
    omega
  · have a3 := a3 hl
    have a3 : s.t + Serial.work frame { s with irq := false } + line.length * frame ≤ s1.t + 2 * frame := a3
    rw [Nat.sub_mul]
    omega

/-- Otherwise, also while debugging is being switched on, all ticks are counted. -/
theorem C87_else (frame tick delay : Nat) (hf : 1 ≤ frame) (hk : 0 < tick) (text bs : List Nat) (s s' : Serial) (n : Nat)
    (h : Talks frame tick delay text s) (e : SendText frame tick delay bs s s' ∨ s' = s.cycles frame tick n) :
    s'.ticks + s.t / tick = s.ticks + s'.t / tick := by
  obtain ⟨h1, h2, h3, h4⟩ := Serial.talks_inv hf hk h
  rcases e with e | rfl
  · exact (Serial.sendText_on hk _ h3 h4 e).2.2
  · obtain ⟨-, -, a, b⟩ := Serial.cycles_on (frame := frame) hk n h3 h4
    rw [a]
    exact b

private theorem printed {time : Nat} {u u' : Uart} {name : List Nat} {value : Int} (hen : u.enabled = true)
    (hp : printInt time u (some name) none value = some u') :
    u'.out = u.out ++ (utoa16 (time % 65536) ++ 58 :: 32 :: name ++ 32 :: ltoa10 value ++ [13, 10]) := by
  unfold printInt at hp
  simp only at hp
  split at hp
  · unfold printStr3 printTimestamp at hp
    rw [hen] at hp
    simp only [Bool.not_true, Bool.false_eq_true, if_false] at hp
    split at hp
    · have := Option.some.inj hp
      rw [← this]
      simp
    · cases hp
  · cases hp

/-- With the shipped settings every value printed by the firmware stops the clock for at least 64064 cycles, seven ticks
    and more, of which at most one is counted. -/
theorem C87_lost (delay time : Nat) (u u' : Uart) (name line text : List Nat) (value : Int) (s s' : Serial)
    (hn : name ∈ columns.map Prod.fst) (hen : u.enabled = true)
    (hp : printInt time u (some name) none value = some u') (hl : u'.out = u.out ++ line)
    (h : Talks 9152 8064 delay text s) (e : SendLine 9152 8064 delay line s s') :
    s.t + 64064 ≤ s'.t ∧ s'.ticks ≤ s.ticks + 1 ∧ s.t / 8064 + 7 ≤ s'.t / 8064 := by
  have hlen : 9 ≤ line.length := by
    have h1 := printed hen hp
    rw [hl] at h1
    have h1 := List.append_cancel_left h1
    have h2 : 2 ≤ name.length := by
      have : ∀ n ∈ columns.map Prod.fst, 2 ≤ n.length := by decide
      exact this _ hn
    have h3 : 1 ≤ (utoa16 (time % 65536)).length := by
      have hr := utoa16_reads time
      cases hx : utoa16 (time % 65536) with
      | nil => rw [hx] at hr; cases hr
      | cons a l => simp
    have h4 : 1 ≤ (ltoa10 value).length := by
      unfold ltoa10 digitsOf
      split <;> split <;> simp
    rw [h1]
    simp
    omega
  obtain ⟨a1, -, a3⟩ := C87_line _ _ _ (by decide) (by decide) _ _ _ _ h e
  have : 7 * 9152 ≤ (line.length - 2) * 9152 := Nat.mul_le_mul_right _ (by omega)
  refine ⟨by omega, by rw [a3]; split <;> omega, by omega⟩

/-- debugging has been switched on -/
example : ∃ s, Talks 9152 8064 0 [13, 10, 115, 116, 13, 10] s := by
  obtain ⟨s1, h1⟩ := Serial.sendText_exists (frame := 9152) (tick := 8064) (by decide) [13, 10, 115, 116, 13, 10]
    (s := serialStart) (fun b n (hh : none = some (b, n)) => (by cases hh))
  exact ⟨s1, Talks.text Talks.start h1⟩

/-- "0: tr 5" is printed when the clock stands at 0 -/
example : ∃ u' line s', printInt 0 ⟨true, []⟩ (some [116, 114]) none 5 = some u' ∧ u'.out = [] ++ line ∧
    Talks 9152 8064 0 [] serialStart ∧ SendLine 9152 8064 0 line serialStart s' ∧ line.length = 9 := by
  obtain ⟨s1, h1⟩ := Serial.sendText_exists (frame := 9152) (tick := 8064) (by decide)
    [48, 58, 32, 116, 114, 32, 53, 13, 10] (s := { serialStart with irq := false })
    (fun b n (hh : none = some (b, n)) => (by cases hh))
  exact ⟨⟨true, _⟩, [48, 58, 32, 116, 114, 32, 53, 13, 10], _, by decide, rfl, Talks.start, ⟨s1, h1, rfl⟩, rfl⟩

end Verif.Props
