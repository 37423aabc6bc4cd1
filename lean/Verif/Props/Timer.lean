import Verif.Model.TimerAtomic
import Verif.Proofs.Timer
import Mathlib.Data.List.Infix
/-
C18-C21: the system timer (timer.c).  Time is a natural number of ticks; `timer_now()`
returns it modulo 65536.
-/
namespace Verif.Props

/-- what `timer_now()` returns at tick `T` -/
def nowAt (T : Nat) : Int := (T % 65536 : Nat)

/-- A timer armed at tick `T0` with a delay of `0 ≤ ms ≤ 32767`: `k` ticks later (any `k`
    below 65536 + ms) it reads expired exactly for `ms ≤ k < ms + 32768`. -/
theorem C18_expired (T0 ms k : Nat) (hms : ms ≤ 32767) (hk : k < ms + 65536) :
    ∃ t, timerArm (nowAt T0) ms = some t ∧
      (timerExpired (nowAt (T0 + k)) t = true ↔ ms ≤ k ∧ k < ms + 32768) := by
  refine ⟨toU16 (nowAt T0 + toU16 ms), ?_, ?_⟩
  · simp only [timerArm, timerMsToCount_eq (ms := ms) (by omega) (by omega), Option.bind_eq_bind,
      Option.bind_some, pure]
  · unfold timerExpired timerCountSince nowAt toU16 toS16
    simp only [ge_iff_le, decide_eq_true_eq]
    omega

/-- armed shortly before the counter wraps -/
example : ∃ t, timerArm (nowAt 65530) 1000 = some t ∧ timerExpired (nowAt (65530 + 999)) t = false ∧
    timerExpired (nowAt (65530 + 1000)) t = true ∧ timerExpired (nowAt (65530 + 33767)) t = true ∧
    timerExpired (nowAt (65530 + 33768)) t = false := ⟨994, by decide⟩

/-- The elapsed time reported for an instant `T0` at tick `T` is the signed difference modulo
    65536, and exact within -32768..32767. -/
theorem C19_ms_since (T0 T : Nat) :
    ∃ r, timerMsSince (nowAt T) (timerSetNow (nowAt T0)) = some r ∧
      -32768 ≤ r ∧ r ≤ 32767 ∧ (65536 : Int) ∣ (T - T0 : Int) - r ∧
      (-32768 ≤ (T - T0 : Int) → (T - T0 : Int) ≤ 32767 → r = (T - T0 : Int)) := by
  refine ⟨timerCountSince (nowAt T) (nowAt T0), ?_, ?_⟩
  · unfold timerMsSince timerSetNow
    exact timerCountToMs_eq (by unfold timerCountSince; exact toS16_range _)
  · unfold timerCountSince nowAt toU16 toS16
    omega

example : timerMsSince (nowAt (65530 + 1234)) (timerSetNow (nowAt 65530)) = some 1234 ∧
    timerMsSince (nowAt (5 + 40000)) (timerSetNow (nowAt 5)) = some (-25536) := by decide

/-- One poll of a periodic job: `if (timer_expired(t)) { timer_add(t, period); job(); }`
    (the pattern of buttons.c:101-103, display.c:156-158, menu.c:699-702).  Returns the new timer and whether
    the job ran. -/
def pollOnce (period T : Nat) (t : Int) : Option (Int × Bool) :=
  if timerExpired (nowAt T) t then do
    let t' ← timerAdd t period
    return (t', true)
  else some (t, false)

/-- Polls at the given ticks; the result lists the ticks at which the job ran. -/
def pollAll (period : Nat) (t : Int) : List Nat → Option (Int × List Nat)
  | [] => some (t, [])
  | T :: Ts => do
    let r ← pollOnce period T t
    let rs ← pollAll period r.1 Ts
    return (rs.1, if r.2 then T :: rs.2 else rs.2)

/-- The polls are never so late that a deadline is missed by 32768 ticks: at each poll `T` the
    pending deadline `D` (which moves on by exactly one period whenever it has passed) satisfies
    `D - 32768 ≤ T < D + 32768`. -/
def NotLost (period : Nat) : Nat → List Nat → Prop
  | _, [] => True
  | D, T :: Ts => D ≤ T + 32768 ∧ T < D + 32768 ∧
      NotLost period (if D ≤ T then D + period else D) Ts

/-- polls in order, the first not before `T`, never more than `period` apart -/
def SteadyFrom (period : Nat) : Nat → List Nat → Prop
  | _, [] => True
  | T, T' :: Ts => T ≤ T' ∧ T' ≤ T + period ∧ SteadyFrom period T' Ts

theorem pollOnce_eq (period D T : Nat) (hp : period ≤ 32767) (h1 : D ≤ T + 32768)
    (h2 : T < D + 32768) :
    pollOnce period T (nowAt D) =
      some (if D ≤ T then (nowAt (D + period), true) else (nowAt D, false)) := by
  have he : timerExpired (nowAt T) (nowAt D) = true ↔ D ≤ T := by
    unfold timerExpired timerCountSince nowAt toU16 toS16
    simp only [ge_iff_le, decide_eq_true_eq]
    omega
  unfold pollOnce
  by_cases h : D ≤ T
  · rw [if_pos (he.2 h), if_pos h]
    simp only [timerAdd, timerMsToCount_eq (ms := period) (by omega) (by omega),
      Option.bind_eq_bind, Option.bind_some, pure]
    congr 2
    unfold nowAt toU16; omega
  · rw [if_neg (fun e => h (he.1 e)), if_neg h]

/-- However irregular the polls are (as long as no deadline is missed by 32768 ticks), firing
    number `i` (from 0) of a job first due at `start` never happens before
    `start + i * period`, and after `n` firings the timer stands at `start + n * period`:
    the deadlines do not drift with the lateness of the firings. -/
theorem C20_no_drift (period start : Nat) (Ts : List Nat) (hp : period ≤ 32767)
    (h : NotLost period start Ts) :
    ∃ fires, pollAll period (nowAt start) Ts =
        some (nowAt (start + fires.length * period), fires) ∧
      fires.Sublist Ts ∧ ∀ i (hi : i < fires.length), start + i * period ≤ fires[i] := by
  induction Ts generalizing start with
  | nil => exact ⟨[], by simp [pollAll], by simp, by simp⟩
  | cons T Ts ih =>
    obtain ⟨h1, h2, h3⟩ := h
    rw [pollAll, pollOnce_eq period start T hp h1 h2]
    by_cases hd : start ≤ T
    · rw [if_pos hd] at h3 ⊢
      obtain ⟨fs, e, sub, hf⟩ := ih _ h3
      refine ⟨T :: fs, ?_, by simpa using sub, ?_⟩
      · simp only [Option.bind_eq_bind, Option.bind_some, e, pure, if_true]
        congr 3
        simp; ring
      · intro i hi
        cases i with
        | zero => simpa using hd
        | succ i =>
          have := hf i (by simpa using hi)
          simp only [List.getElem_cons_succ]
          calc start + (i + 1) * period = start + period + i * period := by ring
            _ ≤ _ := this
    · rw [if_neg hd] at h3 ⊢
      obtain ⟨fs, e, sub, hf⟩ := ih _ h3
      exact ⟨fs, by simp [e], sub.trans (List.sublist_cons_self _ _), hf⟩

/-- a late poll (950 for the deadline 800) does not delay the following deadlines -/
example : NotLost 400 0 [0, 300, 950, 1200, 1600] ∧
    pollAll 400 (nowAt 0) [0, 300, 950, 1200, 1600] = some (nowAt 1600, [0, 950, 1200, 1600]) :=
  ⟨by simp [NotLost], by decide⟩

/-- With polls at most one period apart, the number of firings is exactly the number of
    deadlines `start, start + period, …` that have passed at the last poll. -/
theorem C20_count (period start T : Nat) (Ts : List Nat) (hp0 : 0 < period)
    (hp : period ≤ 32767) (hT : T < start ∧ start ≤ T + period)
    (h : SteadyFrom period T Ts) :
    ∃ t fires, pollAll period (nowAt start) Ts = some (t, fires) ∧
      ∀ last ∈ Ts.getLast?, ∀ n, start + n * period ≤ last ↔ n < fires.length := by
  have gen : ∀ (Ts : List Nat) (D T : Nat), T < D → D ≤ T + period → SteadyFrom period T Ts →
      ∃ t fires, pollAll period (nowAt D) Ts = some (t, fires) ∧
        (∀ last ∈ Ts.getLast?, last < D + fires.length * period ∧
          D + fires.length * period ≤ last + period) := by
    intro Ts
    induction Ts with
    | nil => intro D T h1 h2 _; exact ⟨_, [], rfl, by simp⟩
    | cons T' Ts ih =>
      intro D T h1 h2 ⟨h3, h4, h5⟩
      rw [pollAll, pollOnce_eq period D T' hp (by omega) (by omega)]
      by_cases hd : D ≤ T'
      · rw [if_pos hd]
        obtain ⟨t, fs, e, hf⟩ := ih (D + period) T' (by omega) (by omega) h5
        refine ⟨t, T' :: fs, by simp [e], ?_⟩
        intro last hl
        have e2 : D + (T' :: fs).length * period = D + period + fs.length * period := by
          simp; ring
        rw [e2]
        cases Ts with
        | nil =>
          simp only [List.getLast?_singleton, Option.mem_def, Option.some.injEq] at hl
          simp only [pollAll, Option.some.injEq, Prod.mk.injEq] at e
          rw [← e.2]; simp; omega
        | cons a as => exact hf last (by simpa using hl)
      · rw [if_neg hd]
        obtain ⟨t, fs, e, hf⟩ := ih D T' (by omega) (by omega) h5
        refine ⟨t, fs, by simp [e], ?_⟩
        intro last hl
        cases Ts with
        | nil =>
          simp only [List.getLast?_singleton, Option.mem_def, Option.some.injEq] at hl
          simp only [pollAll, Option.some.injEq, Prod.mk.injEq] at e
          rw [← e.2]; simp; omega
        | cons a as => exact hf last (by simpa using hl)
  obtain ⟨t, fs, e, hf⟩ := gen Ts start T hT.1 hT.2 h
  refine ⟨t, fs, e, fun last hl n => ?_⟩
  obtain ⟨h1, h2⟩ := hf last hl
  constructor
  · intro hn
    by_contra hc
    have : fs.length * period ≤ n * period := Nat.mul_le_mul_right _ (by omega)
    omega
  · intro hn
    have : (n + 1) * period ≤ fs.length * period := Nat.mul_le_mul_right _ (by omega)
    have e3 : (n + 1) * period = n * period + period := by ring
    omega

example : SteadyFrom 400 0 [100, 350, 700, 1050] ∧
    pollAll 400 (nowAt 100) [100, 350, 700, 1050] = some (nowAt 1300, [100, 700, 1050]) :=
  ⟨by simp [SteadyFrom], by decide⟩

/-! ### C21: reading the counter against the tick interrupt -/

/-- For every interleaving of the instructions of timer_now with tick interrupts, for both
    orders of the byte loads and whether or not interrupts were enabled by the caller: when the
    function has returned, its result is a value the counter had at some moment during the
    call, and the interrupt-enable flag is as the caller left it. -/
theorem C21_atomic (hiFirst : Bool) (s0 : TNState) (evs : List TNEvent) (h0 : s0.pc = 0)
    (hdone : (tnRun true hiFirst s0 evs).pc = 5) :
    (∃ pre, pre <+: evs ∧
      (tnRun true hiFirst s0 evs).result = (tnRun true hiFirst s0 pre).counter) ∧
    (tnRun true hiFirst s0 evs).iflag = s0.iflag := by
  have inv : ∀ evs : List TNEvent,
      let s := tnRun true hiFirst s0 evs
      (s.pc = 0 ∧ s.iflag = s0.iflag) ∨
      (s.pc = 1 ∧ s.iflag = s0.iflag ∧ s.sreg = s0.iflag) ∨
      (s.pc = 2 ∧ s.iflag = false ∧ s.sreg = s0.iflag) ∨
      (s.pc = 3 ∧ s.iflag = false ∧ s.sreg = s0.iflag ∧
        (if hiFirst then s.rhi = s.hi else s.rlo = s.lo)) ∨
      (s.pc = 4 ∧ s.iflag = false ∧ s.sreg = s0.iflag ∧ s.rhi = s.hi ∧ s.rlo = s.lo) ∨
      (s.pc = 5 ∧ s.iflag = s0.iflag ∧
        ∃ pre, pre <+: evs ∧ s.result = (tnRun true hiFirst s0 pre).counter) := by
    intro evs
    induction evs using List.reverseRecOn with
    | nil => left; exact ⟨h0, rfl⟩
    | append_singleton evs ev ih =>
      have hrun : tnRun true hiFirst s0 (evs ++ [ev]) =
          tnStep true hiFirst (tnRun true hiFirst s0 evs) ev := by
        simp [tnRun]
      rw [hrun]
      have hpre : ∀ pre, pre <+: evs → pre <+: evs ++ [ev] :=
        fun pre hp => hp.trans (List.prefix_append _ _)
      generalize hs : tnRun true hiFirst s0 evs = s at ih ⊢
      cases ev with
      | isr =>
        simp only [tnStep]
        rcases ih with ⟨h, i⟩ | ⟨h, i, g⟩ | ⟨h, i, g⟩ | ⟨h, i, g⟩ | ⟨h, i, g⟩ | ⟨h, i, pre, p1, p2⟩
        · left; split <;> simp_all [tnIsr]
        · right; left; split <;> simp_all [tnIsr]
        · right; right; left; simp_all
        · right; right; right; left; simp_all
        · right; right; right; right; left; simp_all
        · right; right; right; right; right
          split
          · exact ⟨h, by simpa [tnIsr] using i, pre, hpre _ p1, by simpa [tnIsr, TNState.result] using p2⟩
          · exact ⟨h, i, pre, hpre _ p1, p2⟩
      | instr =>
        rcases ih with ⟨h, i⟩ | ⟨h, i, g⟩ | ⟨h, i, g⟩ | ⟨h, i, g⟩ | ⟨h, i, g⟩ | ⟨h, i, pre, p1, p2⟩
        · right; left; simp_all [tnStep]
        · right; right; left; simp_all [tnStep]
        · right; right; right; left
          cases hiFirst <;> simp_all [tnStep]
        · right; right; right; right; left
          cases hiFirst <;> simp_all [tnStep]
        · right; right; right; right; right
          refine ⟨by simp [tnStep, h], by simp [tnStep, h, g.1], evs, List.prefix_append _ _, ?_⟩
          rw [hs]
          simp [tnStep, h, TNState.result, TNState.counter, g.2.1, g.2.2]
        · right; right; right; right; right
          refine ⟨by simp [tnStep, h], by simp [tnStep, h, i], pre, hpre _ p1, ?_⟩
          simpa [tnStep, h] using p2
  rcases inv evs with h | h | h | h | h | ⟨_, i, p⟩
  · omega
  · omega
  · omega
  · omega
  · omega
  · exact ⟨p, i⟩

/-- a schedule with interrupts before, inside and after the critical section: the counter
    passes 0x00FF → 0x0100 and the result is consistent -/
example :
    let s0 : TNState := { lo := 0xFE, hi := 0, iflag := true, sreg := false, rlo := 0, rhi := 0, pc := 0 }
    let s := tnRun true false s0 [.isr, .instr, .instr, .isr, .instr, .isr, .instr, .instr, .isr]
    s.pc = 5 ∧ s.result = 0xFF ∧ s.counter = 0x100 ∧ s.iflag = true := by decide

/-- Without disabling interrupts the property would be false: 0x01FF is returned although the
    counter only ever was 0x00FF and 0x0100 (so the property is not vacuous). -/
theorem C21_needs_cli :
    ∃ (s0 : TNState) (evs : List TNEvent), s0.pc = 0 ∧ (tnRun false false s0 evs).pc = 5 ∧
      ∀ pre, pre <+: evs →
        (tnRun false false s0 evs).result ≠ (tnRun false false s0 pre).counter := by
  refine ⟨{ lo := 0xFF, hi := 0, iflag := true, sreg := false, rlo := 0, rhi := 0, pc := 0 },
    [.instr, .instr, .instr, .isr, .instr, .instr], rfl, rfl, ?_⟩
  intro pre hp
  rw [← List.mem_inits] at hp
  revert pre
  decide

end Verif.Props
