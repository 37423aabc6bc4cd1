import Verif.Proofs.Panel
/-
What the menu's work function does: timeouts, error indication, one step of a ramp.
-/
namespace Verif
open Spec

variable {c : Conf} {s : Sys}

theorem fixptClamp_minmax {a lo hi : Int} (h : lo ≤ hi) : fixptClamp a lo hi = max lo (min hi a) := by
  simp only [fixptClamp]
  split_ifs <;> omega

theorem fixptAddLimited_eq {a b lo hi : Int} (ha : S24 a) (hb' : S24 b)
    (hb : -8388607 ≤ a + b ∧ a + b ≤ 8388607) (h : lo ≤ hi) :
    fixptAddLimited a b lo hi = some (max lo (min hi (a + b))) := by
  unfold fixptAddLimited
  rw [fixptAdd_eq ha hb', sat_eq hb.1 hb.2]
  show some _ = _
  rw [fixptClamp_minmax h]

/-- the value set in the screen moves by one step -/
def Stepped (s s' : Sys) (up : Bool) : Prop :=
  ∃ v inc lo hi, valueRange s.menu.state = some (inc, lo, hi) ∧
    valueIn s.set.cache s.ct.boost s.menu.state = some v ∧
    s'.set.cache = withValue s.set.cache s.ct.boost (max lo (min hi (if up then v + inc else v - inc))) s.menu.state

/-- the screen after a step: a changed preset is shown -/
def stepMenu (now : Int) (m : Menu) : Menu :=
  match m.state with
  | .curtemp | .selpreset => { m with state := .chgpreset, timeout := toU16 (now + 3000) }
  | _ => m

theorem doRampK_eff (hi : Inv c s) {get : PidK → Int} {put : PidK → Int → PidK} {inc top : Int} (up : Bool)
    (hinc : 0 ≤ inc ∧ inc ≤ 64) (htop : 0 ≤ top) (h3 : s.ct.boost < 3)
    (hk : 0 ≤ get s.set.cache.k[s.ct.boost] ∧ get s.set.cache.k[s.ct.boost] ≤ 6336) :
    Post (doRampK c s get put inc top up) fun s' => MenuKept s s' ∧
      s'.set.cache = { s.set.cache with k := s.set.cache.k.set s.ct.boost (put s.set.cache.k[s.ct.boost]
        (max 0 (min top (if up then get s.set.cache.k[s.ct.boost] + inc else get s.set.cache.k[s.ct.boost] - inc)))) h3 } := by
  unfold doRampK
  simp only [dif_pos h3]
  have key : ∀ v, Post (sysStore (setCache s { s.set.cache with
      k := s.set.cache.k.set s.ct.boost (put s.set.cache.k[s.ct.boost] v) h3 }) >>= contrtempUpdatePidConfig c)
      fun s' => MenuKept s s' ∧ s'.set.cache = { s.set.cache with
        k := s.set.cache.k.set s.ct.boost (put s.set.cache.k[s.ct.boost] v) h3 } := by
    intro v
    exact Post.bind ((MenuKept.refl s).withCache _).sysStore fun s2 h2 => (h2.1.setBoost _).mono fun s3 h4 =>
      ⟨h4.1, by rw [h4.2]; exact h2.2⟩
  cases up
  · unfold fixptNeg
    rw [FIXPT_MIN_eq]
    simp only [Bool.false_eq_true, if_false]
    rw [if_neg (by omega), ck24_eq (by unfold S24; omega)]
    simp only [Option.bind_eq_bind, Option.bind_some]
    rw [fixptAddLimited_eq (by unfold S24; omega) (by unfold S24; omega) (by omega) htop, Int.add_neg_eq_sub]
    exact key _
  · simp only [if_true]
    simp only [Option.bind_eq_bind, Option.bind_some]
    rw [fixptAddLimited_eq (by unfold S24; omega) (by unfold S24; omega) (by omega) htop]
    exact key _

theorem setK_eq (x : Settings) {b : Nat} (h : b < 3) (f : PidK → PidK) :
    { x with k := x.k.set b (f x.k[b]) h } =
      { x with k := Vector.ofFn fun i => if i.val = b then f x.k[i] else x.k[i] } := by
  congr 1
  apply Vector.ext
  intro i hi
  rw [Vector.getElem_set, Vector.getElem_ofFn]
  by_cases hb : b = i
  · subst hb
    rw [if_pos rfl, if_pos rfl]
    rfl
  · rw [if_neg hb, if_neg (fun hh => hb hh.symm)]
    rfl

theorem rampHandler_eff (hi : Inv c s) {r : RampHandler} (up : Bool) (hr : handlerFor s.menu.state = some r) :
    Post (rampHandler c s r up) fun s' =>
      MenuKept { s with menu := stepMenu s.now s.menu } s' ∧ Stepped s s' up := by
  have hsc := hi.menu.screen
  have hb := hi.ct.boost
  have h3 : s.ct.boost < 3 := by have := nrBoost_le c; omega
  have hk := hi.set.lim.k _ h3 hb
  have hgk : s.set.cache.k[s.ct.boost]? = some s.set.cache.k[s.ct.boost] := Vector.getElem?_eq_getElem h3
  have hact := hi.set.lim.active
  have rt : ∀ {t lo hi : Int}, -32000 ≤ t → t ≤ 32000 → lo ≤ hi →
      doRampTemp t up lo hi = some (max lo (min hi (if up then t + 64 else t - 64))) := by
    intro t lo hi h1 h2 h4
    unfold doRampTemp
    rw [fixptAddLimited_eq (by unfold S24; omega) (by unfold S24; split <;> omega) (by split <;> omega) h4]
    cases up
    · show some (max lo (min hi (t + -64))) = _
      rw [Int.add_neg_eq_sub]; rfl
    · rfl
  have stay : ∀ {st : MenuState}, s.menu.state = st → st ≠ .curtemp → st ≠ .selpreset →
      { s with menu := stepMenu s.now s.menu } = s := by
    intro st h1 h2 h4
    unfold stepMenu
    rw [h1]
    cases st <;> first | rfl | exact absurd rfl h2 | exact absurd rfl h4
  cases r with
  | settemp =>
    obtain ⟨p, e1, hp, -⟩ := wanted_ok hi.set.lim false
    have hst := handlerFor_settemp hr
    simp only [rampHandler, e1, rt (t := p) (lo := 0) (hi := 30720) (by omega) (by omega) (by decide),
      Option.bind_eq_bind, Option.bind_some]
    refine Post.bind (P := fun s2 => MenuKept s s2 ∧ Stepped s s2 up) ?_ ?_
    · unfold presetsSetActive Settings.presetsSet
      rw [dif_pos hact]
      refine ((MenuKept.refl s).withCache _).presetsStore.mono fun s2 h2 => ⟨h2.1, p, 64, 0, 480 * 64, ?_, ?_, ?_⟩
      · rcases hst with e | e | e <;> rw [e] <;> rfl
      · rcases hst with e | e | e <;> rw [e] <;> exact e1
      · rw [h2.2]
        have : ∀ v : Int, s.set.cache.sp.set s.set.cache.active v hact =
            s.set.cache.sp.setIfInBounds s.set.cache.active v := by
          intro v
          apply Vector.ext
          intro i hi'
          rw [Vector.getElem_set, Vector.getElem_setIfInBounds]
        rw [this]
        rcases hst with e | e | e <;> rw [e] <;> rfl
    · rintro s2 ⟨k, v, inc, lo, hi', g1, g2, g3⟩
      refine (menuSetState_eff (t := .chgpreset) rfl).mono fun s3 h3 => ?_
      obtain ⟨u, hm⟩ := k.menu
      rcases h3 with ⟨h3, rfl⟩ | ⟨h3, k3, hset⟩
      · rw [k.state] at h3
        rw [stay h3 (by decide) (by decide)]
        exact ⟨k, v, inc, lo, hi', g1, g2, g3⟩
      · refine ⟨?_, v, inc, lo, hi', g1, g2, by rw [hset]; exact g3⟩
        obtain ⟨u3, hm3⟩ := k3.menu
        rw [k.state] at h3
        refine ⟨k3.now.trans k.now, k3.btn.trans k.btn, k3.debugEn.trans k.debugEn, u3, ?_⟩
        rw [hm3]
        show ({ s2.menu with state := .chgpreset, timeout := entryTimeout s2.now .chgpreset s2.menu.timeout, updReq := u3 } : Menu) =
          { stepMenu s.now s.menu with updReq := u3 }
        rw [hm, k.now]
        unfold stepMenu
        rcases hst with e | e | e
        · rw [e]; rfl
        · rw [e]; rfl
        · exact absurd e h3
  | idletemp =>
    have hst : s.menu.state = .idletemp := by revert hr; cases s.menu.state <;> simp [handlerFor]
    have hsc : c.idle = true := by rw [hst] at hsc; exact hsc
    have := hi.set.lim.idleSp
    simp only [rampHandler, rt (t := s.set.cache.idleSp) (lo := 0) (hi := 30720) (by omega) (by omega) (by decide),
      Option.bind_eq_bind, Option.bind_some, contrtempSetIdleSetpoint]
    rw [if_pos hsc, stay hst (by decide) (by decide)]
    refine Post.bind ((MenuKept.refl s).withCache _).updateSetpoint fun s2 h2 => h2.1.sysStore.mono fun s3 h3 =>
      ⟨h3.1, s.set.cache.idleSp, 64, 0, 480 * 64, by rw [hst]; rfl, by rw [hst]; rfl, ?_⟩
    rw [h3.2, h2.2, hst]
    rfl
  | adj =>
    have hst : s.menu.state = .adj := by revert hr; cases s.menu.state <;> simp [handlerFor]
    have hsc : c.adj = true := by rw [hst] at hsc; exact hsc
    have ha : measureAdjustGet c s = s.set.cache.adj := by
      unfold measureAdjustGet
      rw [if_pos hsc, hi.meas.adj1, if_pos hsc]
    have := hi.set.lim.adj
    simp only [rampHandler, ha, rt (t := s.set.cache.adj) (lo := -6336) (hi := 6336) (by omega) (by omega) (by decide),
      Option.bind_eq_bind, Option.bind_some, meastempAdjustSet, measureAdjustSet]
    simp only [if_pos hsc]
    rw [stay hst (by decide) (by decide)]
    have k0 : ∀ m x, MenuKept s (setCache { s with meas := m } x) := fun m x => ⟨rfl, rfl, rfl, _, rfl⟩
    refine Post.bind (k0 _ _).sysStore fun s2 h2 => Post.pure ⟨h2.1.req, s.set.cache.adj, 64, -99 * 64, 99 * 64,
      by rw [hst]; rfl, by rw [hst]; rfl, ?_⟩
    show s2.set.cache = _
    rw [h2.2, hst]
    rfl
  | kp =>
    have hst : s.menu.state = .kp := by revert hr; cases s.menu.state <;> simp [handlerFor]
    rw [stay hst (by decide) (by decide)]
    refine (doRampK_eff hi up (by decide) (by decide) h3 (get := (·.kp)) (put := fun k v => { k with kp := v })
      hk.1).mono fun s2 h2 => ⟨h2.1, s.set.cache.k[s.ct.boost].kp, 2, 0, 99 * 64, by rw [hst]; rfl, ?_, ?_⟩
    · rw [hst]
      show (s.set.cache.k[s.ct.boost]?).map _ = _
      rw [hgk]; rfl
    · rw [hst]
      exact h2.2.trans (setK_eq s.set.cache h3 fun k => { k with kp := _ })
  | ki =>
    have hst : s.menu.state = .ki := by revert hr; cases s.menu.state <;> simp [handlerFor]
    rw [stay hst (by decide) (by decide)]
    refine (doRampK_eff hi up (by decide) (by decide) h3 (get := (·.ki)) (put := fun k v => { k with ki := v })
      ⟨hk.2.1.1, by omega⟩).mono fun s2 h2 => ⟨h2.1, s.set.cache.k[s.ct.boost].ki, 1, 0, 9 * 64, by rw [hst]; rfl, ?_, ?_⟩
    · rw [hst]
      show (s.set.cache.k[s.ct.boost]?).map _ = _
      rw [hgk]; rfl
    · rw [hst]
      exact h2.2.trans (setK_eq s.set.cache h3 fun k => { k with ki := _ })
  | kd =>
    have hst : s.menu.state = .kd := by revert hr; cases s.menu.state <;> simp [handlerFor]
    rw [stay hst (by decide) (by decide)]
    refine (doRampK_eff hi up (by decide) (by decide) h3 (get := (·.kd)) (put := fun k v => { k with kd := v })
      hk.2.2.1).mono fun s2 h2 => ⟨h2.1, s.set.cache.k[s.ct.boost].kd, 2, 0, 99 * 64, by rw [hst]; rfl, ?_, ?_⟩
    · rw [hst]
      show (s.set.cache.k[s.ct.boost]?).map _ = _
      rw [hgk]; rfl
    · rw [hst]
      exact h2.2.trans (setK_eq s.set.cache h3 fun k => { k with kd := _ })

theorem MenuKept.doIdle {a : Sys} (h : MenuKept a s) (b : Bool) : Post (contrtempDoIdle s b) (MenuKept a) := by
  unfold contrtempDoIdle
  exact Post.bind (h.withCt _).updateSetpoint fun s2 h2 => Post.pure h2.1.req

theorem MenuKept.nextBoost {a : Sys} (h : MenuKept a s) : Post (contrtempNextBoost c s) (MenuKept a) :=
  (h.setBoost _).mono fun _ h => h.1

/-- the iron button leaves the menu alone -/
theorem MenuKept.ironButton {a : Sys} (h : MenuKept a s) (b : Button) (e : BState) :
    Post (contrtempButton c s b e) (MenuKept a) := by
  have tail : ∀ {s : Sys}, MenuKept a s → ∀ idle : Bool,
      Post (if s.ct.biLet then
        if idle ∨ (e = .pressed ∧ timerExpired s.now s.ct.biTimer) then do
          let s ← contrtempDoIdle s !idle
          return { s with ct := { s.ct with biLet := false } }
        else if e = .negedge then do
          let s ← contrtempNextBoost c s
          return { s with ct := { s.ct with biLet := false } }
        else return s
      else return s) (MenuKept a) := by
    intro s h idle
    split
    · split
      · exact Post.bind (h.doIdle _) fun s2 h2 => Post.pure (h2.withCt _)
      · split
        · exact Post.bind h.nextBoost fun s2 h2 => Post.pure (h2.withCt _)
        · exact Post.pure h
    · exact Post.pure h
  unfold contrtempButton
  split
  · simp only []
    split
    · exact Post.pure h
    · split
      · refine Post.bindAny fun t => ?_
        exact Post.bind (P := MenuKept a) (Post.pure (h.withCt _)) fun s2 h2 => tail h2 s.ct.idle
      · exact Post.bind (P := MenuKept a) (Post.pure h) fun s2 h2 => tail h2 s.ct.idle
  · split
    · exact Post.pure h
    · split
      · exact h.nextBoost
      · exact Post.pure h
  · split
    · exact Post.pure h
    · simp only []
      have : ∀ x : Bool, Post (if x ≠ s.ct.idle then contrtempDoIdle s x else some s) (MenuKept a) := by
        intro x
        split
        · exact h.doIdle _
        · exact Post.pure h
      repeat' split
      all_goals first
        | exact h.doIdle _
        | exact Post.pure h
        | exact this _
  · exact Post.pure h

/-- events other than the button sample and the menu's work leave the menu alone -/
theorem step_menuKept {s' : Sys} {e : Ev} (hi : Inv c s) (hs : step c s e = some s') (h1 : e ≠ .menuWork)
    (h2 : ∀ pinb, e ≠ .buttonsWork pinb) :
    s'.btn = s.btn ∧ s'.debugEn = s.debugEn ∧ ∃ u, s'.menu = { s.menu with updReq := u } := by
  cases e with
  | tick => cases hs; exact ⟨rfl, rfl, _, rfl⟩
  | adc x => cases hs; exact ⟨rfl, rfl, _, rfl⟩
  | eeIsr => obtain ⟨x, ex, hs⟩ := Option.bind_eq_some_iff.mp hs; cases hs; exact ⟨rfl, rfl, _, rfl⟩
  | eeDone => cases hs; exact ⟨rfl, rfl, _, rfl⟩
  | measureWork =>
    rcases measureWork_eff hi hs with ⟨-, rfl⟩ | ⟨-, p, pl, hm⟩
    · exact ⟨rfl, rfl, _, rfl⟩
    · exact ⟨hm.btn, hm.debugEn, hm.menu⟩
  | menuWork => exact absurd rfl h1
  | displayWork => obtain ⟨_, -, hs⟩ := Option.bind_eq_some_iff.mp hs; cases hs; exact ⟨rfl, rfl, _, rfl⟩
  | buttonsWork pinb => exact absurd rfl (h2 pinb)
  | settingsWork => cases hs; exact ⟨rfl, rfl, _, rfl⟩

/-- the menu after its timeouts were handled -/
def afterTimeout (now : Int) (m : Menu) : Menu :=
  if (holdTime m.state).isSome ∧ timerExpired now m.timeout = true then
    { m with state := leadsTo m.state, timeout := entryTimeout now (leadsTo m.state) m.timeout, ramp := .none }
  else m

theorem leadsTo_next {t : MenuState} (h : ScreenExists c t = true) (ht : (holdTime t).isSome) (hi : t ≠ .idletemp) :
    nextMenuState c t = leadsTo t := by
  cases t <;> simp only [ScreenExists] at h <;> simp [nextMenuState, leadsTo, h] <;>
    first | exact absurd rfl hi | cases ht

theorem leadsTo_ne {t : MenuState} (ht : (holdTime t).isSome) : t ≠ leadsTo t := by
  revert ht; cases t <;> decide

theorem leadsTo_exists {t : MenuState} (h : ScreenExists c t = true) : ScreenExists c (leadsTo t) = true := by
  cases t <;> simp only [ScreenExists] at h <;> simp only [leadsTo, ScreenExists, h]

/-- what the timeouts do: nothing, or another screen and the end of a ramp -/
structure TimeoutEff (s s' : Sys) : Prop where
  now : s'.now = s.now
  btn : s'.btn = s.btn
  debugEn : s'.debugEn = s.debugEn
  set : s'.set = s.set
  menu : ∃ u, s'.menu = { afterTimeout s.now s.menu with updReq := u }
  same : s' = s ∨ s'.menu.ramp = .none

theorem menuTimeouts_eff (hi : Inv c s) : Post (menuTimeouts c s) (TimeoutEff s) := by
  have hsc := hi.menu.screen
  have key : (holdTime s.menu.state).isSome → timerExpired s.now s.menu.timeout = true →
      Post (menuSetState c s (leadsTo s.menu.state)) fun s' => TimeoutEff s (stopRamping s') := by
    intro h1 h2
    refine (menuSetState_eff (leadsTo_exists hsc)).mono fun s2 h => ?_
    rcases h with ⟨h, -⟩ | ⟨-, k, hset⟩
    · exact absurd h (leadsTo_ne h1)
    · obtain ⟨u, hm⟩ := k.menu
      refine ⟨k.now, k.btn, k.debugEn, hset, ⟨u, ?_⟩, Or.inr rfl⟩
      show { s2.menu with ramp := .none } = _
      rw [hm]
      unfold afterTimeout
      rw [if_pos ⟨h1, h2⟩]
  have stay : ¬ ((holdTime s.menu.state).isSome ∧ timerExpired s.now s.menu.timeout = true) → TimeoutEff s s := by
    intro h
    refine ⟨rfl, rfl, rfl, rfl, ⟨s.menu.updReq, ?_⟩, Or.inl rfl⟩
    unfold afterTimeout
    rw [if_neg h]
  unfold menuTimeouts
  split <;> rename_i hst
  all_goals first
    | exact Post.pure (stay (by rw [hst]; simp [holdTime]))
    | (split
       · rename_i hx
         have h1 : (holdTime s.menu.state).isSome := by rw [hst]; rfl
         first
           | (have := key h1 hx
              rw [hst] at this
              exact Post.bind this fun s2 h2 => Post.pure h2)
           | (rw [if_neg (by rw [hst]; decide)]
              unfold menuSetNextState
              rw [leadsTo_next hsc h1 (by rw [hst]; decide)]
              exact Post.bind (key h1 hx) fun s2 h2 => Post.pure h2)
       · rename_i hx
         exact Post.pure (stay fun hh => hx hh.2))

/-- the menu after the error indication -/
def afterError (err : Nat) (m : Menu) : Menu :=
  { m with dispErr := err, ramp := if err = m.dispErr then m.ramp else .none }

theorem menuIndicate_eff (s : Sys) : ∃ u h, menuIndicate s = { s with menu := { afterError (menuError s) s.menu with
    updReq := u, dispHeating := h } } ∧ (menuError s ≠ s.menu.dispErr → u = true) := by
  unfold menuIndicate afterError
  by_cases he : menuError s = s.menu.dispErr
  · rw [if_neg (not_not.mpr he), if_pos he]
    simp only []
    have he' := he.symm
    split
    · exact ⟨_, _, by rw [he], fun h => absurd he h⟩
    · exact ⟨s.menu.updReq, s.menu.dispHeating, by rw [he], fun h => absurd he h⟩
  · simp only [ne_eq, he, not_false_eq_true, if_true, if_false]
    split
    · exact ⟨true, _, rfl, fun _ => rfl⟩
    · exact ⟨true, s.menu.dispHeating, rfl, fun _ => rfl⟩

/-- What the ramp does in a call of the menu's work function; `m` is the menu before. -/
inductive RampWork (s : Sys) (m : Menu) (s' : Sys) : Prop where
  | same : s'.menu.state = m.state → s'.menu.timeout = m.timeout → s'.menu.ramp = m.ramp →
      s'.menu.rampTimer = m.rampTimer → s'.menu.period = m.period → s'.menu.rampPreTimer = m.rampPreTimer →
      s'.set.cache = s.set.cache →
      (Ramping m.ramp = true → timerExpired s.now m.rampTimer = false) →
      (m.ramp = .preUp ∨ m.ramp = .preDown → timerExpired s.now m.rampPreTimer = false) → RampWork s m s'
  | start : s'.menu.state = m.state → s'.menu.timeout = m.timeout →
      (m.ramp = .preUp ∧ s'.menu.ramp = .up ∨ m.ramp = .preDown ∧ s'.menu.ramp = .down) →
      timerExpired s.now m.rampPreTimer = true →
      s'.menu.rampTimer = s.now → s'.menu.period = 400 → s'.set.cache = s.set.cache → RampWork s m s'
  | step : s'.menu.state = (stepMenu s.now m).state → s'.menu.timeout = (stepMenu s.now m).timeout →
      s'.menu.ramp = m.ramp → Ramping m.ramp = true → timerExpired s.now m.rampTimer = true →
      s'.menu.rampTimer = toU16 (m.rampTimer + m.period) →
      s'.menu.period = (if m.period > 25 then m.period / 2 else m.period) →
      s.menu.state = m.state → Stepped s s' (m.ramp = .up) → RampWork s m s'

theorem menuRamp_eff (hi : Inv c s) : Post (menuRamp c s) fun s' =>
    s'.now = s.now ∧ s'.btn = s.btn ∧ s'.debugEn = s.debugEn ∧ RampWork s s.menu s' ∧
    s'.menu.dispErr = s.menu.dispErr := by
  unfold menuRamp
  have same : ((Ramping s.menu.ramp = true → timerExpired s.now s.menu.rampTimer = false) ∧
      (s.menu.ramp = .preUp ∨ s.menu.ramp = .preDown → timerExpired s.now s.menu.rampPreTimer = false)) →
      s.now = s.now ∧ s.btn = s.btn ∧ s.debugEn = s.debugEn ∧ RampWork s s.menu s ∧ s.menu.dispErr = s.menu.dispErr :=
    fun h => ⟨rfl, rfl, rfl, .same rfl rfl rfl rfl rfl rfl rfl h.1 h.2, rfl⟩
  have pre : (s.menu.ramp = .preUp ∨ s.menu.ramp = .preDown) → Post (if timerExpired s.now s.menu.rampPreTimer then
      startRamping s (s.menu.ramp = .preUp) false s.menu.handler else some s) fun s' =>
      s'.now = s.now ∧ s'.btn = s.btn ∧ s'.debugEn = s.debugEn ∧ RampWork s s.menu s' ∧
      s'.menu.dispErr = s.menu.dispErr := by
    intro hr
    split
    · rename_i hx
      obtain ⟨pt, e1, -⟩ := startRamping_eff (s := s) (s.menu.ramp = .preUp) false s.menu.handler
      rw [e1]
      refine Post.pure ⟨rfl, rfl, rfl, .start rfl rfl ?_ hx rfl rfl rfl, rfl⟩
      rcases hr with hr | hr
      · exact Or.inl ⟨hr, by simp [hr]⟩
      · exact Or.inr ⟨hr, by simp [hr]⟩
    · rename_i hx
      refine Post.pure (same ⟨?_, fun _ => by simpa using hx⟩)
      rcases hr with hr | hr <;> rw [hr] <;> exact fun h => by cases h
  have go : Ramping s.menu.ramp = true → Post (if timerExpired s.now s.menu.rampTimer then do
      let h ← s.menu.handler
      let s ← Verif.rampHandler c s h (s.menu.ramp = .up)
      let t ← timerAdd s.menu.rampTimer s.menu.period
      return { s with menu := { s.menu with
        updReq := true, rampTimer := t,
        period := if s.menu.period > 25 then s.menu.period / 2 else s.menu.period } }
    else some s) fun s' =>
      s'.now = s.now ∧ s'.btn = s.btn ∧ s'.debugEn = s.debugEn ∧ RampWork s s.menu s' ∧
      s'.menu.dispErr = s.menu.dispErr := by
    intro hr
    split
    · rename_i hx
      obtain ⟨e1, e2⟩ := hi.menu.ramp (by intro h; rw [h] at hr; cases hr)
      obtain ⟨r, er⟩ := Option.isSome_iff_exists.mp e2
      have e3 : s.menu.handler = some r := e1.trans er
      simp only [e3, Option.bind_eq_bind, Option.bind_some]
      refine Post.bind (rampHandler_eff hi _ er) fun s1 ⟨k, hs⟩ => ?_
      obtain ⟨u, hm⟩ := k.menu
      have hp := hi.menu.period
      have keep : (stepMenu s.now s.menu).ramp = s.menu.ramp ∧ (stepMenu s.now s.menu).rampTimer = s.menu.rampTimer ∧
          (stepMenu s.now s.menu).period = s.menu.period ∧ (stepMenu s.now s.menu).dispErr = s.menu.dispErr := by
        unfold stepMenu
        split <;> exact ⟨rfl, rfl, rfl, rfl⟩
      have hper : s1.menu.period = s.menu.period := by rw [hm]; exact keep.2.2.1
      rw [timerAdd_eq _ (by rw [hper]; exact hp.1) (by rw [hper]; omega)]
      refine Post.pure ⟨k.now, k.btn, k.debugEn, .step ?_ ?_ ?_ hr hx ?_ ?_ rfl hs, ?_⟩
      · show s1.menu.state = _; rw [hm]
      · show s1.menu.timeout = _; rw [hm]
      · show s1.menu.ramp = _; rw [hm]; exact keep.1
      · show toU16 (s1.menu.rampTimer + _) = _
        rw [hper, toU16_add _ (by omega)]
        rw [hm]
        show toU16 ((stepMenu s.now s.menu).rampTimer + _) = _
        rw [keep.2.1]
      · show (if s1.menu.period > 25 then s1.menu.period / 2 else s1.menu.period) = _
        rw [hper]
      · show s1.menu.dispErr = _; rw [hm]; exact keep.2.2.2
    · rename_i hx
      refine Post.pure (same ⟨fun _ => by simpa using hx, ?_⟩)
      intro h
      rcases h with h | h <;> (rw [h] at hr; cases hr)
  split <;> rename_i hr
  · refine Post.pure (same ⟨fun h => ?_, fun h => ?_⟩)
    · rw [hr] at h; cases h
    · rw [hr] at h; rcases h with h | h <;> cases h
  · exact pre (Or.inl hr)
  · exact pre (Or.inr hr)
  · exact go (by rw [hr]; rfl)
  · exact go (by rw [hr]; rfl)

/-- the work of the ramp, seen from states that agree on what it depends on -/
theorem RampWork.transfer {s1 s2 s' s3 : Sys} {m m2 : Menu} (w : RampWork s2 m2 s3) {u h : Bool}
    (hm : m2 = { m with updReq := u, dispHeating := h }) (hn : s2.now = s1.now) (hset : s2.set = s1.set)
    (hst : Ramping m.ramp = true → s2.menu.state = s1.menu.state ∧ s2.ct.boost = s1.ct.boost)
    (k : MenuKept s3 s') (kset : s'.set = s3.set) : RampWork s1 m s' := by
  obtain ⟨v, e⟩ := k.menu
  subst hm
  cases w with
  | same a1 a2 a3 a4 a5 a6 a7 a8 a9 =>
    rw [hn] at a8 a9
    rw [hset] at a7
    refine .same ?_ ?_ ?_ ?_ ?_ ?_ ?_ a8 a9 <;> first | (rw [e]; assumption) | (rw [kset]; assumption)
  | start a1 a2 a3 a4 a5 a6 a7 =>
    rw [hn] at a4 a5
    rw [hset] at a7
    refine .start ?_ ?_ ?_ a4 ?_ ?_ ?_ <;> first | (rw [e]; assumption) | (rw [kset]; assumption)
  | step a1 a2 a3 a4 a5 a6 a7 a8 a9 =>
    obtain ⟨g1, g2⟩ := hst a4
    rw [hn] at a1 a2 a5
    rw [g1] at a8
    have st : (stepMenu s1.now { m with updReq := u, dispHeating := h }).state = (stepMenu s1.now m).state ∧
        (stepMenu s1.now { m with updReq := u, dispHeating := h }).timeout = (stepMenu s1.now m).timeout := by
      obtain ⟨st, _⟩ := m
      cases st <;> exact ⟨rfl, rfl⟩
    rw [st.1] at a1
    rw [st.2] at a2
    refine .step ?_ ?_ ?_ a4 a5 ?_ ?_ a8 ?_
    rotate_right
    · unfold Stepped at a9 ⊢
      rw [g1, g2, hset] at a9
      rw [kset]
      exact a9
    all_goals (rw [e]; assumption)

theorem menuRefresh_eff : Post (menuRefresh c s) fun s' => MenuKept s s' ∧ s'.set = s.set ∧ s'.menu.updReq = false := by
  unfold menuRefresh
  split
  · unfold menuUpdateDisplay
    exact Post.bindAny fun x => Post.bindAny fun d => Post.bindAny fun d => Post.pure ⟨⟨rfl, rfl, rfl, false, rfl⟩, rfl, rfl⟩
  · rename_i h
    exact Post.pure ⟨MenuKept.refl s, rfl, by simpa using h⟩

/-- a call of the menu's work function -/
theorem menuWork_eff (hi : Inv c s) : Post (menuWork c s) fun s' =>
    s'.now = s.now ∧ s'.btn = s.btn ∧ s'.debugEn = s.debugEn ∧ s'.menu.updReq = false ∧
    s'.menu.dispErr = menuError s ∧
    RampWork s (afterError (menuError s) (afterTimeout s.now s.menu)) s' := by
  unfold menuWork
  refine Post.bind (P := fun s1 => TimeoutEff s s1 ∧ Inv c s1 ∧ menuError s1 = menuError s) ?_ fun s1 ⟨h1, i1, he⟩ => ?_
  · intro s1 e
    have q := Quiet.menuTimeouts (Quiet.refl s) c s1 e
    refine ⟨menuTimeouts_eff hi s1 e, hi.menuTimeouts.elim e, ?_⟩
    unfold menuError
    rw [q.emerg, show s1.cc.emerg = s.cc.emerg from (congrArg ContrCurr.emerg q.cc :)]
  · obtain ⟨u1, hm1⟩ := h1.menu
    obtain ⟨u2, hh, e2, -⟩ := menuIndicate_eff s1
    rw [he] at e2
    simp only [e2]
    have i2 := i1.menuIndicate
    rw [e2] at i2
    refine Post.bind (menuRamp_eff i2) fun s3 ⟨k1, k2, k3, kr, ke⟩ => menuRefresh_eff.mono fun s4 ⟨kk, kset, ku⟩ => ?_
    obtain ⟨u4, hm4⟩ := kk.menu
    refine ⟨(kk.now.trans k1).trans h1.now, (kk.btn.trans k2).trans h1.btn, (kk.debugEn.trans k3).trans h1.debugEn, ku, ?_, ?_⟩
    · rw [hm4]
      exact ke
    · refine kr.transfer (u := u2) (h := hh) (by rw [hm1]; rfl) h1.now h1.set (fun hr => ?_) kk kset
      rcases h1.same with rfl | hr'
      · exact ⟨rfl, rfl⟩
      · exfalso
        have : (afterTimeout s.now s.menu).ramp = .none := by rw [hm1] at hr'; exact hr'
        unfold afterError at hr
        rw [this] at hr
        simp only [ite_self] at hr
        cases hr

end Verif
