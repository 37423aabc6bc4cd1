import Verif.Proofs.View
import Verif.Proofs.Sample
/-
Which pins the display code writes, and when.
-/
namespace Verif
open Spec

/-- all writes from `p` to `p'` satisfy `Q` -/
def Logs (Q : PortWrite → Prop) (p p' : Ports) : Prop := ∃ new, Wrote p p' new ∧ ∀ w ∈ new, Q w

variable {Q Q' : PortWrite → Prop} {p p' p'' : Ports}

theorem Logs.refl (Q : PortWrite → Prop) (p : Ports) : Logs Q p p := ⟨[], rfl, by simp⟩

theorem Logs.trans (h : Logs Q p p') (h' : Logs Q p' p'') : Logs Q p p'' := by
  obtain ⟨n, e, hn⟩ := h
  obtain ⟨n', e', hn'⟩ := h'
  refine ⟨n' ++ n, ?_, ?_⟩
  · unfold Wrote at *
    rw [e', e, List.append_assoc]
  · intro w hw
    rcases List.mem_append.mp hw with hw | hw
    · exact hn' w hw
    · exact hn w hw

theorem Logs.mono (h : Logs Q p p') (hq : ∀ w, Q w → Q' w) : Logs Q' p p' := by
  obtain ⟨n, e, hn⟩ := h
  exact ⟨n, e, fun w hw => hq w (hn w hw)⟩

theorem Logs.one {r : Reg} {x : BitVec 8} (h : Q ⟨r, p.v, x⟩) : Logs Q p (p.write r x) :=
  ⟨[⟨r, p.v, x⟩], rfl, by simpa using h⟩

/-- confined, and the segments of a lit digit stay as they are -/
def Calm1 (w : PortWrite) : Prop := Confined w ∧ (w.reg = .portD → AllOff w.before)

theorem driver_confined {i : Nat} (h : i < 4) (en : Bool) : Logs Calm1 p (driver p i en) := by
  have h1 : ∀ x : BitVec 8, (x ||| 8#8) &&& 0xC7 = x &&& 0xC7 ∧ (x ||| 16#8) &&& 0xC7 = x &&& 0xC7 ∧
      (x ||| 32#8) &&& 0xC7 = x &&& 0xC7 ∧ (x ||| 128#8) &&& 0x7F = x &&& 0x7F ∧
      (x &&& ~~~8#8) &&& 0xC7 = x &&& 0xC7 ∧ (x &&& ~~~16#8) &&& 0xC7 = x &&& 0xC7 ∧
      (x &&& ~~~32#8) &&& 0xC7 = x &&& 0xC7 ∧ (x &&& ~~~128#8) &&& 0x7F = x &&& 0x7F := by decide
  have hB := h1 p.v.portB
  have hC := h1 p.v.portC
  have : i = 0 ∨ i = 1 ∨ i = 2 ∨ i = 3 := by omega
  rcases this with rfl | rfl | rfl | rfl <;> cases en <;>
    exact Logs.one ⟨by first
      | exact hC.1 | exact hC.2.1 | exact hC.2.2.1 | exact hB.2.2.2.1
      | exact hC.2.2.2.2.1 | exact hC.2.2.2.2.2.1 | exact hC.2.2.2.2.2.2.1 | exact hB.2.2.2.2.2.2.2, fun hh => (by cases hh)⟩

theorem driverDdr_confined {i : Nat} (h : i < 4) (en : Bool) : Logs Calm1 p (driverDdr p i en) := by
  have h1 : ∀ x : BitVec 8, (x ||| 8#8) &&& 0xC7 = x &&& 0xC7 ∧ (x ||| 16#8) &&& 0xC7 = x &&& 0xC7 ∧
      (x ||| 32#8) &&& 0xC7 = x &&& 0xC7 ∧ (x ||| 128#8) &&& 0x7F = x &&& 0x7F ∧
      (x &&& ~~~8#8) &&& 0xC7 = x &&& 0xC7 ∧ (x &&& ~~~16#8) &&& 0xC7 = x &&& 0xC7 ∧
      (x &&& ~~~32#8) &&& 0xC7 = x &&& 0xC7 ∧ (x &&& ~~~128#8) &&& 0x7F = x &&& 0x7F := by decide
  have hB := h1 p.v.ddrB
  have hC := h1 p.v.ddrC
  have : i = 0 ∨ i = 1 ∨ i = 2 ∨ i = 3 := by omega
  rcases this with rfl | rfl | rfl | rfl <;> cases en <;>
    exact Logs.one ⟨by first
      | exact hC.1 | exact hC.2.1 | exact hC.2.2.1 | exact hB.2.2.2.1
      | exact hC.2.2.2.2.1 | exact hC.2.2.2.2.2.1 | exact hC.2.2.2.2.2.2.1 | exact hB.2.2.2.2.2.2.2, fun hh => (by cases hh)⟩

theorem driverDdr_on {i : Nat} (h : i < 4) (en : Bool) (k : Nat) : DriverOn (driverDdr p i en).v k = DriverOn p.v k := by
  have : i = 0 ∨ i = 1 ∨ i = 2 ∨ i = 3 := by omega
  match k with
  | 0 | 1 | 2 | 3 => rcases this with rfl | rfl | rfl | rfl <;> cases en <;> rfl
  | _ + 4 => rfl

theorem allOff_driver (ha : AllOff p.v) {i : Nat} (h : i < 4) : AllOff (Verif.driver p i false).v := by
  intro k
  rw [driverOn_driver p h]
  split
  · rfl
  · exact ha k

theorem allOff_digit (ha : AllOff p.v) {i : Nat} (h : i < 4) :
    AllOff (digitInit p i).v ∧ AllOff (digitExit p i).v := by
  have h1 : AllOff ((p.write .portD 0xFF).orBits .ddrD 0xFF).v := fun k => by
    rw [← ha k]
    match k with
    | 0 | 1 | 2 | 3 => rfl
    | _ + 4 => rfl
  have h2 : AllOff ((p.clrBits .portD 0xFF).clrBits .ddrD 0xFF).v := fun k => by
    rw [← ha k]
    match k with
    | 0 | 1 | 2 | 3 => rfl
    | _ + 4 => rfl
  exact ⟨fun k => (driverDdr_on h _ k).trans (allOff_driver h1 h k), fun k => (driverDdr_on h _ k).trans (allOff_driver h2 h k)⟩

theorem digitInit_calm (ha : AllOff p.v) {i : Nat} (h : i < 4) : Logs Calm1 p (digitInit p i) := by
  unfold digitInit
  refine Logs.trans (Logs.trans (Logs.trans (p' := p.write .portD 0xFF) (Logs.one ⟨trivial, fun _ => ha⟩) ?_)
    (driver_confined h _)) (driverDdr_confined h _)
  exact Logs.one ⟨trivial, fun hh => by cases hh⟩

theorem digitExit_calm (ha : AllOff p.v) {i : Nat} (h : i < 4) : Logs Calm1 p (digitExit p i) := by
  unfold digitExit
  refine Logs.trans (Logs.trans (Logs.trans (p' := p.clrBits .portD 0xFF) (Logs.one ⟨trivial, fun _ => ha⟩) ?_)
    (driver_confined h _)) (driverDdr_confined h _)
  exact Logs.one ⟨trivial, fun hh => by cases hh⟩

theorem digitExit_confined {i : Nat} (h : i < 4) : Logs Confined p (digitExit p i) := by
  unfold digitExit
  refine Logs.trans (Logs.trans (Logs.trans (p' := p.clrBits .portD 0xFF) (Logs.one trivial) (Logs.one (r := .ddrD) trivial))
    ((driver_confined h _).mono fun _ h => h.1)) ((driverDdr_confined h _).mono fun _ h => h.1)

/-- writes to the ports of which the bad ones need `P` -/
structure Wr (P : Prop) (a s : Ports) : Prop where
  off : AllOff a.v → AllOff s.v
  log : Logs Confined a s
  calm : Logs Calm1 a s ∨ (P ∧ ¬ AllOff a.v ∧ AllOff s.v)

theorem Wr.refl (P : Prop) (p : Ports) : Wr P p p := ⟨id, Logs.refl _ _, Or.inl (Logs.refl _ _)⟩

theorem Wr.trans {P : Prop} (h : Wr P p p') (h' : Wr P p' p'') : Wr P p p'' := by
  refine ⟨fun hh => h'.off (h.off hh), h.log.trans h'.log, ?_⟩
  rcases h.calm with h1 | ⟨h1, h2, h3⟩
  · rcases h'.calm with h4 | ⟨h4, h5, h6⟩
    · exact Or.inl (h1.trans h4)
    · exact Or.inr ⟨h4, fun hh => h5 (h.off hh), h6⟩
  · exact Or.inr ⟨h1, h2, h'.off h3⟩

theorem Wr.mono {P P' : Prop} (hp : P → P') (h : Wr P p p') : Wr P' p p' :=
  ⟨h.off, h.log, h.calm.imp id fun ⟨h1, h2⟩ => ⟨hp h1, h2⟩⟩

theorem displayOff_calm : Wr True p (digitExit (digitExit (digitExit (digitExit p 0) 1) 2) 3) := by
  have hc : Logs Confined p (digitExit (digitExit (digitExit (digitExit p 0) 1) 2) 3) :=
    (((digitExit_confined (by decide)).trans (digitExit_confined (by decide))).trans
      (digitExit_confined (by decide))).trans (digitExit_confined (by decide))
  have hoff : AllOff (digitExit (digitExit (digitExit (digitExit p 0) 1) 2) 3).v := by
    rw [displayOff_vals]
    obtain ⟨-, -, -, -, m1, m2, m3⟩ := maskC p.v.portC
    obtain ⟨-, -, -, -, m4⟩ := maskB p.v.portB
    exact driverOn_off m4 m1 m2 m3
  refine ⟨fun _ => hoff, hc, ?_⟩
  by_cases ha : AllOff p.v
  · have a1 := (allOff_digit ha (i := 0) (by decide)).2
    have a2 := (allOff_digit a1 (i := 1) (by decide)).2
    have a3 := (allOff_digit a2 (i := 2) (by decide)).2
    exact Or.inl ((((digitExit_calm ha (by decide)).trans (digitExit_calm a1 (by decide))).trans
      (digitExit_calm a2 (by decide))).trans (digitExit_calm a3 (by decide)))
  · exact Or.inr ⟨trivial, ha, hoff⟩

theorem displayOn_calm (ha : AllOff p.v) : Wr False p (digitInit (digitInit (digitInit (digitInit p 0) 1) 2) 3) := by
  have a1 := (allOff_digit ha (i := 0) (by decide)).1
  have a2 := (allOff_digit a1 (i := 1) (by decide)).1
  have a3 := (allOff_digit a2 (i := 2) (by decide)).1
  have a4 := (allOff_digit a3 (i := 3) (by decide)).1
  have hl := (((digitInit_calm ha (i := 0) (by decide)).trans (digitInit_calm a1 (i := 1) (by decide))).trans
      (digitInit_calm a2 (i := 2) (by decide))).trans (digitInit_calm a3 (i := 3) (by decide))
  exact ⟨fun _ => a4, hl.mono fun _ h => h.1, Or.inl hl⟩

/-- switching debugging writes only pins of the display; segments of a lit digit only when switching it on -/
theorem Wr.debugEnable {c : Conf} {s : Sys} (hi : DispInv c s.disp s.ports.v s.debugEn) (en : Bool) :
    Post (debugEnable c s en) fun s' => Wr (c.debug = true ∧ en = true) s.ports s'.ports := by
  have txen : ∀ {P : Prop} {p p' : Ports} (b : Bool), Wr P p p' → Wr P p { p' with v := { p'.v with txen := b } } := by
    intro P p p' b h
    exact ⟨fun hh k => (driverOn_txen _ b k).trans (h.off hh k), h.log,
      h.calm.imp id fun ⟨h1, h2, h3⟩ => ⟨h1, h2, fun k => (driverOn_txen _ b k).trans (h3 k)⟩⟩
  unfold Verif.debugEnable
  split
  · rename_i hc
    refine Post.bind (P := fun pd => Wr (c.debug = true ∧ en = true) s.ports pd.1) ?_ fun pd h =>
      Post.pure (txen en h)
    rintro ⟨p', d'⟩ e
    change displayEnable s.now s.ports s.disp (!en) = some (p', d') at e
    cases hd : s.disp.enabled <;> cases en
    · obtain ⟨dg, e', -⟩ := displayOn_eq s.now s.ports hd
      rw [Bool.not_false, e'] at e
      cases e
      refine (displayOn_calm fun k => ?_).mono False.elim
      cases hk : DriverOn s.ports.v k with
      | false => rfl
      | true => exact absurd ((hi.drv k hk).1.symm.trans hd) (by decide)
    · unfold displayEnable at e
      rw [if_pos (by rw [hd]; rfl)] at e
      cases e
      exact Wr.refl _ _
    · unfold displayEnable at e
      rw [if_pos (by rw [hd]; rfl)] at e
      cases e
      exact Wr.refl _ _
    · have e' := displayOff_eq s.now s.ports hi hd
      rw [Bool.not_true, e'] at e
      cases e
      exact displayOff_calm.mono fun _ => ⟨hc, rfl⟩
  · exact Post.pure (Wr.refl _ _)

variable {c : Conf} {s : Sys}

theorem menuArm_ports {a s : Sys} (h : s.ports = a.ports) (ms : Int) :
    Post (menuArm s ms) fun s' => s'.ports = a.ports := by
  unfold Verif.menuArm
  exact Post.bindAny fun t => Post.pure h

theorem startRamping_ports {a s : Sys} (h : s.ports = a.ports) (up pre : Bool) (r : Option RampHandler) :
    Post (startRamping s up pre r) fun s' => s'.ports = a.ports := by
  unfold Verif.startRamping
  split
  · exact Post.bindAny fun t => Post.pure h
  · exact Post.pure h

theorem startRampingButton_ports {a s : Sys} (h : s.ports = a.ports) (b : Button) (e : BState) (pre : Bool)
    (r : RampHandler) : Post (startRampingButton s b e pre r) fun s' => s'.ports = a.ports := by
  unfold Verif.startRampingButton
  split
  · split
    · exact startRamping_ports h _ _ _
    · split
      · exact startRamping_ports h _ _ _
      · exact Post.pure h
  · exact Post.pure h

/-- the panel handlers write the ports only to switch debugging -/
theorem menuButtonScreen_wr (hi : Inv c s) (b : Button) (e : BState) : Post (menuButtonScreen c s b e) fun s' =>
    Wr (c.debug = true ∧ b = .plus ∧ e = .posedge) s.ports s'.ports := by
  have same : ∀ {m : Option Sys}, Post m (fun s' => s'.ports = s.ports) →
      Post m fun s' => Wr (c.debug = true ∧ b = .plus ∧ e = .posedge) s.ports s'.ports := by
    intro m h
    exact h.mono fun s' hs => by rw [hs]; exact Wr.refl _ _
  have h0 : s.ports = s.ports := rfl
  unfold Verif.menuButtonScreen
  split
  · refine same (Post.bind (startRampingButton_ports h0 b e _ _) fun s2 h2 => ?_)
    split
    · exact ((Io.refl s2).menuSetState _).mono fun _ h => h.1.ports.trans h2
    · exact Post.pure h2
  · refine same (Post.bind (menuArm_ports h0 _) fun s2 h2 => ?_)
    have store : ∀ x : Settings, Post (presetsStore (Verif.setCache s2 x)) fun s3 => s3.ports = s.ports := fun x =>
      (((Io.refl s2).setCache x).presetsStore).mono fun _ h => h.1.ports.trans h2
    cases e
    · simp only [reduceCtorEq, if_false, pure_bind]; exact startRampingButton_ports h2 b _ _ _
    · simp only [if_true]
      cases b <;> simp only [reduceCtorEq, if_false, if_true, pure_bind]
      · exact startRampingButton_ports h2 _ _ _ _
      · exact Post.bind (store _) fun s3 h3 => startRampingButton_ports h3 _ _ _ _
      · exact Post.bind (store _) fun s3 h3 => startRampingButton_ports h3 _ _ _ _
      · exact startRampingButton_ports h2 _ _ _ _
    · simp only [reduceCtorEq, if_false, pure_bind]; exact startRampingButton_ports h2 b _ _ _
  · exact same (Post.bind (menuArm_ports h0 _) fun s2 h2 => startRampingButton_ports h2 b e _ _)
  · split
    · exact same (Post.pure rfl)
    · exact same (Post.bind (menuArm_ports h0 _) fun s2 h2 => startRampingButton_ports h2 b e _ _)
  · split
    · exact same (Post.pure rfl)
    · split
      · rename_i he
        simp only []
        by_cases hp : b = .plus
        · rw [if_pos hp]
          refine Post.bind (Wr.debugEnable hi.disp true) fun s3 h3 => ?_
          rw [if_neg (by rw [hp]; decide)]
          exact Post.pure (h3.mono fun hh => ⟨hh.1, hp, he⟩)
        · rw [if_neg hp, pure_bind]
          split
          · exact Post.bind (Wr.debugEnable hi.disp false) fun s3 h3 =>
              Post.pure (h3.mono fun hh => by cases hh.2)
          · exact same (Post.pure rfl)
      · exact same (Post.pure rfl)
  all_goals first
    | exact same (Post.pure rfl)
    | (split
       · exact same (Post.pure rfl)
       · exact same (startRampingButton_ports h0 b e _ _))

theorem menuButton_wr (hi : Inv c s) (b : Button) (e : BState) : Post (menuButton c s b e) fun s' =>
    Wr (c.debug = true ∧ b = .plus ∧ e = .posedge) s.ports s'.ports := by
  unfold Verif.menuButton
  split
  · exact Post.pure (Wr.refl _ _)
  · refine Post.bind (menuButtonScreen_wr hi b e) fun s2 h2 => ?_
    split
    · simp only []
      split
      · split
        · refine ((Io.refl (stopRamping s2)).menuSetState _).mono fun s3 h3 => ?_
          rw [h3.1.ports]
          exact h2
        · exact Post.pure h2
      · exact Post.pure h2
    · exact Post.pure h2

theorem contrtempButton_ports (b : Button) (e : BState) :
    Post (contrtempButton c s b e) fun s' => s'.ports = s.ports := by
  have boost : ∀ s2 : Sys, s2.ports = s.ports → Post (contrtempNextBoost c s2) fun s' => s'.ports = s.ports :=
    fun s2 h2 => ((Io.refl s2).setBoost _).mono fun _ h => h.1.ports.trans h2
  have idle : ∀ (s2 : Sys) x, s2.ports = s.ports → Post (contrtempDoIdle s2 x) fun s' => s'.ports = s.ports := by
    intro s2 x h2
    unfold contrtempDoIdle contrtempUpdateSetpoint
    exact Post.bind (P := fun s3 => s3.ports = s.ports) (Post.bindAny fun sp => Post.pure h2) fun s3 h3 => Post.pure h3
  unfold Verif.contrtempButton
  split
  · split
    · exact Post.pure rfl
    · have tail : ∀ s2 : Sys, s2.ports = s.ports → Post (if s2.ct.biLet = true then
          if s.ct.idle = true ∨ e = .pressed ∧ timerExpired s2.now s2.ct.biTimer = true then do
            let s ← contrtempDoIdle s2 !s.ct.idle
            pure { s with ct := { s.ct with biLet := false } }
          else if e = .negedge then do
            let s ← contrtempNextBoost c s2
            pure { s with ct := { s.ct with biLet := false } }
          else pure s2
        else pure s2) (fun s' => s'.ports = s.ports) := by
        intro s2 h2
        split
        · split
          · exact Post.bind (idle s2 _ h2) fun s3 h3 => Post.pure h3
          · split
            · exact Post.bind (boost s2 h2) fun s3 h3 => Post.pure h3
            · exact Post.pure h2
        · exact Post.pure h2
      cases e
      · simp only [if_true]
        exact Post.bindAny fun t => tail { s with ct := { s.ct with biTimer := t, biLet := true } } rfl
      · exact tail s rfl
      · exact tail s rfl
  · split
    · exact Post.pure rfl
    · split
      · exact boost s rfl
      · exact Post.pure rfl
  · split
    · exact Post.pure rfl
    · simp only []
      generalize (if c.idleToggle = true then _ else _ : Bool) = x
      split
      · exact idle s _ rfl
      · exact Post.pure rfl
  · exact Post.pure rfl

/-! ### the work functions -/

theorem displayWork_calm {p' : Ports} {d' : Display} (hi : DispInv c s.disp s.ports.v s.debugEn)
    (e : displayWork s.now s.ports s.disp = some (p', d')) : Logs Calm1 s.ports p' := by
  rcases displayWork_eq s.now s.ports hi with e' | ⟨t, j, -, -, -, -, hj, e'⟩
  · rw [e'] at e
    cases e
    exact Logs.refl _ _
  · rw [e'] at e
    cases e
    have hoff : AllOff (driver s.ports s.disp.mux false).v := fun k => by
      rw [driverOn_driver _ hi.mux]
      split
      · rfl
      · rename_i hk
        cases hd : DriverOn s.ports.v k with
        | false => rfl
        | true => exact absurd (hi.drv k hd).2 hk
    exact ((driver_confined hi.mux false).trans (Logs.one (r := .portD) ⟨trivial, fun _ => hoff⟩)).trans (driver_confined hj true)

theorem menuTimeouts_ports : Post (menuTimeouts c s) fun s' => s'.ports = s.ports := by
  unfold Verif.menuTimeouts
  split
  all_goals first
    | exact Post.pure rfl
    | skip
  all_goals
    split
    · try split
      all_goals exact Post.bind ((Io.refl s).menuSetState _) fun s2 h2 => Post.pure h2.1.ports
    · exact Post.pure rfl

theorem menuIndicate_ports : (menuIndicate s).ports = s.ports := by
  unfold Verif.menuIndicate
  simp only []
  split
  · split <;> rfl
  · split <;> rfl

theorem menuRamp_ports : Post (menuRamp c s) fun s' => s'.ports = s.ports := by
  unfold Verif.menuRamp
  split
  · exact Post.pure rfl
  all_goals
    split
    · first
        | exact startRamping_ports rfl _ _ _
        | exact Post.bindAny fun r => Post.bind ((Io.refl s).rampHandler r _) fun s2 h2 =>
            Post.bindAny fun t => Post.pure h2.ports
    · exact Post.pure rfl

theorem menuWork_ports (hi : Inv c s) (hf : NoForce s.disp) : Post (menuWork c s) fun s' => s'.ports = s.ports := by
  unfold Verif.menuWork
  refine Post.bind (P := fun s1 => Inv c s1 ∧ NoForce s1.disp ∧ s1.ports = s.ports)
    (fun s1 e => ⟨hi.menuTimeouts.elim e, ((ViewKept.refl s).menuTimeouts s1 e).dp hf, menuTimeouts_ports s1 e⟩)
    fun s1 ⟨i1, f1, h1⟩ => ?_
  have i2 := i1.menuIndicate
  have f2 := (ViewKept.refl s1).menuIndicate.dp f1
  have h2 := (menuIndicate_ports (s := s1)).trans h1
  simp only []
  refine Post.bind (P := fun s3 => Inv c s3 ∧ NoForce s3.disp ∧ s3.ports = s.ports)
    (fun s3 e => ⟨i2.menuRamp.elim e, ((ViewKept.refl _).menuRamp s3 e).dp f2, (menuRamp_ports s3 e).trans h2⟩)
    fun s3 ⟨i3, f3, h3⟩ => ?_
  unfold menuRefresh
  split
  · intro s4 e
    have i4 : Inv c { s3 with menu := { s3.menu with updReq := false } } := { i3 with menu := { i3.menu with } }
    obtain ⟨txt, dg, -, rfl, -⟩ := menuUpdateDisplay_shows i4 f3 e
    exact h3
  · exact Post.pure h3

theorem calls_wr {P : Prop} (l : List (Button × BState)) :
    ∀ {s : Sys}, Inv c s → (c.debug = true → (Button.plus, BState.posedge) ∈ l → P) →
      Post (l.foldlM (callButtonHandlers c) s) fun s' => Wr P s.ports s'.ports := by
  induction l with
  | nil => intro s hi hp; exact Post.pure (Wr.refl _ _)
  | cons x l ih =>
    intro s hi hp
    rw [List.foldlM_cons]
    refine Post.bind (P := fun s2 => Inv c s2 ∧ Wr P s.ports s2.ports) ?_ fun s2 ⟨i2, h2⟩ =>
      (ih i2 fun hc hm => hp hc (List.mem_cons_of_mem _ hm)).mono fun s3 h3 => h2.trans h3
    unfold callButtonHandlers
    refine Post.bind (P := fun s1 => Inv c s1 ∧ s1.ports = s.ports)
      (fun s1 e => ⟨(hi.ironButton x.1 x.2).elim e, contrtempButton_ports _ _ s1 e⟩) fun s1 ⟨i1, h1⟩ => ?_
    intro s2 e
    refine ⟨(i1.menuButton x.1 x.2).elim e, ?_⟩
    rw [← h1]
    refine (menuButton_wr i1 x.1 x.2 s2 e).mono fun ⟨hc, hb, he⟩ => hp hc ?_
    obtain ⟨b, e⟩ := x
    subst hb he
    exact List.mem_cons_self

theorem buttonsWork_wr (hi : Inv c s) (pinb : BitVec 8) : Post (buttonsWork c s pinb) fun s' =>
    Wr (c.debug = true ∧ Down pinb .plus = true) s.ports s'.ports := by
  unfold Verif.buttonsWork
  refine Post.bind (P := fun x => (Button.plus, BState.posedge) ∈ x.2 → Down pinb .plus = true) ?_ fun x hx => ?_
  · rintro ⟨b, l⟩ e hm
    unfold buttonsSample at e
    split at e
    · cases e
      cases hm
    · obtain ⟨t, et, e⟩ := Option.bind_eq_some_iff.mp e
      cases e
      change (Button.plus, BState.posedge) ∈ buttonCalls _ _ _ at hm
      rw [buttonCalls_eq] at hm
      obtain ⟨b, -, hm⟩ := List.mem_flatMap.mp hm
      obtain ⟨e, he, h⟩ := List.mem_map.mp hm
      cases h
      have : ∀ was down, BState.posedge ∈ pressCalls was down → down = true := by decide
      rw [← down_pin]
      exact this _ _ he
  · have i1 : Inv c { s with btn := x.1 } := { hi with }
    exact calls_wr x.2 i1 fun hc hm => ⟨hc, hx hm⟩

/-- the writes of one step -/
theorem step_writes {s' : Sys} {e : Ev} (hr : Running c s) (hs : step c s e = some s') :
    Logs Confined s.ports s'.ports ∧ (Logs Calm1 s.ports s'.ports ∨
      (c.debug = true ∧ ∃ pinb, e = .buttonsWork pinb ∧ Down pinb .plus = true)) := by
  have hi := Running.inv hr
  have same : s'.ports = s.ports → Logs Confined s.ports s'.ports ∧ (Logs Calm1 s.ports s'.ports ∨
      (c.debug = true ∧ ∃ pinb, e = .buttonsWork pinb ∧ Down pinb .plus = true)) := by
    intro h
    rw [h]
    exact ⟨Logs.refl _ _, Or.inl (Logs.refl _ _)⟩
  cases e with
  | tick => cases hs; exact same rfl
  | adc raw => cases hs; exact same rfl
  | eeIsr =>
    obtain ⟨st, -, hs⟩ := Option.bind_eq_some_iff.mp hs
    cases hs
    exact same rfl
  | eeDone => cases hs; exact same rfl
  | measureWork =>
    rcases measureWork_eff hi hs with ⟨-, h⟩ | ⟨-, p, pl, h⟩
    · exact same (congrArg Sys.ports h)
    · exact same h.ports
  | menuWork => exact same (menuWork_ports hi (Running.shown hr).dp _ hs)
  | displayWork =>
    obtain ⟨⟨p, d⟩, e1, hs⟩ := Option.bind_eq_some_iff.mp hs
    cases hs
    have := displayWork_calm hi.disp e1
    exact ⟨this.mono (fun _ h => h.1), Or.inl this⟩
  | buttonsWork pinb =>
    have := buttonsWork_wr hi pinb _ hs
    exact ⟨this.log, this.calm.imp id fun ⟨h, _⟩ => ⟨h.1, pinb, rfl, h.2⟩⟩
  | settingsWork => cases hs; exact same rfl

/-! ### the heating indication -/

theorem wanted_unique {x : Settings} {idle : Bool} {v w : Int} (h : WantedTemp x idle v) (h' : WantedTemp x idle w) :
    v = w := by
  obtain ⟨p, e, rfl⟩ := h
  obtain ⟨q, e', rfl⟩ := h'
  rw [e] at e'
  cases e'
  rfl

theorem menuIndicate_heat : (menuIndicate s).menu.dispHeating = contrtempIsHeatingUp s := by
  have key : ∀ t : Sys, contrtempIsHeatingUp t = contrtempIsHeatingUp s →
      (if contrtempIsHeatingUp t ≠ t.menu.dispHeating then
        { t with menu := { t.menu with dispHeating := contrtempIsHeatingUp t, updReq := true } }
      else t).menu.dispHeating = contrtempIsHeatingUp s := by
    intro t ht
    split
    · exact ht
    · rename_i h
      exact (not_not.mp h).symm.trans ht
  unfold Verif.menuIndicate
  simp only []
  apply key
  split <;> rfl

theorem startRamping_heat (up pre : Bool) (r : Option RampHandler) :
    Post (startRamping s up pre r) fun s' => s'.menu.dispHeating = s.menu.dispHeating := by
  unfold Verif.startRamping
  split
  · exact Post.bindAny fun t => Post.pure rfl
  · exact Post.pure rfl

theorem menuRamp_heat : Post (menuRamp c s) fun s' => s'.menu.dispHeating = s.menu.dispHeating := by
  unfold Verif.menuRamp
  split
  · exact Post.pure rfl
  all_goals
    split
    · first
        | exact startRamping_heat _ _ _
        | exact Post.bindAny fun r => Post.bind ((Io.refl s).rampHandler r _) fun s2 h2 =>
            Post.bindAny fun t => Post.pure h2.heat
    · exact Post.pure rfl

theorem menuWork_heat (hi : Inv c s) (hf : NoForce s.disp) : Post (menuWork c s) fun s' =>
    s'.menu.dispHeating = decide (s.ct.feedback < s.ct.pid.setpoint) := by
  unfold Verif.menuWork
  refine Post.bind (P := fun s1 => Inv c s1 ∧ NoForce s1.disp ∧ contrtempIsHeatingUp s1 = contrtempIsHeatingUp s)
    (fun s1 e => ⟨hi.menuTimeouts.elim e, ((ViewKept.refl s).menuTimeouts s1 e).dp hf, ?_⟩)
    fun s1 ⟨i1, f1, h1⟩ => ?_
  · have t1 := menuTimeouts_eff hi s1 e
    have t2 := Hand.menuTimeouts hi (Hand.refl c False s) s1 e
    have i1 := hi.menuTimeouts.elim e
    have w1 := i1.ct.sp
    rw [t1.set, t2.idle] at w1
    unfold contrtempIsHeatingUp
    rw [t2.feedback, wanted_unique w1 hi.ct.sp]
  have i2 := i1.menuIndicate
  have f2 := (ViewKept.refl s1).menuIndicate.dp f1
  have h2 := (menuIndicate_heat (s := s1)).trans h1
  simp only []
  refine Post.bind (P := fun s3 => Inv c s3 ∧ NoForce s3.disp ∧ s3.menu.dispHeating = contrtempIsHeatingUp s)
    (fun s3 e => ⟨i2.menuRamp.elim e, ((ViewKept.refl _).menuRamp s3 e).dp f2, (menuRamp_heat s3 e).trans h2⟩)
    fun s3 ⟨i3, f3, h3⟩ => ?_
  unfold menuRefresh
  split
  · intro s4 e
    have i4 : Inv c { s3 with menu := { s3.menu with updReq := false } } := { i3 with menu := { i3.menu with } }
    obtain ⟨txt, dg, -, rfl, -⟩ := menuUpdateDisplay_shows i4 f3 e
    exact h3
  · exact Post.pure h3

/-! ### what glows -/

/-- a multiplexing step takes place -/
theorem work_moves {now : Int} {p : Ports} {d : Display} {v : PortVals} {dbg : Bool} (hd : DispInv c d v dbg)
    (hen : dbg = false) (hx : timerExpired now d.muxTimer = true) : displayWork now p d ≠ some (p, d) := by
  have hdis : d.enabled = true := by
    have := hd.en
    rw [hen] at this
    exact this
  intro e'
  unfold displayWork at e'
  simp only [hdis, hx, Bool.not_true, Bool.false_eq_true, if_false] at e'
  obtain ⟨t, -, hh⟩ := Option.bind_eq_some_iff.mp e'
  obtain ⟨src, -, hh⟩ := Option.bind_eq_some_iff.mp hh
  obtain ⟨dst, -, hh⟩ := Option.bind_eq_some_iff.mp hh
  obtain ⟨q, -, hh⟩ := Option.bind_eq_some_iff.mp hh
  have hr := congrArg (fun x => x.2.mux) (Option.some.inj hh)
  have hm := hd.mux
  change ringNext d.mux 3 = d.mux at hr
  have : d.mux = 0 ∨ d.mux = 1 ∨ d.mux = 2 ∨ d.mux = 3 := by omega
  rcases this with k | k | k | k <;> rw [k] at hr <;> exact absurd hr (by decide)

theorem work_glows {now : Int} {p p' : Ports} {d d' : Display} {dbg : Bool} (hd : DispInv c d p.v dbg)
    (hen : dbg = false) (hx : timerExpired now d.muxTimer = true) (e : displayWork now p d = some (p', d')) :
    ∃ i, ∃ hi : i < 4, ∀ j x, Glows p'.v j x = (decide (j = i) && d.digit[i].sseg.enSet.getLsbD (segPin (decide (i = 3)) x)) := by
  have hdis : d.enabled = true := by
    have := hd.en
    rw [hen] at this
    exact this
  rcases displayWork_eq now p hd with e' | ⟨t, i, -, -, -, hi, hi4, e'⟩
  · exact absurd e' (work_moves hd hen hx)
  · rw [e'] at e
    cases e
    refine ⟨i, hi4, fun j x => ?_⟩
    have hon : DriverOn (driver ((driver p d.mux false).write .portD (~~~d.digit[i].sseg.enSet)) i true).v j =
        decide (j = i) := by
      rw [driverOn_driver _ hi4]
      by_cases hk : j = i
      · rw [if_pos hk, decide_eq_true hk]
      · rw [if_neg hk, decide_eq_false hk]
        show DriverOn (driver p d.mux false).v j = false
        rw [driverOn_driver _ hd.mux]
        split
        · rfl
        · rename_i hm
          cases hq : DriverOn p.v j with
          | false => rfl
          | true => exact absurd (hd.drv j hq).2 hm
    obtain ⟨b1, b2, b3, b4, b5⟩ := driver_other
      ((driver p d.mux false).write .portD (~~~d.digit[i].sseg.enSet)) hi4 true
    obtain ⟨a1, a2, a3, a4, a5⟩ := driver_other p hd.mux false
    unfold Glows
    rw [hon]
    by_cases hk : j = i
    · subst hk
      rw [decide_eq_true rfl, Bool.true_and, Bool.true_and]
      have hpin : segPin (decide (j = 3)) x < 8 := by
        unfold segPin
        split <;> cases x <;> decide
      have d1 : (driver ((driver p d.mux false).write .portD (~~~d.digit[j].sseg.enSet)) j true).v.ddrD = 0xFF := by
        refine b4.trans (a4.trans ?_)
        rw [hd.pins.1, hdis]
        rfl
      have d2 : (driver ((driver p d.mux false).write .portD (~~~d.digit[j].sseg.enSet)) j true).v.portD =
          ~~~d.digit[j].sseg.enSet := b1
      have hff : ∀ k, k < 8 → BitVec.getLsbD (w := 8) 0xFF k = true := by decide
      rw [d1, d2, hff _ hpin, BitVec.getLsbD_not, decide_eq_true hpin, Bool.true_and, Bool.true_and, Bool.not_not]
    · rw [decide_eq_false hk, Bool.false_and, Bool.false_and, Bool.false_and]

/-- no full stop in a number -/
theorem readDigits_mem {l : List Nat} {v : Nat} (h : readDigits l = some v) : ∀ ch ∈ l, 48 ≤ ch ∧ ch ≤ 57 := by
  have none_stays : ∀ l : List Nat, l.foldl (fun acc ch =>
      match acc with
      | none => none
      | some v => if 48 ≤ ch ∧ ch ≤ 57 then some (10 * v + (ch - 48)) else none) (none : Option Nat) = none := by
    intro l
    induction l with
    | nil => rfl
    | cons x l ih => exact ih
  have key : ∀ (l : List Nat) (a v : Nat), l.foldl (fun acc ch =>
      match acc with
      | none => none
      | some v => if 48 ≤ ch ∧ ch ≤ 57 then some (10 * v + (ch - 48)) else none) (some a) = some v →
      ∀ ch ∈ l, 48 ≤ ch ∧ ch ≤ 57 := by
    intro l
    induction l with
    | nil => intro a v _ ch hch; cases hch
    | cons x l ih =>
      intro a v hh ch hch
      rw [List.foldl_cons] at hh
      simp only [] at hh
      by_cases hx : 48 ≤ x ∧ x ≤ 57
      · rw [if_pos hx] at hh
        rcases List.mem_cons.mp hch with rfl | hm
        · exact hx
        · exact ih _ _ hh ch hm
      · rw [if_neg hx, none_stays] at hh
        cases hh
  cases l with
  | nil => cases h
  | cons x l => exact key _ 0 v h

theorem readNumber_mem {l : List Nat} {v : Int} (h : readNumber l = some v) : ∀ ch ∈ l, ch ≠ 46 := by
  induction l with
  | nil => intro ch hch; cases hch
  | cons x l ih =>
    unfold readNumber at h
    intro ch hch
    split at h
    · rename_i hx
      rcases List.mem_cons.mp hch with rfl | hm
      · omega
      · exact ih h ch hm
    · split at h
      · rename_i hx
        obtain ⟨w', hw', -⟩ := Option.map_eq_some_iff.mp h
        obtain ⟨w, hw, -⟩ := Option.bind_eq_some_iff.mp hw'
        rcases List.mem_cons.mp hch with rfl | hm
        · omega
        · have := readDigits_mem hw ch hm
          omega
      · obtain ⟨w', hw', -⟩ := Option.map_eq_some_iff.mp h
        obtain ⟨w, hw, -⟩ := Option.bind_eq_some_iff.mp hw'
        have := readDigits_mem hw ch hch
        omega

theorem TempText.third {v : Int} {unit txt : List Nat} (h : TempText v unit txt) : (layout txt)[2]? ≠ none := by
  obtain ⟨n, num, -, hl, hr, rfl⟩ := h
  have hm := readNumber_mem hr
  match num, hl with
  | [a, b, d], _ =>
    have hb : b ≠ 46 := hm b (by simp)
    have hd : d ≠ 46 := hm d (by simp)
    cases unit with
    | nil => simp [layout, hb, hd]
    | cons u us =>
      simp only [List.cons_append, List.nil_append, layout, if_neg hb, if_neg hd]
      split <;> simp

/-- the screens with the heating indicator show something on the third digit -/
theorem layout_third {txt : List Nat} (h : ScreenText s txt) (hs : ShowsHeating s = true) : (layout txt)[2]? ≠ none := by
  unfold ScreenText at h
  unfold ShowsHeating at hs
  cases hst : s.menu.state <;> simp only [hst] at h hs <;> try cases hs
  · rw [if_pos (by simpa using hs)] at h
    exact TempText.third h
  · obtain ⟨v, -, h⟩ := h
    exact TempText.third h
  · obtain ⟨v, -, h⟩ := h
    exact TempText.third h
  · exact TempText.third h
  · rw [h]
    decide

end Verif
