import Verif.Spec.Settings
import Verif.Proofs.Timer
/-
Helper lemmas about the settings image, the EEPROM ring and the byte writer.
-/
namespace Verif

theorem dec_enc24 {x : Int} (h : S24 x) :
    dec24 (byte0 x) (byte1 x) (byte2 x) = x := by
  unfold S24 at h
  unfold dec24 toS24 byte0 byte1 byte2
  omega

theorem dec24_range (a b c : Nat) : S24 (dec24 a b c) := by
  unfold S24 dec24 toS24; omega

theorem vec3_eq {α} (v : Vector α 3) : v = #v[v[0], v[1], v[2]] := by
  ext i hi
  rcases i with _ | _ | _ | i <;> first | rfl | omega

theorem vec6_eq {α} (v : Vector α 6) : v = #v[v[0], v[1], v[2], v[3], v[4], v[5]] := by
  ext i hi
  rcases i with _ | _ | _ | _ | _ | _ | i <;> first | rfl | omega

theorem image_eq (s : Settings) : s.image =
    [byte0 s.k[0].kp, byte1 s.k[0].kp, byte2 s.k[0].kp, byte0 s.k[0].ki, byte1 s.k[0].ki,
     byte2 s.k[0].ki, byte0 s.k[0].kd, byte1 s.k[0].kd, byte2 s.k[0].kd, byte0 s.k[0].decay,
     byte1 s.k[0].decay, byte2 s.k[0].decay, byte0 s.k[1].kp, byte1 s.k[1].kp,
     byte2 s.k[1].kp, byte0 s.k[1].ki, byte1 s.k[1].ki, byte2 s.k[1].ki, byte0 s.k[1].kd,
     byte1 s.k[1].kd, byte2 s.k[1].kd, byte0 s.k[1].decay, byte1 s.k[1].decay,
     byte2 s.k[1].decay, byte0 s.k[2].kp, byte1 s.k[2].kp, byte2 s.k[2].kp, byte0 s.k[2].ki,
     byte1 s.k[2].ki, byte2 s.k[2].ki, byte0 s.k[2].kd, byte1 s.k[2].kd, byte2 s.k[2].kd,
     byte0 s.k[2].decay, byte1 s.k[2].decay, byte2 s.k[2].decay, byte0 s.idleSp,
     byte1 s.idleSp, byte2 s.idleSp, byte0 s.sp[0], byte1 s.sp[0], byte2 s.sp[0],
     byte0 s.sp[1], byte1 s.sp[1], byte2 s.sp[1], byte0 s.sp[2], byte1 s.sp[2], byte2 s.sp[2],
     byte0 s.sp[3], byte1 s.sp[3], byte2 s.sp[3], byte0 s.sp[4], byte1 s.sp[4], byte2 s.sp[4],
     byte0 s.sp[5], byte1 s.sp[5], byte2 s.sp[5], s.active % 256, byte0 s.adj, byte1 s.adj,
     byte2 s.adj, s.res0 % 256, s.res1 % 256, s.serial % 256] := by
  simp only [Settings.image, encK, enc24, List.cons_append, List.nil_append]

theorem image_length (s : Settings) : s.image.length = 64 := by
  simp [Settings.image, encK, enc24]

/-- byte `o` of the image -/
def img (s : Settings) (o : Nat) : Nat := s.image.getD o 0

theorem image_get? (s : Settings) {o : Nat} (h : o < 64) : s.image[o]? = some (img s o) := by
  have : o < s.image.length := by rw [image_length]; exact h
  simp [img, List.getD, this]

theorem ofBytes_list
    (b0 b1 b2 b3 b4 b5 b6 b7 b8 b9 b10 b11 b12 b13 b14 b15 b16 b17 b18 b19 b20 b21 b22 b23 b24
    b25 b26 b27 b28 b29 b30 b31 b32 b33 b34 b35 b36 b37 b38 b39 b40 b41 b42 b43 b44 b45 b46 b47
    b48 b49 b50 b51 b52 b53 b54 b55 b56 b57 b58 b59 b60 b61 b62 b63 : Nat) :
    Settings.ofBytes (fun o => List.getD
      [b0, b1, b2, b3, b4, b5, b6, b7, b8, b9, b10, b11, b12, b13, b14, b15, b16, b17, b18, b19,
      b20, b21, b22, b23, b24, b25, b26, b27, b28, b29, b30, b31, b32, b33, b34, b35, b36, b37,
      b38, b39, b40, b41, b42, b43, b44, b45, b46, b47, b48, b49, b50, b51, b52, b53, b54, b55,
      b56, b57, b58, b59, b60, b61, b62, b63] o 0) =
      { k := #v[⟨dec24 b0 b1 b2, dec24 b3 b4 b5, dec24 b6 b7 b8, dec24 b9 b10 b11⟩,
          ⟨dec24 b12 b13 b14, dec24 b15 b16 b17, dec24 b18 b19 b20, dec24 b21 b22 b23⟩,
          ⟨dec24 b24 b25 b26, dec24 b27 b28 b29, dec24 b30 b31 b32, dec24 b33 b34 b35⟩],
        idleSp := dec24 b36 b37 b38,
        sp := #v[dec24 b39 b40 b41, dec24 b42 b43 b44, dec24 b45 b46 b47,
          dec24 b48 b49 b50, dec24 b51 b52 b53, dec24 b54 b55 b56],
        active := b57, adj := dec24 b58 b59 b60, res0 := b61, res1 := b62, serial := b63 } := rfl

theorem ofBytes_img {s : Settings} (h : s.Wf) : Settings.ofBytes (img s) = s := by
  have k0 := h.k 0 (by omega)
  have k1 := h.k 1 (by omega)
  have k2 := h.k 2 (by omega)
  have s0 := h.sp 0 (by omega)
  have s1 := h.sp 1 (by omega)
  have s2 := h.sp 2 (by omega)
  have s3 := h.sp 3 (by omega)
  have s4 := h.sp 4 (by omega)
  have s5 := h.sp 5 (by omega)
  have ha := h.active
  have hr0 := h.res0
  have hr1 := h.res1
  have hs := h.serial
  have hi := h.idleSp
  have hj := h.adj
  obtain ⟨k, idle, sp, act, adj, r0, r1, ser⟩ := s
  simp only at *
  conv => rhs; rw [vec3_eq k, vec6_eq sp]
  have he : img ⟨k, idle, sp, act, adj, r0, r1, ser⟩ = fun o => List.getD
      (Settings.image ⟨k, idle, sp, act, adj, r0, r1, ser⟩) o 0 := rfl
  rw [he, image_eq, ofBytes_list]
  rw [dec_enc24 k0.1, dec_enc24 k0.2.1, dec_enc24 k0.2.2.1, dec_enc24 k0.2.2.2,
    dec_enc24 k1.1, dec_enc24 k1.2.1, dec_enc24 k1.2.2.1, dec_enc24 k1.2.2.2,
    dec_enc24 k2.1, dec_enc24 k2.2.1, dec_enc24 k2.2.2.1, dec_enc24 k2.2.2.2,
    dec_enc24 s0, dec_enc24 s1, dec_enc24 s2, dec_enc24 s3, dec_enc24 s4, dec_enc24 s5,
    dec_enc24 hi, dec_enc24 hj, Nat.mod_eq_of_lt ha, Nat.mod_eq_of_lt hr0, Nat.mod_eq_of_lt hr1,
    Nat.mod_eq_of_lt hs]

theorem dec24At_congr {b b' : Nat → Nat} (h : ∀ o, o < 64 → b o = b' o) {o : Nat}
    (ho : o + 2 < 64) : dec24At b o = dec24At b' o := by
  unfold dec24At
  rw [h o (by omega), h (o + 1) (by omega), h (o + 2) (by omega)]

theorem decKAt_congr {b b' : Nat → Nat} (h : ∀ o, o < 64 → b o = b' o) {o : Nat}
    (ho : o + 11 < 64) : decKAt b o = decKAt b' o := by
  unfold decKAt
  rw [dec24At_congr h (by omega), dec24At_congr h (by omega), dec24At_congr h (by omega),
    dec24At_congr h (by omega)]

theorem dec24At_range (b : Nat → Nat) (o : Nat) : S24 (dec24At b o) := by
  unfold dec24At; exact dec24_range _ _ _

/-- every member is in the range of int24_t -/
def PidK.InRange (k : PidK) : Prop := S24 k.kp ∧ S24 k.ki ∧ S24 k.kd ∧ S24 k.decay

theorem decKAt_range (b : Nat → Nat) (o : Nat) : (decKAt b o).InRange :=
  ⟨dec24At_range _ _, dec24At_range _ _, dec24At_range _ _, dec24At_range _ _⟩

attribute [local irreducible] dec24At decKAt

/-- `struct settings` from its members -/
def mkS (k0 k1 k2 : PidK) (i s0 s1 s2 s3 s4 s5 a : Int) (n r0 r1 ser : Nat) : Settings :=
  { k := #v[k0, k1, k2], idleSp := i, sp := #v[s0, s1, s2, s3, s4, s5], active := n, adj := a,
    res0 := r0, res1 := r1, serial := ser }

theorem ofBytes_congr {b b' : Nat → Nat} (h : ∀ o, o < 64 → b o = b' o) :
    Settings.ofBytes b = Settings.ofBytes b' := by
  have k0 : decKAt b 0 = decKAt b' 0 := decKAt_congr h (by omega)
  have k12 : decKAt b 12 = decKAt b' 12 := decKAt_congr h (by omega)
  have k24 : decKAt b 24 = decKAt b' 24 := decKAt_congr h (by omega)
  have d36 : dec24At b 36 = dec24At b' 36 := dec24At_congr h (by omega)
  have d39 : dec24At b 39 = dec24At b' 39 := dec24At_congr h (by omega)
  have d42 : dec24At b 42 = dec24At b' 42 := dec24At_congr h (by omega)
  have d45 : dec24At b 45 = dec24At b' 45 := dec24At_congr h (by omega)
  have d48 : dec24At b 48 = dec24At b' 48 := dec24At_congr h (by omega)
  have d51 : dec24At b 51 = dec24At b' 51 := dec24At_congr h (by omega)
  have d54 : dec24At b 54 = dec24At b' 54 := dec24At_congr h (by omega)
  have d58 : dec24At b 58 = dec24At b' 58 := dec24At_congr h (by omega)
  have b57 : b 57 = b' 57 := h 57 (by omega)
  have b61 : b 61 = b' 61 := h 61 (by omega)
  have b62 : b 62 = b' 62 := h 62 (by omega)
  have b63 : b 63 = b' 63 := h 63 (by omega)
  show mkS (decKAt b 0) (decKAt b 12) (decKAt b 24) (dec24At b 36) (dec24At b 39) (dec24At b 42)
    (dec24At b 45) (dec24At b 48) (dec24At b 51) (dec24At b 54) (dec24At b 58) (b 57) (b 61) (b 62)
    (b 63) = mkS _ _ _ _ _ _ _ _ _ _ _ _ _ _ _
  rw [k0, k12, k24, d36, d39, d42, d45, d48, d51, d54, d58, b57, b61, b62, b63]

theorem mkS_wf {k0 k1 k2 : PidK} {i s0 s1 s2 s3 s4 s5 a : Int} {n r0 r1 ser : Nat}
    (hk0 : k0.InRange) (hk1 : k1.InRange) (hk2 : k2.InRange) (hi : S24 i) (h0 : S24 s0)
    (h1 : S24 s1) (h2 : S24 s2) (h3 : S24 s3) (h4 : S24 s4) (h5 : S24 s5) (ha : S24 a)
    (hn : n < 256) (hr0 : r0 < 256) (hr1 : r1 < 256) (hs : ser < 256) :
    (mkS k0 k1 k2 i s0 s1 s2 s3 s4 s5 a n r0 r1 ser).Wf := by
  refine ⟨?_, hi, ?_, hn, ha, hr0, hr1, hs⟩
  · intro j hj
    rcases j with _ | _ | _ | j
    · exact hk0
    · exact hk1
    · exact hk2
    · omega
  · intro j hj
    rcases j with _ | _ | _ | _ | _ | _ | j
    · exact h0
    · exact h1
    · exact h2
    · exact h3
    · exact h4
    · exact h5
    · omega

theorem ofBytes_eq (b : Nat → Nat) : Settings.ofBytes b =
    mkS (decKAt b 0) (decKAt b 12) (decKAt b 24) (dec24At b 36) (dec24At b 39) (dec24At b 42)
      (dec24At b 45) (dec24At b 48) (dec24At b 51) (dec24At b 54) (dec24At b 58) (b 57) (b 61) (b 62)
      (b 63) := rfl

theorem ofBytes_wf {b : Nat → Nat} (h : ∀ o, o < 64 → b o < 256) : (Settings.ofBytes b).Wf := by
  rw [ofBytes_eq]
  exact mkS_wf (decKAt_range b 0) (decKAt_range b 12) (decKAt_range b 24) (dec24At_range b 36)
    (dec24At_range b 39) (dec24At_range b 42) (dec24At_range b 45) (dec24At_range b 48)
    (dec24At_range b 51) (dec24At_range b 54) (dec24At_range b 58) (h 57 (by omega))
    (h 61 (by omega)) (h 62 (by omega)) (h 63 (by omega))

theorem image_lt (s : Settings) : ∀ y ∈ s.image, y < 256 := by
  have h24 : ∀ x : Int, ∀ y ∈ enc24 x, y < 256 := by
    intro x y hy
    simp only [enc24, byte0, byte1, byte2, List.mem_cons, List.not_mem_nil, or_false] at hy
    omega
  have hK : ∀ k : PidK, ∀ y ∈ encK k, y < 256 := by
    intro k y hy
    simp only [encK, List.mem_append] at hy
    rcases hy with ((h | h) | h) | h <;> exact h24 _ _ h
  intro y hy
  simp only [Settings.image, List.mem_append] at hy
  rcases hy with ((((((((((((hy | hy) | hy) | hy) | hy) | hy) | hy) | hy) | hy) | hy) | hy) | hy) | hy)
  · exact hK _ _ hy
  · exact hK _ _ hy
  · exact hK _ _ hy
  · exact h24 _ _ hy
  · exact h24 _ _ hy
  · exact h24 _ _ hy
  · exact h24 _ _ hy
  · exact h24 _ _ hy
  · exact h24 _ _ hy
  · exact h24 _ _ hy
  · simp only [List.mem_cons, List.not_mem_nil, or_false] at hy; omega
  · exact h24 _ _ hy
  · simp only [List.mem_cons, List.not_mem_nil, or_false] at hy; omega

theorem img_lt {s : Settings} (o : Nat) : img s o < 256 := by
  by_cases h : o < s.image.length
  · rw [img, List.getD_eq_getElem?_getD, List.getElem?_eq_getElem h]
    exact image_lt s _ (List.getElem_mem h)
  · rw [img, List.getD_eq_getElem?_getD, List.getElem?_eq_none (by omega)]
    decide

/-- settings that agree in everything but the serial number have the same first 63 bytes -/
theorem img_congr {a b : Settings} (h : { a with serial := 0 } = { b with serial := 0 })
    {o : Nat} (ho : o < 63) : img a o = img b o := by
  obtain ⟨k, idle, sp, act, adj, r0, r1, ser⟩ := a
  obtain ⟨k', idle', sp', act', adj', r0', r1', ser'⟩ := b
  simp only [Settings.mk.injEq, and_true] at h
  obtain ⟨rfl, rfl, rfl, rfl, rfl, rfl, rfl⟩ := h
  have hp : ∀ (l : List Nat) (x : Nat), l.length = 63 → (l ++ [x]).getD o 0 = l.getD o 0 := by
    intro l x hl
    rw [List.getD_eq_getElem?_getD, List.getElem?_append_left (by omega),
      List.getD_eq_getElem?_getD]
  have e : ∀ (l : List Nat) (a b c : Nat), l ++ [a, b, c] = (l ++ [a, b]) ++ [c] := by simp
  simp only [img, Settings.image]
  rw [e, e, hp, hp]
  all_goals simp [encK, enc24]

theorem img_serial {s : Settings} (h : s.serial < 256) : img s 63 = s.serial := by
  rw [img, image_eq]
  simp only [List.getD_cons_succ, List.getD_cons_zero]
  exact Nat.mod_eq_of_lt h

/-- The serial numbers `S` of the `N` slots when slot `j`, serial `κ`, is the newest one:
    they count up to slot `j`, and the count does not go on after it. -/
structure RingInv (N : Nat) (S : Nat → Nat) (j κ : Nat) : Prop where
  hj : j < N
  hκ : κ < 256
  upto : ∀ i, i ≤ j → S i = (κ + 256 * 256 - (j - i)) % 256
  after : ∀ m, j < m → m < N → S m ≠ (κ + (m - j)) % 256

theorem RingInv.congr {N S S' j κ} (h : RingInv N S j κ) (e : ∀ i, i < N → S' i = S i) :
    RingInv N S' j κ := by
  refine ⟨h.hj, h.hκ, fun i hi => ?_, fun m h1 h2 => ?_⟩
  · rw [e i (by have := h.hj; omega)]; exact h.upto i hi
  · rw [e m h2]; exact h.after m h1 h2

/-- The slot after the newest one gets an arbitrary serial number `v`: either it counts as the
    newest one, or the newest one stays what it was. -/
theorem RingInv.write {N S j κ} (h : RingInv N S j κ) (hN : 2 ≤ N) (hN' : N < 250) {v : Nat}
    (hv : v < 256) :
    let j' := ringNext j (N - 1)
    let S' := fun i => if i = j' then v else S i
    RingInv N S' j' v ∨ RingInv N S' j κ := by
  obtain ⟨hj, hκ, hu, ha⟩ := h
  intro j' S'
  have hj' : j' = if j + 1 < N then j + 1 else 0 := by
    simp only [j', ringNext]; split <;> split <;> omega
  by_cases hc : j + 1 < N
  · rw [if_pos hc] at hj'
    by_cases hv' : v = (κ + 1) % 256
    · left
      refine ⟨by omega, hv, ?_, ?_⟩
      · intro i hi
        by_cases hi' : i = j'
        · simp only [S', hi', if_true]; omega
        · simp only [S', if_neg hi']
          have := hu i (by omega)
          omega
      · intro m h1 h2
        simp only [S', if_neg (show m ≠ j' by omega)]
        have := ha m (by omega) h2
        omega
    · right
      refine ⟨hj, hκ, ?_, ?_⟩
      · intro i hi
        simp only [S', if_neg (show i ≠ j' by omega)]
        exact hu i hi
      · intro m h1 h2
        by_cases hm : m = j'
        · simp only [S', if_pos hm]
          rw [show m - j = 1 by omega]; exact hv'
        · simp only [S', if_neg hm]
          exact ha m h1 h2
  · rw [if_neg hc] at hj'
    by_cases hv' : v = (κ + 256 * 256 - j) % 256
    · right
      refine ⟨hj, hκ, ?_, fun m h1 h2 => by omega⟩
      intro i hi
      by_cases hi' : i = j'
      · simp only [S', if_pos hi']; rw [show i = 0 by omega]; simpa using hv'
      · simp only [S', if_neg hi']; exact hu i hi
    · left
      refine ⟨by omega, hv, ?_, ?_⟩
      · intro i hi
        simp only [S', if_pos (show i = j' by omega)]
        omega
      · intro m h1 h2
        simp only [S', if_neg (show m ≠ j' by omega)]
        have := hu m (by omega)
        omega

/-- The slot after the newest one gets the next serial number: it is the newest one. -/
theorem RingInv.store {N S j κ} (h : RingInv N S j κ) (hN : 2 ≤ N) (hN' : N < 250) :
    let j' := ringNext j (N - 1)
    RingInv N (fun i => if i = j' then (κ + 1) % 256 else S i) j' ((κ + 1) % 256) := by
  intro j'
  have hj' : j' = if j + 1 < N then j + 1 else 0 := by
    have := h.hj
    simp only [j', ringNext]; split <;> split <;> omega
  obtain ⟨hj, hκ, hu, ha⟩ := h
  refine ⟨by split at hj' <;> omega, by omega, ?_, ?_⟩
  · intro i hi
    by_cases hi' : i = j'
    · simp only [hi', if_true]; omega
    · simp only [if_neg hi']
      split at hj'
      · have := hu i (by omega)
        omega
      · omega
  · intro m h1 h2
    simp only [if_neg (show m ≠ j' by omega)]
    split at hj'
    · have := ha m (by omega) h2
      omega
    · have := hu m (by omega)
      omega

theorem nrEe_ring {c : Conf} (h : c.eering = true) :
    c.nrEe * 64 = c.e2size ∧ 2 ≤ c.nrEe ∧ c.nrEe < 250 := by
  unfold Conf.nrEe Conf.e2size
  cases c.bigEe <;> simp [h]

theorem nrEe_slot {c : Conf} {i o : Nat} (hi : i < c.nrEe) (ho : o < 64) :
    (i * 64 + o) % c.e2size = i * 64 + o := by
  apply Nat.mod_eq_of_lt
  unfold Conf.nrEe at hi
  unfold Conf.e2size at *
  cases hb : c.bigEe <;> cases he : c.eering <;> simp [hb, he] at * <;> omega

/-- serial number of slot `i` -/
def serialAt (ee : Nat → Nat) (i : Nat) : Nat := ee (i * 64 + 63)

theorem eeScan_ring {c : Conf} (hc : c.eering = true) {ee : Nat → Nat} {j κ : Nat}
    (h : RingInv c.nrEe (serialAt ee) j κ) :
    ∀ d i fuel, i + d = j → d < fuel → eeScan c ee fuel i (serialAt ee i) = some j := by
  obtain ⟨hsz, hN, hN'⟩ := nrEe_ring hc
  obtain ⟨hj, hκ, hu, ha⟩ := h
  intro d
  induction d with
  | zero =>
    intro i fuel hi hf
    obtain ⟨f, rfl⟩ : ∃ f, fuel = f + 1 := ⟨fuel - 1, by omega⟩
    have hij : i = j := by omega
    subst hij
    have hn : ringNext i (c.nrEe + 1) = i + 1 := by unfold ringNext; simp only []; split <;> omega
    have hne : eeReadByte c ee ((i + 1) * 64 + 63) ≠ (serialAt ee i + 1) % 256 := by
      have h0 := hu i (Nat.le_refl _)
      by_cases hl : i + 1 < c.nrEe
      · have := ha (i + 1) (by omega) hl
        rw [eeReadByte, nrEe_slot hl (by omega)]
        unfold serialAt at *
        omega
      · have hw : ((i + 1) * 64 + 63) % c.e2size = 63 := by
          rw [← hsz, show (i + 1) * 64 + 63 = 63 + c.nrEe * 64 by omega, Nat.add_mod_right,
            Nat.mod_eq_of_lt (by omega)]
        have h1 := hu 0 (by omega)
        rw [eeReadByte, hw]
        unfold serialAt at *
        simp only [Nat.zero_mul, Nat.zero_add] at h1
        omega
    simp only [eeScan, hn, ne_eq, hne, not_false_eq_true, if_true]
  | succ d ih =>
    intro i fuel hi hf
    obtain ⟨f, rfl⟩ : ∃ f, fuel = f + 1 := ⟨fuel - 1, by omega⟩
    have hn : ringNext i (c.nrEe + 1) = i + 1 := by unfold ringNext; simp only []; split <;> omega
    have he : eeReadByte c ee ((i + 1) * 64 + 63) = serialAt ee (i + 1) := by
      rw [eeReadByte, nrEe_slot (by omega) (by omega)]; rfl
    have hs : serialAt ee (i + 1) = (serialAt ee i + 1) % 256 := by
      have h1 := hu i (by omega)
      have h2 := hu (i + 1) (by omega)
      omega
    have := ih (i + 1) f (by omega) (by omega)
    simp only [eeScan, hn, he, ne_eq, hs, not_true_eq_false, if_false, Nat.add_eq_zero_iff,
      Nat.one_ne_zero, and_false, not_false_eq_true, if_true]
    rw [← hs]
    exact this

theorem eeFind_ring {c : Conf} (hc : c.eering = true) {ee : Nat → Nat} {j κ : Nat}
    (h : RingInv c.nrEe (serialAt ee) j κ) : eeFind c ee = some j := by
  have hj := h.hj
  have h0 : eeReadByte c ee 63 = serialAt ee 0 := by
    have := nrEe_slot (c := c) (i := 0) (o := 63) (by have := nrEe_ring hc; omega) (by omega)
    simp only [Nat.zero_mul, Nat.zero_add] at this
    rw [eeReadByte, this]; simp [serialAt]
  rw [eeFind, if_pos hc, h0]
  exact eeScan_ring hc h j 0 _ (by omega) (by omega)

theorem eeRead_slot {c : Conf} {ee : Nat → Nat} {i : Nat} (hi : i < c.nrEe) {m : Settings}
    (hm : m.Wf) (h : ∀ o, o < 64 → ee (i * 64 + o) = img m o) : eeReadSettings c ee i = m := by
  rw [← ofBytes_img hm]
  have : ∀ o, o < 64 → eeReadByte c ee (i * 64 + o) = img m o := by
    intro o ho
    rw [eeReadByte, nrEe_slot hi ho, h o ho]
  exact ofBytes_congr this

end Verif
