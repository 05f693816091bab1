import Verif.Lemmas.Dds
import Verif.Props.Dxt
/-! DDS files without compression. -/
set_option autoImplicit false
namespace DevIL.Dds

open DevIL.Detect DevIL.DetectSpec DevIL.DdsSpec DevIL.Image DevIL.Games DevIL.GamesSpec

/-- The bits a mask selects. -/
theorem and_shift (v s n : Nat) : (v &&& (2 ^ n - 1) * 2 ^ s) >>> s = v / 2 ^ s % 2 ^ n := by
  rw [← Nat.shiftLeft_eq, Nat.shiftRight_and_distrib, Nat.shiftLeft_shiftRight, Nat.and_two_pow_sub_one_eq_mod, Nat.shiftRight_eq_div_pow]

theorem getBits_eq {mask s n : Nat} (h : Selects mask s n) (h1 : 1 ≤ n) (h8 : n ≤ 8) (hs : s + n ≤ 32) : getBits mask = (8 - n, s) := by
  have key : ∀ (n : Fin 9) (s : Fin 32), 1 ≤ n.val → s.val + n.val ≤ 32 → getBits ((2 ^ n.val - 1) * 2 ^ s.val) = (8 - n.val, s.val) := by
    decide +kernel
  rw [show mask = (2 ^ n - 1) * 2 ^ s from h]
  exact key ⟨n, by omega⟩ ⟨s, by omega⟩ h1 hs

theorem not_wide {mask s n : Nat} (h : Selects mask s n) (h8 : n ≤ 8) (hs : s + n ≤ 32) :
    mask ≠ 0x3FF00000 ∧ mask ≠ 0x3FF ∧ mask ≠ 0xFFFF := by
  have key : ∀ (n : Fin 9) (s : Fin 33), (2 ^ n.val - 1) * 2 ^ s.val ≠ 0x3FF00000 ∧ (2 ^ n.val - 1) * 2 ^ s.val ≠ 0x3FF ∧
      (2 ^ n.val - 1) * 2 ^ s.val ≠ 0xFFFF := by
    decide +kernel
  rw [show mask = (2 ^ n - 1) * 2 ^ s from h]
  exact key ⟨n, by omega⟩ ⟨s, by omega⟩

/-- The byte for a channel. -/
theorem channel_eq {v mask s n : Nat} (h : Selects mask s n) (h1 : 1 ≤ n) (h8 : n ≤ 8) (hs : s + n ≤ 32) :
    (channel v mask (getBits mask)).toNat = v / 2 ^ s % 2 ^ n * 2 ^ (8 - n) := by
  unfold channel
  rw [getBits_eq h h1 h8 hs]
  simp only
  rw [show mask = (2 ^ n - 1) * 2 ^ s from h, and_shift, Nat.shiftLeft_eq, UInt8.toNat_ofNat']
  refine Nat.mod_eq_of_lt ?_
  have : v / 2 ^ s % 2 ^ n < 2 ^ n := Nat.mod_lt _ (Nat.two_pow_pos n)
  calc v / 2 ^ s % 2 ^ n * 2 ^ (8 - n) < 2 ^ n * 2 ^ (8 - n) := Nat.mul_lt_mul_of_pos_right this (Nat.two_pow_pos _)
    _ = 2 ^ 8 := by rw [← Nat.pow_add]; congr 1; omega

theorem scaled_colour {n v : Nat} (h1 : 1 ≤ n) (h8 : n ≤ 8) (hv : v < 2 ^ n) : Scaled n v (v * 2 ^ (8 - n)) := by
  have key : ∀ (n : Fin 9), 1 ≤ n.val → ∀ v : Fin 256, v.val < 2 ^ n.val →
      (2 ^ n.val - 1) * (v.val * 2 ^ (8 - n.val)) ≤ 255 * v.val ∧ 255 * v.val < (2 ^ n.val - 1) * (v.val * 2 ^ (8 - n.val) + 2 ^ (8 - n.val)) := by
    decide +kernel
  have : 2 ^ n ≤ 2 ^ 8 := Nat.pow_le_pow_right (by decide) h8
  exact key ⟨n, by omega⟩ h1 ⟨v, by omega⟩ hv

theorem scaled_alpha {n v : Nat} {b : UInt8} (h1 : 1 ≤ n) (h8 : n ≤ 8) (hv : v < 2 ^ n) (hb : b.toNat = v * 2 ^ (8 - n)) :
    Scaled n v (fixAlpha (8 - n) b).toNat := by
  have key : ∀ (n : Fin 9), 1 ≤ n.val → ∀ v : Fin 256, v.val < 2 ^ n.val →
      (2 ^ n.val - 1) * (fixAlpha (8 - n.val) (UInt8.ofNat (v.val * 2 ^ (8 - n.val)))).toNat ≤ 255 * v.val ∧
      255 * v.val < (2 ^ n.val - 1) * ((fixAlpha (8 - n.val) (UInt8.ofNat (v.val * 2 ^ (8 - n.val)))).toNat + 2 ^ (8 - n.val)) := by
    decide +kernel
  have : 2 ^ n ≤ 2 ^ 8 := Nat.pow_le_pow_right (by decide) h8
  have e : b = UInt8.ofNat (v * 2 ^ (8 - n)) := by rw [← hb]; simp
  rw [e]
  exact key ⟨n, by omega⟩ h1 ⟨v, by omega⟩ hv

/-! ### Reading a pixel -/

theorem le_split (bs : List UInt8) (p a b : Nat) (h : p + a ≤ bs.length) : leAt bs p (a + b) = leAt bs p a + 256 ^ a * leAt bs (p + a) b := by
  unfold leAt
  rw [at_split]
  have key : ∀ (x y : List UInt8), le (x ++ y) = le x + 256 ^ x.length * le y := by
    intro x y
    induction x with
    | nil => simp [le]
    | cons u x ih =>
      show u.toNat + 256 * le (x ++ y) = u.toNat + 256 * le x + 256 ^ (x.length + 1) * le y
      rw [ih, Nat.pow_succ, Nat.mul_add]
      have : 256 * (256 ^ x.length * le y) = 256 ^ x.length * 256 * le y := by rw [← Nat.mul_assoc, Nat.mul_comm 256]
      omega
  rw [key, at_length]
  congr 3
  omega

theorem leAt_one {bs : List UInt8} {p : Nat} (h : p < bs.length) : leAt bs p 1 = bs[p].toNat := by
  unfold leAt at_
  rw [List.drop_eq_getElem_cons h]
  show bs[p].toNat + 256 * 0 = _
  omega

theorem rd_le {bs : List UInt8} {p : Nat} (h : p < bs.length) : ∃ b, rd bs p = .ok b ∧ b.toNat = leAt bs p 1 :=
  ⟨bs[p], rd_of_lt h, (leAt_one h).symm⟩

theorem word16_le {bs : List UInt8} {p : Nat} (h : p + 2 ≤ bs.length) : Dxt.word16 bs p = .ok (leAt bs p 2) := by
  have e := Dxt.word16_eq (comp := bs) (t := p) (o := 0) (by omega)
  rw [show p + 0 = p from rfl] at e
  rw [e, le_split bs p 1 1 (by omega), leAt_one (by omega), leAt_one (by omega)]
  unfold Dxt.w16 Dxt.at_
  rw [List.getD_eq_getElem?_getD, List.getD_eq_getElem?_getD, List.getElem?_eq_getElem (by omega : p + 0 < bs.length), List.getElem?_eq_getElem (by omega : p + (0 + 1) < bs.length)]
  rfl

theorem word24_le {bs : List UInt8} {p : Nat} (h : p + 3 ≤ bs.length) : Dxt.word24 bs p = .ok (leAt bs p 3) := by
  have e := Dxt.word24_eq (comp := bs) (t := p) (o := 0) (by omega)
  rw [show p + 0 = p from rfl] at e
  rw [e, le_split bs p 2 1 (by omega), le_split bs p 1 1 (by omega), leAt_one (by omega), leAt_one (by omega), leAt_one (by omega)]
  unfold Dxt.w24 Dxt.at_
  rw [List.getD_eq_getElem?_getD, List.getD_eq_getElem?_getD, List.getD_eq_getElem?_getD, List.getElem?_eq_getElem (by omega : p + 0 < bs.length),
    List.getElem?_eq_getElem (by omega : p + (0 + 1) < bs.length), List.getElem?_eq_getElem (by omega : p + (0 + 2) < bs.length)]
  rfl

theorem word32_le {bs : List UInt8} {p : Nat} (h : p + 4 ≤ bs.length) : Dxt.word32 bs p = .ok (leAt bs p 4) := by
  unfold Dxt.word32
  rw [word16_le (by omega), bind_ok, word16_le (by omega), bind_ok, le_split bs p 2 2 (by omega)]
  rfl

theorem read_pixel {comp : List UInt8} {bpp k N j old : Nat} (hs : Safe bpp k) (hl : comp.length = N * k) (hj : j < N) :
    ∃ v, readPixel comp (N * bpp - j * bpp) k (j * k) old = .ok v ∧ v % 256 ^ k = leAt comp (j * k) k := by
  have hr : N * bpp - j * bpp = (N - j) * bpp := (Nat.sub_mul N j bpp).symm
  have hk : j * k + (N - j) * k = N * k := by rw [← Nat.add_mul]; congr 1; omega
  have hm : ∀ n, leAt comp (j * k) n % 256 ^ n = leAt comp (j * k) n := fun n => Nat.mod_eq_of_lt (by
    unfold leAt
    refine Nat.lt_of_lt_of_le (le_lt _) (Nat.pow_le_pow_right (by decide) ?_)
    rw [at_length]; omega)
  have h4 : k ≤ 4 → j * k + 4 ≤ N * k → ∃ v, Dxt.word32 comp (j * k) = .ok v ∧ v % 256 ^ k = leAt comp (j * k) k := fun hk4 hle =>
    ⟨_, word32_le (by omega), by
      rw [show leAt comp (j * k) 4 = leAt comp (j * k) (k + (4 - k)) by congr 1; omega, le_split _ _ _ _ (by omega), Nat.add_mul_mod_self_left, hm]⟩
  unfold readPixel
  rw [hr]
  rcases hs with ⟨rfl, rfl⟩ | ⟨rfl, hk'⟩ | ⟨rfl, hk'⟩ | ⟨rfl, hk'⟩
  · rw [if_neg (by omega)]
    exact h4 (by decide) (by omega)
  · by_cases h : (N - j) * 3 < 4
    · rw [if_pos h]
      rcases hk' with rfl | rfl
      · rw [if_neg (by decide), if_neg (by decide), if_pos rfl]
        exact ⟨_, word16_le (by omega), hm 2⟩
      · rw [if_pos rfl]
        exact ⟨_, word24_le (by omega), hm 3⟩
    · rw [if_neg h]
      rcases hk' with rfl | rfl
      · exact h4 (by decide) (by omega)
      · exact h4 (by decide) (by omega)
  · by_cases h : (N - j) * 2 < 4
    · rw [if_pos h]
      rcases hk' with rfl | rfl
      · rw [if_neg (by decide), if_neg (by decide), if_pos rfl]
        exact ⟨_, word16_le (by omega), hm 2⟩
      · rw [if_pos rfl]
        exact ⟨_, word24_le (by omega), hm 3⟩
    · rw [if_neg h]
      rcases hk' with rfl | rfl
      · exact h4 (by decide) (by omega)
      · exact h4 (by decide) (by omega)
  · by_cases h : (N - j) * 1 < 4
    · rw [if_pos h]
      rcases hk' with rfl | rfl | rfl
      · rw [if_neg (by decide), if_pos rfl]
        obtain ⟨b, e, hb⟩ := rd_le (bs := comp) (p := j * 1) (by omega)
        refine ⟨b.toNat, by rw [e, bind_ok]; rfl, ?_⟩
        rw [hb]; exact hm 1
      · rw [if_neg (by decide), if_neg (by decide), if_pos rfl]
        exact ⟨_, word16_le (by omega), hm 2⟩
      · rw [if_pos rfl]
        exact ⟨_, word24_le (by omega), hm 3⟩
    · rw [if_neg h]
      rcases hk' with rfl | rfl | rfl
      · exact h4 (by decide) (by omega)
      · exact h4 (by decide) (by omega)
      · exact h4 (by decide) (by omega)

/-! ### Storing a pixel -/

/-- Which mask component `c` of an image with `bpp` components has. -/
def maskOf (h : Hd) (bpp c : Nat) : Nat :=
  if c = 0 then h.rmask else if bpp = 2 then h.amask else if c = 1 then h.gmask else if c = 2 then h.bmask else h.amask

/-- The byte stored. -/
def valueOf (h : Hd) (bpp c v : Nat) : UInt8 :=
  let b := channel v (maskOf h bpp c) (getBits (maskOf h bpp c))
  if (bpp = 4 ∧ c = 3) ∨ (bpp = 2 ∧ c = 1) then fixAlpha (getBits (maskOf h bpp c)).1 b else b

theorem put_pixel {h : Hd} {bpp v i : Nat} {d : List UInt8} (hb : 1 ≤ bpp ∧ bpp ≤ 4) (hi : i + bpp ≤ d.length)
    (h2 : bpp = 2 → 7 ≤ (getBits h.amask).1 ∨ (getBits h.amask).1 < 4) :
    ∃ d', putPixel h bpp v i d = .ok d' ∧ d'.length = d.length ∧ (∀ c, c < bpp → d'[i + c]? = some (valueOf h bpp c v)) ∧
      ∀ t, (t < i ∨ i + bpp ≤ t) → d'[t]? = d[t]? := by
  have hw : ∀ (d : List UInt8) (t : Nat) (a : UInt8), t < d.length → wr d t a = .ok (d.set t a) := fun d t a h => wr_of_lt h
  have hg : ∀ (d : List UInt8) (t u : Nat) (a : UInt8), t < d.length → (d.set t a)[u]? = if t = u then some a else d[u]? := by
    intro d t u a ht
    by_cases e : t = u
    · subst e; rw [if_pos rfl, List.getElem?_set_self ht]
    · rw [if_neg e, List.getElem?_set_ne e]
  unfold putPixel
  rw [hw _ _ _ (by omega), bind_ok]
  obtain rfl | rfl | rfl | rfl : bpp = 1 ∨ bpp = 2 ∨ bpp = 3 ∨ bpp = 4 := by omega
  · rw [if_neg (by decide), if_neg (by decide)]
    refine ⟨_, rfl, by simp, fun c hc => ?_, fun t ht => ?_⟩
    · obtain rfl : c = 0 := by omega
      rw [hg _ _ _ _ (by omega), if_pos (by omega)]
      rfl
    · rw [hg _ _ _ _ (by omega), if_neg (by omega)]
  · rw [if_neg (by decide), if_pos rfl]
    unfold putAlpha2
    simp only []
    rw [hw _ _ _ (by simp; omega), bind_ok]
    rcases h2 rfl with h2 | h2
    · rw [if_pos h2]
      have e : rd (((d.set i (channel v h.rmask (getBits h.rmask))).set (i + 1) (channel v h.amask (getBits h.amask)))) (i + 1)
          = .ok (channel v h.amask (getBits h.amask)) := rd_eq_ok.mpr (by rw [hg _ _ _ _ (by simp; omega), if_pos rfl])
      rw [e, bind_ok, hw _ _ _ (by simp; omega)]
      refine ⟨_, rfl, by simp, fun c hc => ?_, fun t ht => ?_⟩
      · obtain rfl | rfl : c = 0 ∨ c = 1 := by omega
        · rw [hg _ _ _ _ (by simp; omega), if_neg (by omega), hg _ _ _ _ (by simp; omega), if_neg (by omega), hg _ _ _ _ (by omega), if_pos (by omega)]
          rfl
        · rw [hg _ _ _ _ (by simp; omega), if_pos rfl]
          have a1 : (getBits h.amask).1 ≥ 7 := h2
          simp [valueOf, maskOf, fixAlpha, a1]
      · rw [hg _ _ _ _ (by simp; omega), if_neg (by omega), hg _ _ _ _ (by simp; omega), if_neg (by omega), hg _ _ _ _ (by omega), if_neg (by omega)]
    · rw [if_neg (by omega), if_neg (by omega)]
      refine ⟨_, rfl, by simp, fun c hc => ?_, fun t ht => ?_⟩
      · obtain rfl | rfl : c = 0 ∨ c = 1 := by omega
        · rw [hg _ _ _ _ (by simp; omega), if_neg (by omega), hg _ _ _ _ (by omega), if_pos (by omega)]
          rfl
        · rw [hg _ _ _ _ (by simp; omega), if_pos rfl]
          have a1 : ¬ (getBits h.amask).1 ≥ 7 := by omega
          have a2 : ¬ (getBits h.amask).1 ≥ 4 := by omega
          simp [valueOf, maskOf, fixAlpha, a1, a2]
      · rw [hg _ _ _ _ (by simp; omega), if_neg (by omega), hg _ _ _ _ (by omega), if_neg (by omega)]
  · rw [if_pos (by decide), hw _ _ _ (by simp; omega), bind_ok, hw _ _ _ (by simp; omega), bind_ok, if_neg (by decide)]
    refine ⟨_, rfl, by simp, fun c hc => ?_, fun t ht => ?_⟩
    · obtain rfl | rfl | rfl : c = 0 ∨ c = 1 ∨ c = 2 := by omega
      · rw [hg _ _ _ _ (by simp; omega), if_neg (by omega), hg _ _ _ _ (by simp; omega), if_neg (by omega), hg _ _ _ _ (by omega), if_pos (by omega)]
        rfl
      · rw [hg _ _ _ _ (by simp; omega), if_neg (by omega), hg _ _ _ _ (by simp; omega), if_pos rfl]
        rfl
      · rw [hg _ _ _ _ (by simp; omega), if_pos rfl]
        rfl
    · rw [hg _ _ _ _ (by simp; omega), if_neg (by omega), hg _ _ _ _ (by simp; omega), if_neg (by omega), hg _ _ _ _ (by omega), if_neg (by omega)]
  · rw [if_pos (by decide), hw _ _ _ (by simp; omega), bind_ok, hw _ _ _ (by simp; omega), bind_ok, if_pos rfl, hw _ _ _ (by simp; omega)]
    refine ⟨_, rfl, by simp, fun c hc => ?_, fun t ht => ?_⟩
    · obtain rfl | rfl | rfl | rfl : c = 0 ∨ c = 1 ∨ c = 2 ∨ c = 3 := by omega
      · rw [hg _ _ _ _ (by simp; omega), if_neg (by omega), hg _ _ _ _ (by simp; omega), if_neg (by omega), hg _ _ _ _ (by simp; omega), if_neg (by omega), hg _ _ _ _ (by omega), if_pos (by omega)]
        rfl
      · rw [hg _ _ _ _ (by simp; omega), if_neg (by omega), hg _ _ _ _ (by simp; omega), if_neg (by omega), hg _ _ _ _ (by simp; omega), if_pos rfl]
        rfl
      · rw [hg _ _ _ _ (by simp; omega), if_neg (by omega), hg _ _ _ _ (by simp; omega), if_pos rfl]
        rfl
      · rw [hg _ _ _ _ (by simp; omega), if_pos rfl]
        rfl
    · rw [hg _ _ _ _ (by simp; omega), if_neg (by omega), hg _ _ _ _ (by simp; omega), if_neg (by omega), hg _ _ _ _ (by simp; omega), if_neg (by omega), hg _ _ _ _ (by omega), if_neg (by omega)]

/-- All the pixels. -/
theorem argb_loop {h : Hd} {m : Img} {comp : List UInt8} {N : Nat} (hs : Safe m.bpp (h.bits / 8)) (hm : m.size = N * m.bpp)
    (hd : m.data.length = m.size) (hc : comp.length = N * (h.bits / 8)) (h2 : m.bpp = 2 → 7 ≤ (getBits h.amask).1 ∨ (getBits h.amask).1 < 4) :
    ∃ r, argbLoop h m comp = .ok r ∧ r.1.length = m.size ∧ ∀ j c, j < N → c < m.bpp →
      ∃ v, v % 256 ^ (h.bits / 8) = leAt comp (j * (h.bits / 8)) (h.bits / 8) ∧ r.1[j * m.bpp + c]? = some (valueOf h m.bpp c v) := by
  have hb : 1 ≤ m.bpp ∧ m.bpp ≤ 4 := by rcases hs with h | h | h | h <;> omega
  unfold argbLoop
  rw [hm, forStep_mul (by omega)]
  have key := Holds.loop (n := N) (s := (m.data, 0, 0))
    (f := fun k s => do
      let v ← readPixel comp (N * m.bpp - k * m.bpp) (h.bits / 8) s.2.1 s.2.2
      let d ← putPixel h m.bpp v (k * m.bpp) s.1
      pure (d, s.2.1 + h.bits / 8, v))
    (fun j (s : List UInt8 × Nat × Nat) => s.1.length = m.size ∧ s.2.1 = j * (h.bits / 8) ∧ ∀ i c, i < j → c < m.bpp →
      ∃ v, v % 256 ^ (h.bits / 8) = leAt comp (i * (h.bits / 8)) (h.bits / 8) ∧ s.1[i * m.bpp + c]? = some (valueOf h m.bpp c v))
    ⟨hd, by simp, fun i _ h => absurd h (by omega)⟩ (fun j s hj hI => ?_)
  · obtain ⟨r, e, h1, -, h3⟩ := key
    exact ⟨r, e, by rw [← hm]; exact h1, h3⟩
  · obtain ⟨d, t, old⟩ := s
    obtain ⟨h1, rfl, h3⟩ := hI
    simp only at h1 h3 ⊢
    obtain ⟨v, e, hv⟩ := read_pixel (old := old) hs hc hj
    have hjb : j * m.bpp + m.bpp ≤ N * m.bpp := by
      have := Nat.mul_le_mul_right m.bpp hj
      rw [Nat.succ_mul] at this
      exact this
    obtain ⟨d', e', l', g1, g2⟩ := put_pixel (h := h) (v := v) (i := j * m.bpp) (d := d) hb (by omega) h2
    rw [e, bind_ok, e', bind_ok]
    refine Holds.pure ⟨l'.trans h1, by rw [Nat.add_mul, Nat.one_mul], fun i c hi hcb => ?_⟩
    by_cases hij : i = j
    · subst hij
      exact ⟨v, hv, g1 c hcb⟩
    · obtain ⟨v', a, b⟩ := h3 i c (by omega) hcb
      refine ⟨v', a, ?_⟩
      rw [g2 _ (.inl ?_)]
      · exact b
      · have := Nat.mul_le_mul_right m.bpp (show i + 1 ≤ j by omega)
        rw [Nat.succ_mul] at this
        omega

/-! ### The whole file -/

/-- The format in the file. -/
def pf (lum alpha : Bool) : PF := if lum then (if alpha then .lumA else .lum) else (if alpha then .argb else .rgb)

theorem plain_format {bs : List UInt8} {w h k : Nat} {lum alpha : Bool} (H : Header bs w h) (P : Plain bs lum alpha (8 * k)) (hk : k ≤ 4)
    (hwh : w * h < 2 ^ 27) : decodePixelFormat (hdOf bs) = (pf lum alpha, w * h * k) := by
  have e1 : (hdOf bs).width = w := H.width
  have e2 : (hdOf bs).height = h := H.height
  have e3 : (hdOf bs).bits = 8 * k := P.bits
  have hf : (hdOf bs).flags2 = leAt bs 80 4 := rfl
  have hle : w * h * k ≤ w * h * 4 := Nat.mul_le_mul_left _ hk
  unfold decodePixelFormat
  simp only [e1, e2, e3, hd_depth H, Nat.mul_one, hf]
  rw [u32_of_lt (show w * h < 4294967296 by omega), u32_of_lt (show w * h < 4294967296 by omega), if_neg, Nat.mul_div_cancel_left _ (by decide : 0 < 8),
    u32_of_lt (by omega)]
  · refine Prod.ext ?_ rfl
    have g1 : (leAt bs 80 4 &&& 0x20000 ≠ 0) ↔ lum = true := by rw [show 0x20000 = 2 ^ 17 from rfl, bit_and, P.lum]
    have g2 : (leAt bs 80 4 &&& 1 ≠ 0) ↔ alpha = true := by rw [show 1 = 2 ^ 0 from rfl, bit_and, P.alpha]
    simp only [g1, g2]
    rfl
  · have := (bit_not (leAt bs 80 4) 2).mpr P.code
    simpa using this

variable {σ : Type} {o : Ops σ} {At : σ → List UInt8 → Nat → Prop}

theorem field_mod (v k s n : Nat) (h : s + n ≤ 8 * k) : v % 256 ^ k / 2 ^ s % 2 ^ n = v / 2 ^ s % 2 ^ n := by
  have e : 256 ^ k = 2 ^ (8 * k) := by rw [Nat.pow_mul]
  rw [e]
  refine Nat.eq_of_testBit_eq (fun i => ?_)
  simp only [Nat.testBit_mod_two_pow, Nat.testBit_div_two_pow]
  by_cases hi : i < n
  · simp [hi]; omega
  · simp [hi]

theorem texN_eq (junk : Nat → UInt8) (w h k f : Nat) (d : List UInt8) :
    ({ texN junk w h 1 k f IL_UNSIGNED_BYTE with data := d } : Img) = { tex junk w h k f with data := d, origin := IL_ORIGIN_UPPER_LEFT } := rfl

theorem plain_load (L : Laws2 o At) (junk : Nat → UInt8) (cube : Hd → σ → C (Bool × List Img × σ)) (cur : Img) {t : σ} {bs : List UInt8} {w h k : Nat}
    {lum alpha : Bool} {s n : Nat → Nat} (hs : At t bs 0) (H : Header bs w h) (P : Plain bs lum alpha (8 * k)) (hk : Safe (components lum alpha) k)
    (hwh : w * h < 2 ^ 27) (M : Masks bs lum alpha k s n) (hsize : Declares bs (w * h * k) ∨ Pitch bs) :
    Holds (iLoadDdsInternal o junk cube cur t) (fun r => ((128 + w * h * k ≤ bs.length → r.1 = true ∧ ∃ m, ∃ q : Nat → Nat → Nat → UInt8, r.2.1 = [m] ∧
        Shows m w h (components lum alpha) (fmt lum alpha) (fun x y c => some (q x y c)) ∧ ∀ x y c, x < w → y < h → c < components lum alpha →
          Scaled (n (chan lum c)) (leAt bs (128 + (y * w + x) * k) k / 2 ^ s (chan lum c) % 2 ^ n (chan lum c)) (q x y c).toNat) ∧
      (bs.length < 128 + w * h * k → r.1 = false ∧ r.2.1 = [cur])) ∧ ∃ q, At r.2.2 bs q) := by
  have hk4 : 1 ≤ k ∧ k ≤ 4 := by unfold Safe at hk; rcases hk with h | h | h | h <;> omega
  have hw := H.w0
  have hh := H.h0
  have hle : w * h * k ≤ w * h * 4 := Nat.mul_le_mul_left _ hk4.2
  have hpos : 0 < w * h := Nat.mul_pos hw hh
  have hge : w * h ≤ w * h * k := Nat.le_mul_of_pos_right _ hk4.1
  have hww : w ≤ w * h := Nat.le_mul_of_pos_right w hh
  have hhh : h ≤ w * h := Nat.le_mul_of_pos_left h hw
  have hpf := plain_format H P hk4.2 hwh
  have hb : components lum alpha ≤ 4 ∧ 1 ≤ components lum alpha := by unfold components; split <;> split <;> decide
  have m0 := not_wide (M.sel 0 (by omega)) (M.eight 0 (by omega)) (by have := M.fits 0 (by omega); omega)
  have hc0 : chan lum 0 = 0 := by unfold chan; simp
  rw [hc0] at m0
  have n16 : ∀ fl li, has16 { hdOf bs with flags1 := fl, linear := li } = false := by
    intro fl li
    have e : (hdOf bs).rmask = mask bs 0 := rfl
    unfold has16
    simp [e, m0.1, m0.2.1]
  have n16' : has16 (hdOf bs) = false := n16 _ _
  have nw : ∀ fl li, wideLum { hdOf bs with flags1 := fl, linear := li } = false := by
    intro fl li
    have e : (hdOf bs).rmask = mask bs 0 := rfl
    unfold wideLum
    simp [e, m0.2.2]
  have nw' : wideLum (hdOf bs) = false := nw _ _
  have ik : imageKind (hdOf bs) (pf lum alpha) = (components lum alpha, fmt lum alpha, IL_UNSIGNED_BYTE) := by
    unfold pf imageKind components fmt
    cases lum <;> cases alpha <;> simp [n16', nw']
  have hfit : w * h * components lum alpha < 4294967296 := by
    have : w * h * components lum alpha ≤ w * h * 4 := Nat.mul_le_mul_left _ hb.1
    omega
  obtain ⟨-, -, -, f4, -, -, -, -, f9⟩ := tex_fields junk w h (components lum alpha) (fmt lum alpha) hw hh hb.2 hfit
  have ebits : (hdOf bs).bits / 8 = k := by rw [show (hdOf bs).bits = 8 * k from P.bits]; exact Nat.mul_div_cancel_left _ (by decide)
  have hcm : ∀ c, c < components lum alpha → maskOf (hdOf bs) (components lum alpha) c = mask bs (chan lum c) := by
    intro c hc
    unfold components at hc ⊢
    unfold maskOf chan
    cases lum <;> cases alpha <;> simp only [Bool.false_eq_true, if_true, if_false] at hc ⊢
    · obtain rfl | rfl | rfl : c = 0 ∨ c = 1 ∨ c = 2 := by omega
      all_goals rfl
    · obtain rfl | rfl | rfl | rfl : c = 0 ∨ c = 1 ∨ c = 2 ∨ c = 3 := by omega
      all_goals rfl
    · obtain rfl : c = 0 := by omega
      rfl
    · obtain rfl | rfl : c = 0 ∨ c = 1 := by omega
      all_goals rfl
  have main : 128 + w * h * k ≤ bs.length → ∃ p, (∀ fl li, ddsDecompress { hdOf bs with flags1 := fl, linear := li } (pf lum alpha) w h 1
      (texN junk w h 1 (components lum alpha) (fmt lum alpha) IL_UNSIGNED_BYTE) (at_ bs 128 (w * h * k)) = .ok (true, p)) ∧
      p.length = w * h * components lum alpha ∧ ∀ j c, j < w * h → c < components lum alpha →
        ∃ v, v % 256 ^ k = leAt bs (128 + j * k) k ∧ p[j * components lum alpha + c]? = some (valueOf (hdOf bs) (components lum alpha) c v) := by
    intro hl
    obtain ⟨r, e, l, g⟩ := argb_loop (h := hdOf bs) (m := texN junk w h 1 (components lum alpha) (fmt lum alpha) IL_UNSIGNED_BYTE)
      (comp := at_ bs 128 (w * h * k)) (N := w * h) (by rw [ebits]; exact hk) f9 (alloc_length _ _) (by rw [ebits, at_length]; omega) (by
        intro h2
        have h2 : components lum alpha = 2 := h2
        have hla : lum = true ∧ alpha = true := by
          unfold components at h2; cases lum <;> cases alpha <;> simp_all
        have h3 := M.two hla.1 hla.2
        have hc1 : chan lum 1 = 3 := by unfold chan; simp [hla.1]
        have hs1 := M.sel 1 (by omega)
        have hf1 := M.fits 1 (by omega)
        have h81 := M.eight 1 (by omega)
        have h11 := M.one 1 (by omega)
        rw [hc1] at hs1 hf1 h81 h11
        have : getBits (hdOf bs).amask = (8 - n 3, s 3) := getBits_eq hs1 h11 h81 (by omega)
        rw [this]
        simp only
        omega)
    rw [ebits] at g
    refine ⟨r.1, fun fl li => ?_, l.trans f9, fun j c hj hc => ?_⟩
    · have ea : decompressARGB { hdOf bs with flags1 := fl, linear := li } (pf lum alpha)
          (texN junk w h 1 (components lum alpha) (fmt lum alpha) IL_UNSIGNED_BYTE) (at_ bs 128 (w * h * k)) = .ok r.1 := by
        unfold decompressARGB
        rw [n16, nw]
        simp only [Bool.false_eq_true, and_false, if_false]
        show (·.1) <$> argbLoop (hdOf bs) _ _ = _
        rw [e]
        rfl
      unfold ddsDecompress pf
      unfold pf at ea
      cases lum <;> cases alpha <;> simp only [Bool.false_eq_true, if_true, if_false] at ea ⊢
      all_goals rw [ea, bind_ok]; rfl
    · obtain ⟨v, a, b⟩ := g j c hj hc
      refine ⟨v, ?_, b⟩
      rw [a]
      unfold leAt
      congr 1
      unfold at_
      rw [List.drop_take, List.take_take, List.drop_drop]
      congr 1
      have : (j + 1) * k ≤ w * h * k := Nat.mul_le_mul_right k hj
      rw [Nat.add_mul, Nat.one_mul] at this
      omega
  by_cases hl : 128 + w * h * k ≤ bs.length
  · obtain ⟨p, hp, lp, gp⟩ := main hl
    refine (load_spec L junk cube cur hs H (pf lum alpha) (w * h * k) (w * h * k) hpf (by unfold pf; split <;> split <;> simp) (by unfold pf; split <;> split <;> simp)
      (by omega) (by omega) ?_ true p (fun fl li _ => by rw [ik]; exact hp fl li)).mono (fun r hr => ?_)
    · rcases hsize with hz | hz
      · exact .inl ⟨hz, rfl⟩
      · refine .inr ⟨hz, by omega, ?_⟩
        rw [P.bits]
        have : w * (8 * k) ≤ w * h * 32 := by
          calc w * (8 * k) ≤ w * 32 := Nat.mul_le_mul_left _ (by omega)
            _ ≤ _ := Nat.mul_le_mul_right _ hww
        rw [u32_of_lt (by omega), Nat.mul_left_comm, Nat.mul_div_cancel_left _ (by decide : 0 < 8), Nat.mul_right_comm]
    · refine ⟨⟨fun hl => ?_, hr.2.1⟩, hr.2.2⟩
      obtain ⟨h1, h2⟩ := hr.1 hl
      rw [ik, texN_eq] at h2
      refine ⟨h1, _, fun x y c => p.getD ((y * w + x) * components lum alpha + c) 0, h2, ?_, ?_⟩
      · refine shows_tex junk w h (components lum alpha) (fmt lum alpha) hw hh hb.2 hfit p lp _ (fun x y c hx hy hc => ?_)
        have := pix_lt hx hy hc
        dsimp only
        rw [List.getD_eq_getElem?_getD, List.getElem?_eq_getElem (by omega)]
        rfl
      · intro x y c hx hy hc
        have hj : y * w + x < w * h := by
          have := pix_lt (k := 1) (c := 0) hx hy (by decide)
          omega
        obtain ⟨v, a, b⟩ := gp (y * w + x) c hj hc
        dsimp only
        rw [List.getD_eq_getElem?_getD, b, Option.getD_some, ← a, field_mod _ _ _ _ (M.fits c hc)]
        have h1 := M.one c hc
        have h8 := M.eight c hc
        have hf32 := M.fits c hc
        have hce := channel_eq (v := v) (M.sel c hc) h1 h8 (by omega)
        have hge := getBits_eq (M.sel c hc) h1 h8 (by omega)
        have hv : v / 2 ^ s (chan lum c) % 2 ^ n (chan lum c) < 2 ^ n (chan lum c) := Nat.mod_lt _ (Nat.two_pow_pos _)
        unfold valueOf
        rw [hcm c hc]
        dsimp only
        split
        · rw [hge]
          rw [hge] at hce
          exact scaled_alpha h1 h8 hv hce
        · rw [hce]
          exact scaled_colour h1 h8 hv
  · refine (load_spec L junk cube cur hs H (pf lum alpha) (w * h * k) (w * h * k) hpf (by unfold pf; split <;> split <;> simp) (by unfold pf; split <;> split <;> simp)
      (by omega) (by omega) ?_ true [] (fun fl li h => absurd h hl)).mono (fun r hr => ?_)
    · rcases hsize with hz | hz
      · exact .inl ⟨hz, rfl⟩
      · refine .inr ⟨hz, by omega, ?_⟩
        rw [P.bits]
        have : w * (8 * k) ≤ w * h * 32 := by
          calc w * (8 * k) ≤ w * 32 := Nat.mul_le_mul_left _ (by omega)
            _ ≤ _ := Nat.mul_le_mul_right _ hww
        rw [u32_of_lt (by omega), Nat.mul_left_comm, Nat.mul_div_cancel_left _ (by decide : 0 < 8), Nat.mul_right_comm]
    · exact ⟨⟨fun h => absurd h hl, hr.2.1⟩, hr.2.2⟩

end DevIL.Dds
