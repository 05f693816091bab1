import Verif.Lemmas.Tpl
/-! TPL files: the rows of the tiles. -/
set_option autoImplicit false
namespace DevIL.Tpl
open DevIL.Games DevIL.Detect DevIL.Image DevIL.DetectSpec DevIL.TplSpec
open DevIL.Lump (SEEK_SET SEEK_CUR)
open DevIL.Rotate (loopN_fails)

theorem split_inj {k a b c d : Nat} (hc : c < k) (hd : d < k) (h : a * k + c = b * k + d) : a = b ∧ c = d := by
  have h1 : (a * k + c) / k = a := by rw [Nat.mul_comm, Nat.mul_add_div (by omega), Nat.div_eq_of_lt hc, Nat.add_zero]
  have h2 : (b * k + d) / k = b := by rw [Nat.mul_comm, Nat.mul_add_div (by omega), Nat.div_eq_of_lt hd, Nat.add_zero]
  rw [h, h2] at h1
  subst h1
  exact ⟨rfl, by omega⟩

/-- The pixels outside the tile and the row are others. -/
theorem frame_ne {tw w k x x2 y y2 j c c2 : Nat} (hx : x % tw = 0) (hj : j < tw) (hw : x + j < w) (hx2 : x2 < w) (hc : c < k) (hc2 : c2 < k) (h : y2 ≠ y ∨ x2 / tw ≠ x / tw) :
    (y2 * w + x2) * k + c2 ≠ (y * w + (x + j)) * k + c := by
  intro e
  obtain ⟨e1, -⟩ := split_inj hc2 hc e
  obtain ⟨e2, e3⟩ := split_inj hx2 hw e1
  subst e3
  have : (x + j) / tw = x / tw := by
    have hd := Nat.div_add_mod x tw
    rw [hx, Nat.add_zero] at hd
    conv => lhs; rw [← hd]
    rw [Nat.mul_add_div (by omega), Nat.div_eq_of_lt hj, Nat.add_zero]
  omega

theorem idx_lt {w h k x y c : Nat} (hx : x < w) (hy : y < h) (hc : c < k) : (y * w + x) * k + c < w * h * k := by
  have h1 : (y + 1) * w ≤ h * w := Nat.mul_le_mul_right _ hy
  have h2 : (y * w + x + 1) * k ≤ h * w * k := Nat.mul_le_mul_right _ (by rw [Nat.succ_mul] at h1; omega)
  rw [Nat.succ_mul] at h2
  rw [Nat.mul_comm w h]; omega

theorem off_eq (w bpp x y : Nat) : w * bpp * y + bpp * x = (y * w + x) * bpp := by
  rw [Nat.add_mul, Nat.mul_comm bpp x, Nat.mul_right_comm y w bpp, Nat.mul_comm w bpp, Nat.mul_assoc bpp, Nat.mul_comm bpp, Nat.mul_comm w y, Nat.mul_right_comm]

variable {σ : Type} {o : Ops σ} {At : σ → List UInt8 → Nat → Prop}

/-- Reading a byte. -/
theorem getb_at (L : Laws2 o At) {bs : List UInt8} {p : Nat} {s : σ} (h : At s bs p) :
    Holds (getb o s) (fun r => (∃ q, At r.2 bs q) ∧ (p < bs.length → some r.1 = bs[p]? ∧ At r.2 bs (p + 1))) := by
  unfold getb
  refine (L.getc h).bind (fun r hr => Holds.pure ?_)
  obtain ⟨b, s'⟩ := r
  obtain ⟨h1, h2⟩ := hr
  refine ⟨h1, fun hp => ?_⟩
  obtain ⟨h3, h4⟩ := h2 hp
  simp only [] at h3 h4 ⊢
  rw [List.getElem?_eq_getElem hp] at h3 ⊢
  subst h3
  exact ⟨rfl, h4⟩

/-- Reading a number of 16 bits. -/
theorem big16_at (L : Laws2 o At) (junk : Nat → UInt8) {bs : List UInt8} {p : Nat} {s : σ} (h : At s bs p) :
    Holds (big16 o junk s) (fun r => (∃ q, At r.2 bs q) ∧ (p + 2 ≤ bs.length → r.1 = beAt bs p 2 ∧ At r.2 bs (p + 2))) := by
  unfold big16
  refine (head_spec L.toLaws junk bs [u16] s p h (by decide)).bind (fun r hr => Holds.pure ?_)
  obtain ⟨g, s'⟩ := r
  obtain ⟨h1, h2, h3⟩ := hr
  refine ⟨h1, fun hp => ⟨?_, h2 hp⟩⟩
  simp only []
  unfold fbe
  rw [h3 0 u16 rfl hp]
  rfl

theorem beAt_lt2 (bs : List UInt8) (off n : Nat) : beAt bs off n < 256 ^ n := by
  have h : be (at_ bs off n) < 256 ^ (at_ bs off n).length := by
    unfold be
    rw [← List.length_reverse]
    exact le_lt _
  exact Nat.lt_of_lt_of_le h (Nat.pow_le_pow_right (by decide) (by rw [at_length]; omega))

theorem rowI8_ok (L : Laws2 o At) {bs : List UInt8} {w h : Nat} (hwh : w * h * 1 < 4294967296) : RowOk At bs 8 w h 1 (w * h * 1) (fun p j _ => bs[p + j]?) (rowI8 o w) := by
  intro x y p d s hx0 hx hy hA hp hd
  have hlt : ∀ j, x + j < w → (y * w + (x + j)) * 1 + 0 < w * h * 1 := fun j hj => idx_lt hj hy (by decide)
  rw [off_eq, u32_of_lt (show (y * w + x) * 1 < 4294967296 by have := hlt 0 (by omega); omega)]
  unfold rowI8
  obtain ⟨t, e, h1, h2, h3, h4⟩ := loopN_inv (n := 8) (s := (d, s)) (f := fun k t =>
    if w ≤ x + k then do
      let (_, s) ← o.getc t.2
      pure (t.1, s)
    else do
      let (b, s) ← getb o t.2
      let d ← wr t.1 (u32 ((y * w + x) * 1 + k)) b
      pure (d, s))
    (fun k t => At t.2 bs (p + k) ∧ t.1.length = w * h * 1 ∧ (∀ j, j < k → x + j < w → t.1[y * w + (x + j)]? = bs[p + j]?) ∧
      ∀ i, (∀ j, j < 8 → x + j < w → i ≠ y * w + (x + j)) → t.1[i]? = d[i]?)
    ⟨hA, hd, fun j hj => by omega, fun _ _ => rfl⟩
    (by
      rintro k ⟨d1, s1⟩ hk ⟨g1, g2, g3, g4⟩
      simp only [] at g1 g2 g3 g4 ⊢
      by_cases hw : w ≤ x + k
      · rw [if_pos hw]
        obtain ⟨⟨b, s2⟩, e, -, h2⟩ := L.getc g1
        rw [e, bind_ok]
        exact ⟨_, rfl, (h2 (by omega)).2, g2, fun j hj hjw => g3 j (by omega) hjw, g4⟩
      · rw [if_neg hw]
        obtain ⟨⟨b, s2⟩, e, -, h2⟩ := getb_at L g1
        obtain ⟨h2, h3⟩ := h2 (by omega)
        have hb := hlt k (by omega)
        rw [e, bind_ok]
        simp only [] at h2 h3 ⊢
        have hi : (y * w + x) * 1 + k = y * w + (x + k) := by omega
        rw [hi, u32_of_lt (by omega), wr_of_lt (by omega), bind_ok]
        refine ⟨_, rfl, h3, by simpa using g2, fun j hj hjw => ?_, fun i hi => ?_⟩
        · simp only []
          by_cases hjk : j = k
          · subst hjk
            rw [List.getElem?_set_self (by omega), h2]
          · rw [List.getElem?_set_ne (by omega)]
            exact g3 j (by omega) hjw
        · simp only []
          rw [List.getElem?_set_ne (fun h => hi k hk (by omega) h.symm)]
          exact g4 i hi)
  refine ⟨t, e, h1, h2, fun j c hj hjw hc => ?_, fun x2 y2 c hx2 hy2 hc hne => ?_⟩
  · obtain rfl : c = 0 := by omega
    rw [Nat.mul_one, Nat.add_zero]
    exact h3 j hj hjw
  · refine h4 _ (fun j hj hjw => ?_)
    have := frame_ne (c := 0) hx0 hj hjw hx2 (show 0 < 1 by decide) hc hne
    rw [Nat.mul_one (y * w + (x + j))] at this
    exact this

set_option maxRecDepth 4000
theorem exp5 : ∀ r : Nat, r < 32 → r * 8 ||| r / 4 = r * 8 + r / 4 := by decide
theorem exp6 : ∀ r : Nat, r < 64 → r * 4 ||| r / 16 = r * 4 + r / 16 := by decide
theorem andF8 : ∀ u : Nat, u < 256 → u &&& 0xF8 = u / 8 * 8 := by decide
theorem andFC : ∀ u : Nat, u < 256 → u &&& 0xFC = u / 4 * 4 := by decide
theorem and1C : ∀ u : Nat, u < 32 → u &&& 0x1C = u / 4 * 4 := by decide

theorem red565 {v : Nat} (hv : v < 65536) : ((v &&& 0xF800) >>> 8) ||| ((v &&& 0xE000) >>> 13) = v / 2048 * 8 + v / 2048 / 4 := by
  rw [Nat.shiftRight_and_distrib, Nat.shiftRight_and_distrib, show 0xF800 >>> 8 = 0xF8 from rfl, show 0xE000 >>> 13 = 2 ^ 3 - 1 from rfl, Nat.and_two_pow_sub_one_eq_mod,
    Nat.shiftRight_eq_div_pow, Nat.shiftRight_eq_div_pow, andF8 _ (by omega), ← exp5 _ (by omega)]
  congr 1 <;> omega

theorem green565 {v : Nat} (hv : v < 65536) : ((v &&& 0x7E0) >>> 3) ||| ((v &&& 0x600) >>> 9) = v / 32 % 64 * 4 + v / 32 % 64 / 16 := by
  have h : v >>> 3 &&& 0xFC = (v >>> 3) % 256 &&& 0xFC := by
    rw [show (256 : Nat) = 2 ^ 8 from rfl, ← Nat.and_two_pow_sub_one_eq_mod, Nat.and_assoc]
    rfl
  rw [Nat.shiftRight_and_distrib, Nat.shiftRight_and_distrib, show 0x7E0 >>> 3 = 0xFC from rfl, show 0x600 >>> 9 = 2 ^ 2 - 1 from rfl, Nat.and_two_pow_sub_one_eq_mod, h,
    Nat.shiftRight_eq_div_pow, Nat.shiftRight_eq_div_pow, andFC _ (by omega), ← exp6 _ (by omega)]
  congr 1 <;> omega

theorem blue565 (v : Nat) : ((v &&& 0x1F) <<< 3) ||| ((v &&& 0x1C) >>> 2) = v % 32 * 8 + v % 32 / 4 := by
  have h : v &&& 0x1C = v % 32 &&& 0x1C := by
    rw [show (32 : Nat) = 2 ^ 5 from rfl, ← Nat.and_two_pow_sub_one_eq_mod, Nat.and_assoc]
    rfl
  rw [h, and1C _ (by omega), show (0x1F : Nat) = 2 ^ 5 - 1 from rfl, Nat.and_two_pow_sub_one_eq_mod, Nat.shiftRight_eq_div_pow, Nat.shiftLeft_eq, ← exp5 _ (by omega)]
  congr 1
  omega

theorem row565_ok (L : Laws2 o At) (junk : Nat → UInt8) {bs : List UInt8} {w h : Nat} (hwh : w * h * 3 < 4294967296) :
    RowOk At bs 4 w h 3 (w * h * 3) (fun p j c => some (rgb565 (beAt bs (p + j * 2) 2) c)) (row565 o junk w) := by
  intro x y p d s hx0 hx hy hA hp hd
  have hlt : ∀ j, x + j < w → (y * w + (x + j)) * 3 + 2 < w * h * 3 := fun j hj => idx_lt hj hy (by decide)
  rw [off_eq, u32_of_lt (show (y * w + x) * 3 < 4294967296 by have := hlt 0 (by omega); omega)]
  unfold row565
  obtain ⟨t, e, h1, h2, h3, h4⟩ := loopN_inv (n := 4) (s := (d, s)) (f := fun k t => do
    let (v, s) ← big16 o junk t.2
    if w ≤ x + k then pure (t.1, s)
    else do
      let d ← wr t.1 (u32 ((y * w + x) * 3 + 3 * k)) (UInt8.ofNat (((v &&& 0xF800) >>> 8) ||| ((v &&& 0xE000) >>> 13)))
      let d ← wr d (u32 ((y * w + x) * 3 + 3 * k + 1)) (UInt8.ofNat (((v &&& 0x7E0) >>> 3) ||| ((v &&& 0x600) >>> 9)))
      let d ← wr d (u32 ((y * w + x) * 3 + 3 * k + 2)) (UInt8.ofNat (((v &&& 0x1F) <<< 3) ||| ((v &&& 0x1C) >>> 2)))
      pure (d, s))
    (fun k t => At t.2 bs (p + k * 2) ∧ t.1.length = w * h * 3 ∧ (∀ j c, j < k → c < 3 → x + j < w → t.1[(y * w + (x + j)) * 3 + c]? = some (rgb565 (beAt bs (p + j * 2) 2) c)) ∧
      ∀ i, (∀ j c, j < 4 → c < 3 → x + j < w → i ≠ (y * w + (x + j)) * 3 + c) → t.1[i]? = d[i]?)
    ⟨hA, hd, fun j c hj => by omega, fun _ _ => rfl⟩
    (by
      rintro k ⟨d1, s1⟩ hk ⟨g1, g2, g3, g4⟩
      simp only [] at g1 g2 g3 g4 ⊢
      obtain ⟨⟨v, s2⟩, e, -, h2⟩ := big16_at L junk g1
      obtain ⟨h2, h3⟩ := h2 (by omega)
      simp only [] at h2 h3
      rw [e, bind_ok]
      simp only []
      have h3 : At s2 bs (p + (k + 1) * 2) := by rw [show p + (k + 1) * 2 = p + k * 2 + 2 by omega]; exact h3
      by_cases hw : w ≤ x + k
      · rw [if_pos hw]
        exact ⟨_, rfl, h3, g2, fun j c hj hc hjw => g3 j c (by omega) hc hjw, g4⟩
      · rw [if_neg hw]
        have hb := hlt k (by omega)
        have hv : v < 65536 := by rw [h2]; exact beAt_lt2 bs (p + k * 2) 2
        have hi : (y * w + x) * 3 + 3 * k = (y * w + (x + k)) * 3 := by omega
        have hi1 : ∀ c, c < 3 → u32 ((y * w + (x + k)) * 3 + c) = (y * w + (x + k)) * 3 + c := fun c hc => u32_of_lt (by omega)
        have hi0 : u32 ((y * w + (x + k)) * 3) = (y * w + (x + k)) * 3 := u32_of_lt (by omega)
        rw [hi, hi1 1 (by decide), hi1 2 (by decide), hi0, red565 hv, green565 hv, blue565]
        generalize hB : (y * w + (x + k)) * 3 = B at *
        rw [wr_of_lt (by omega), bind_ok, wr_of_lt (by rw [List.length_set]; omega), bind_ok, wr_of_lt (by rw [List.length_set, List.length_set]; omega), bind_ok]
        have hl : ∀ a b c : UInt8, (((d1.set B a).set (B + 1) b).set (B + 2) c).length = w * h * 3 := fun a b c => by simpa using g2
        refine ⟨_, rfl, h3, hl _ _ _, fun j c hj hc hjw => ?_, fun i hi => ?_⟩
        · simp only []
          by_cases hjk : j = k
          · subst hjk
            rw [hB, ← h2]
            have hc : c = 0 ∨ c = 1 ∨ c = 2 := by omega
            rcases hc with rfl | rfl | rfl
            · rw [List.getElem?_set_ne (by omega), List.getElem?_set_ne (by omega), Nat.add_zero, List.getElem?_set_self (by omega)]
              rfl
            · rw [List.getElem?_set_ne (by omega), List.getElem?_set_self (by rw [List.length_set]; omega)]
              rfl
            · rw [List.getElem?_set_self (by rw [List.length_set, List.length_set]; omega)]
              rfl
          · rw [List.getElem?_set_ne (by omega), List.getElem?_set_ne (by omega), List.getElem?_set_ne (by omega)]
            exact g3 j c (by omega) hc hjw
        · simp only []
          have n0 := hi k 0 hk (by decide) (by omega)
          have n1 := hi k 1 hk (by decide) (by omega)
          have n2 := hi k 2 hk (by decide) (by omega)
          rw [hB] at n0 n1 n2
          rw [List.getElem?_set_ne (by omega), List.getElem?_set_ne (by omega), List.getElem?_set_ne (by omega)]
          exact g4 i hi)
  refine ⟨t, e, h1, h2, fun j c hj hjw hc => h3 j c hj hc hjw, fun x2 y2 c hx2 hy2 hc hne => h4 _ (fun j c' hj hc' hjw => frame_ne hx0 hj hjw hx2 hc' hc hne)⟩

/-- A block of this size, and a place in the file. -/
def Kept (At : σ → List UInt8 → Nat → Prop) (bs : List UInt8) (n : Nat) (t : List UInt8 × σ) : Prop := t.1.length = n ∧ ∃ q, At t.2 bs q

theorem kept_seek (L : Laws2 o At) {bs : List UInt8} {n : Nat} (k : Int) (t : List UInt8 × σ) (h : Kept At bs n t) : Holds (o.seek t.2 k SEEK_CUR) (fun r => Kept At bs n (t.1, r.2)) := by
  obtain ⟨h1, q, h2⟩ := h
  exact (L.seekCur k h2).mono (fun r hr => ⟨h1, hr.1⟩)

theorem kept_getb (L : Laws2 o At) {bs : List UInt8} {n : Nat} (t : List UInt8 × σ) (h : Kept At bs n t) : Holds (getb o t.2) (fun r => Kept At bs n (t.1, r.2)) := by
  obtain ⟨h1, q, h2⟩ := h
  exact (getb_at L h2).mono (fun r hr => ⟨h1, hr.1⟩)

theorem rowI8_safe (L : Laws2 o At) {bs : List UInt8} {w h x y : Nat} (hwh : w * h * 1 < 4294967296) (hx : x < w) (hy : y < h) (t : List UInt8 × σ) (hI : Kept At bs (w * h * 1) t) :
    Holds (rowI8 o w (u32 (w * 1 * y + 1 * x)) x t) (Kept At bs (w * h * 1)) := by
  have hlt : ∀ j, x + j < w → (y * w + (x + j)) * 1 + 0 < w * h * 1 := fun j hj => idx_lt hj hy (by decide)
  rw [off_eq, u32_of_lt (show (y * w + x) * 1 < 4294967296 by have := hlt 0 (by omega); omega)]
  unfold rowI8
  refine loopN_inv (fun _ => Kept At bs (w * h * 1)) hI (fun k t hk ht => ?_)
  obtain ⟨d, s⟩ := t
  by_cases hw : w ≤ x + k
  · rw [if_pos hw]
    obtain ⟨g, q, hq⟩ := ht
    obtain ⟨⟨b, s2⟩, e, h2, -⟩ := L.getc hq
    simp only [] at e ⊢
    rw [e, bind_ok]
    exact ⟨_, rfl, g, h2⟩
  · rw [if_neg hw]
    obtain ⟨⟨b, s2⟩, e, g, h2⟩ := kept_getb L _ ht
    simp only [] at e g ⊢
    have hb := hlt k (by omega)
    rw [e, bind_ok]
    simp only []
    rw [u32_of_lt (by omega), wr_of_lt (by omega), bind_ok]
    exact ⟨_, rfl, by simpa using g, h2⟩

theorem row565_safe (L : Laws2 o At) (junk : Nat → UInt8) {bs : List UInt8} {w h x y : Nat} (hwh : w * h * 3 < 4294967296) (hx : x < w) (hy : y < h) (t : List UInt8 × σ)
    (hI : Kept At bs (w * h * 3) t) : Holds (row565 o junk w (u32 (w * 3 * y + 3 * x)) x t) (Kept At bs (w * h * 3)) := by
  have hlt : ∀ j, x + j < w → (y * w + (x + j)) * 3 + 2 < w * h * 3 := fun j hj => idx_lt hj hy (by decide)
  rw [off_eq, u32_of_lt (show (y * w + x) * 3 < 4294967296 by have := hlt 0 (by omega); omega)]
  unfold row565
  refine loopN_inv (fun _ => Kept At bs (w * h * 3)) hI (fun k t hk ht => ?_)
  obtain ⟨d, s⟩ := t
  obtain ⟨g, q, hq⟩ := ht
  obtain ⟨⟨v, s2⟩, e, h2, -⟩ := big16_at L junk hq
  simp only [] at e g h2 ⊢
  rw [e, bind_ok]
  simp only []
  by_cases hw : w ≤ x + k
  · rw [if_pos hw]
    exact ⟨_, rfl, g, h2⟩
  · rw [if_neg hw]
    have hb := hlt k (by omega)
    rw [u32_of_lt (by omega), u32_of_lt (by omega), u32_of_lt (by omega), wr_of_lt (by omega), bind_ok, wr_of_lt (by rw [List.length_set]; omega), bind_ok,
      wr_of_lt (by rw [List.length_set, List.length_set]; omega), bind_ok]
    exact ⟨_, rfl, by simpa using g, h2⟩

/-! ### Rows that leave the block -/

/-- Two stores succeed, or one of them is outside the block. -/
theorem two_stores {d : List UInt8} {n i j : Nat} {a b : UInt8} (hd : d.length = n) :
    (∃ d', (do let d ← wr d i a; wr d j b) = Except.ok d' ∧ d'.length = n ∧ i < n ∧ j < n) ∨ (do let d ← wr d i a; wr d j b) = .error .oobWrite := by
  by_cases hi : i < d.length
  · rw [wr_of_lt hi, bind_ok]
    by_cases hj : j < d.length
    · rw [wr_of_lt (by rw [List.length_set]; exact hj)]
      exact .inl ⟨_, rfl, by simpa using hd, by omega, by omega⟩
    · rw [wr_of_ge (by rw [List.length_set]; omega)]
      exact .inr rfl
  · rw [wr_of_ge (by omega)]
    exact .inr rfl

/-- The turns of the loops over pairs of pixels. -/
theorem pair_turn (L : Laws2 o At) {bs : List UInt8} {n w x k i j : Nat} {f g : UInt8 → UInt8} (t : List UInt8 × σ) (hI : Kept At bs n t) :
    let c : C (List UInt8 × σ) := do
      let (b, s) ← getb o t.2
      if w ≤ x + 2 * k then pure (t.1, s)
      else do
        let d ← wr t.1 i (f b)
        let d ← wr d j (g b)
        pure (d, s)
    (Holds c (Kept At bs n) ∨ c = .error .oobWrite) ∧ (x + 2 * k < w → n ≤ j → c = .error .oobWrite) := by
  intro c
  obtain ⟨d, s⟩ := t
  obtain ⟨⟨b, s2⟩, e, h1, h2⟩ := kept_getb L _ hI
  simp only [] at e h1 h2
  have hc : c = (if w ≤ x + 2 * k then pure (d, s2) else do
        let d ← wr d i (f b)
        let d ← wr d j (g b)
        pure (d, s2)) := by
    show (getb o s >>= _) = _
    rw [e, bind_ok]
  rw [hc]
  have hs := two_stores (n := n) (i := i) (j := j) (a := f b) (b := g b) h1
  by_cases hw : w ≤ x + 2 * k
  · rw [if_pos hw]
    exact ⟨.inl (Holds.pure ⟨h1, h2⟩), fun h => by omega⟩
  · rw [if_neg hw]
    rcases hs with ⟨d', e', g1, g2, g3⟩ | e'
    · refine ⟨.inl ?_, fun _ h => by omega⟩
      cases h3 : wr d i (f b) with
      | error z => rw [h3] at e'; exact absurd e' (by simp [bind, Except.bind])
      | ok d1 =>
        rw [h3, bind_ok] at e'
        rw [bind_ok, e', bind_ok]
        exact ⟨_, rfl, g1, h2⟩
    · have : (do
        let d ← wr d i (f b)
        let d ← wr d j (g b)
        pure (d, s2) : C (List UInt8 × σ)) = .error .oobWrite := by
        cases h3 : wr d i (f b) with
        | error z => rw [h3] at e'; cases e'; rfl
        | ok d1 =>
          rw [h3, bind_ok] at e'
          rw [bind_ok, e']; rfl
      exact ⟨.inr this, fun _ _ => this⟩

end DevIL.Tpl
