import Verif.Lemmas.Colour
import Mathlib.Data.Nat.Sqrt
import Mathlib.Tactic.Linarith
import Mathlib.Tactic.Ring
/-! Properties C133 (sepia), C134 (alien colours), C135 (saturation), C136 (replacing a colour), C137 (scaling colours). -/
set_option autoImplicit false
namespace DevIL.Colour
open Utility

theorem order_cases {f : Nat} (h : order f ≠ none) : isRgb f = true ∨ isBgr f = true := by
  unfold order at h
  unfold isRgb isBgr
  by_cases h1 : f = IL_RGB ∨ f = IL_RGBA
  · exact Or.inl (decide_eq_true h1)
  · rw [if_neg h1] at h
    by_cases h2 : f = IL_BGR ∨ f = IL_BGRA
    · exact Or.inr (decide_eq_true h2)
    · rw [if_neg h2] at h; exact absurd rfl h

theorem order_none {f : Nat} (h : order f = none) : isRgb f = false ∧ isBgr f = false := by
  unfold order at h
  unfold isRgb isBgr
  by_cases h1 : f = IL_RGB ∨ f = IL_RGBA
  · rw [if_pos h1] at h; cases h
  · rw [if_neg h1] at h
    by_cases h2 : f = IL_BGR ∨ f = IL_BGRA
    · rw [if_pos h2] at h; cases h
    · exact ⟨decide_eq_false h1, decide_eq_false h2⟩

theorem bpc_of_ub {m : Img} (hm : m.Whole) (h : m.type = IL_UNSIGNED_BYTE) : m.bpc = 1 := by
  rw [hm.bpcT, h]; rfl

/-- A picture of one row for the examples. -/
def sample (format type bpp bpc : Nat) (w : Nat) (d : List UInt8) : Img :=
  { width := w, height := 1, depth := 1, bpp := bpp, bpc := bpc, bps := w * bpp * bpc, plane := w * bpp * bpc, size := w * bpp * bpc,
    format := format, type := type, origin := IL_ORIGIN_UPPER_LEFT, data := d }

theorem sample_whole {format type bpp bpc w : Nat} {d : List UInt8} (hw : 0 < w) (hp : 0 < bpp) (hc : 0 < bpc) (hF : bpp = ilGetBppFormat format)
    (hT : bpc = ilGetBpcType type) (hl : d.length = w * bpp * bpc) (hf : w * bpp * bpc < 2 ^ 32) : (sample format type bpp bpc w d).Whole := by
  refine ⟨⟨rfl, ?_, ?_, hl⟩, hw, Nat.one_pos, Nat.one_pos, hp, hc, hF, hT, hf⟩
  · exact (Nat.mul_one _).symm
  · exact ((Nat.mul_one _).trans (Nat.mul_one _)).symm

/-! ### C133 -/

/-- **C133.** `iluSepia` changes an image of unsigned bytes with red, green and blue, in either order, pixel by pixel: the new red, green and blue are the
three tones of the old red, green and blue of the same pixel.  Alpha stays.  The tones are the weighted sums limited to 255, whose rounding is not modelled. -/
theorem C133_sepia (T : Tones) (m : Img) (hm : m.Whole) (ht : m.type = IL_UNSIGNED_BYTE) (hf : order m.format ≠ none) :
    ∃ m', iluSepia T m = .ok (some m') ∧ m.Recoloured m' (fun c => ⟨T.red c.r c.g c.b, T.green c.r c.g c.b, T.blue c.r c.g c.b⟩) := by
  unfold iluSepia
  rw [if_neg (by simp [ht])]
  rcases order_cases hf with h | h
  · obtain ⟨d, e, r⟩ := recolour_rgb hm (bpc_of_ub hm ht) h (sepiaRgb T)
      (fun c => ⟨T.red c.r c.g c.b, T.green c.r c.g c.b, T.blue c.r c.g c.b⟩) (fun A B x y z => by
      simp only [sepiaRgb, rd0, rd1, rd2, wr0, wr1, wr2, bind_ok])
    rw [(rgb_facts hm h).2.2, if_neg (by decide), if_pos h, e]
    exact ⟨_, rfl, r⟩
  · obtain ⟨d, e, r⟩ := recolour_bgr hm (bpc_of_ub hm ht) h (sepiaBgr T)
      (fun c => ⟨T.red c.r c.g c.b, T.green c.r c.g c.b, T.blue c.r c.g c.b⟩) (fun A B x y z => by
      simp only [sepiaBgr, rd0, rd1, rd2, wr0, wr1, wr2, bind_ok])
    rw [if_pos h, e]
    exact ⟨_, rfl, r⟩

/-- **C133.** All other images are refused. -/
theorem C133_sepia_refused (T : Tones) (m : Img) (h : m.type ≠ IL_UNSIGNED_BYTE ∨ order m.format = none) : iluSepia T m = .ok none := by
  unfold iluSepia
  by_cases ht : m.type ≠ IL_UNSIGNED_BYTE
  · rw [if_pos ht]; rfl
  · obtain ⟨a, b⟩ := order_none (h.resolve_left ht)
    rw [if_neg ht, a, b]; rfl

example : (sample IL_BGRA IL_UNSIGNED_BYTE 4 1 2 [1, 2, 3, 4, 5, 6, 7, 8]).Whole ∧ order IL_BGRA ≠ none := by
  refine ⟨sample_whole ?_ ?_ ?_ ?_ ?_ ?_ ?_, ?_⟩ <;> decide
example : (iluSepia ⟨fun r _ _ => r + 1, fun _ g _ => g + 2, fun _ _ b => b + 3⟩ (sample IL_BGRA IL_UNSIGNED_BYTE 4 1 1 [10, 20, 30, 40])).map
    (Option.map Img.data) = .ok (some [13, 22, 31, 40]) := by decide

/-! ### C134 -/

theorem alien_rgb {A B : List UInt8} {x y z : UInt8} : alienRgb A.length (A ++ x :: y :: z :: B) = .ok (A ++ z :: y :: z :: B) := by
  simp only [alienRgb, dotI, identity, rd0, rd1, rd2, wr0, wr1, wr2, bind_ok]
  simp [rd, bind_ok, wr0, wr1, wr2, rd0, rd1, rd2, pure, Except.pure]

theorem alien_bgr {A B : List UInt8} {x y z : UInt8} : alienBgr A.length (A ++ x :: y :: z :: B) = .ok (A ++ x :: y :: x :: B) := by
  simp only [alienBgr, dotI, identity, rd0, rd1, rd2, wr0, wr1, wr2, bind_ok]
  simp [rd, bind_ok, wr0, wr1, wr2, rd0, rd1, rd2, pure, Except.pure]

/-- **C134.** `iluAlienify` gives the red of every pixel the value of its blue and leaves green, blue and alpha, for images with components of one byte and red, green
and blue in either order; so doing it again changes nothing.  Missing, because false: components of more than one byte (`C134_violated_short`). -/
theorem C134_alien_partial (m : Img) (hm : m.Whole) (hb : m.bpc = 1) (hf : order m.format ≠ none) :
    ∃ m', iluAlienify m = .ok (some m') ∧ m.Recoloured m' (fun c => ⟨c.b, c.g, c.b⟩) := by
  unfold iluAlienify
  rcases order_cases hf with h | h
  · obtain ⟨d, e, r⟩ := recolour_rgb hm hb h alienRgb (fun c => ⟨c.b, c.g, c.b⟩) (fun A B x y z => alien_rgb)
    rw [(rgb_facts hm h).2.2, if_neg (by decide), if_pos h, e]
    exact ⟨_, rfl, r⟩
  · obtain ⟨d, e, r⟩ := recolour_bgr hm hb h alienBgr (fun c => ⟨c.b, c.g, c.b⟩) (fun A B x y z => alien_bgr)
    rw [if_pos h, e]
    exact ⟨_, rfl, r⟩

/-- **C134.** All other formats are refused. -/
theorem C134_refused (m : Img) (h : order m.format = none) : iluAlienify m = .ok none := by
  obtain ⟨a, b⟩ := order_none h
  unfold iluAlienify
  rw [a, b]; rfl

/-- **C134 violated.** The pixel of 16 bits per component with red 0x0201, green 0x0403 and blue 0x0605 should become 0x0605, 0x0403, 0x0605; but the bytes are
taken for components, and green becomes 0x0603. -/
theorem C134_violated_short : (sample IL_RGB IL_UNSIGNED_SHORT 3 2 1 [1, 2, 3, 4, 5, 6]).Whole ∧
    (iluAlienify (sample IL_RGB IL_UNSIGNED_SHORT 3 2 1 [1, 2, 3, 4, 5, 6])).map (Option.map Img.data) = .ok (some [3, 2, 3, 6, 5, 6]) := by
  refine ⟨sample_whole ?_ ?_ ?_ ?_ ?_ ?_ ?_, ?_⟩ <;> decide

example : (sample IL_RGB IL_UNSIGNED_BYTE 3 1 1 [10, 20, 30]).colour 0 0 0 = some ⟨10, 20, 30⟩ := by decide

/-! ### C135 -/

/-- `(1 - s) * L + s * c`: the value a component gets when the saturation is `s` and the luminance of the pixel is `L`. -/
def saturated (s L : Rat) (c : UInt8) : Rat := (1 - s) * L + s * (c.toNat : Rat)

/-- The luminance of a colour with the weights `r g b`. -/
def luminance (r g b : Rat) (c : RGB) : Rat := r * (c.r.toNat : Rat) + g * (c.g.toNat : Rat) + b * (c.b.toNat : Rat)

/-- A number from 0 on, below 256, without its fraction. -/
def byteOf (q : Rat) : UInt8 := UInt8.ofNat q.floor.toNat

/-- Arithmetic without rounding. -/
def exact : Sat Rat where
  diag w s := (1 - s) * w + s
  off w s := (1 - s) * w
  dot x y z a b c :=
    let v := (x.toNat : Rat) * a + (y.toNat : Rat) * b + (z.toNat : Rat) * c
    if 0 ≤ v ∧ v < 256 then pure (byteOf v) else .error .overflow

theorem exact_dot {x y z : UInt8} {a b c v : Rat} (e : (x.toNat : Rat) * a + (y.toNat : Rat) * b + (z.toNat : Rat) * c = v) (h0 : 0 ≤ v) (h1 : v < 256) :
    exact.dot x y z a b c = .ok (byteOf v) := by
  unfold exact
  simp only [e]
  rw [if_pos ⟨h0, h1⟩]; rfl

theorem byte_range (x : UInt8) : (0 : Rat) ≤ (x.toNat : Rat) ∧ (x.toNat : Rat) ≤ 255 := by
  have := x.toNat_lt
  constructor
  · exact_mod_cast Nat.zero_le _
  · have h : x.toNat ≤ 255 := by omega
    exact_mod_cast h

theorem saturated_range {r g b s : Rat} {x y z c : UInt8} (hr : 0 ≤ r) (hg : 0 ≤ g) (hb : 0 ≤ b) (hsum : r + g + b ≤ 1) (hs0 : 0 ≤ s) (hs1 : s ≤ 1) :
    0 ≤ saturated s (luminance r g b ⟨x, y, z⟩) c ∧ saturated s (luminance r g b ⟨x, y, z⟩) c < 256 := by
  obtain ⟨x0, x1⟩ := byte_range x
  obtain ⟨y0, y1⟩ := byte_range y
  obtain ⟨z0, z1⟩ := byte_range z
  obtain ⟨c0, c1⟩ := byte_range c
  have l0 : 0 ≤ luminance r g b ⟨x, y, z⟩ := by
    unfold luminance
    have := mul_nonneg hr x0
    have := mul_nonneg hg y0
    have := mul_nonneg hb z0
    linarith
  have l1 : luminance r g b ⟨x, y, z⟩ ≤ 255 := by
    unfold luminance
    have := mul_le_mul_of_nonneg_left x1 hr
    have := mul_le_mul_of_nonneg_left y1 hg
    have := mul_le_mul_of_nonneg_left z1 hb
    dsimp only at *
    linarith
  unfold saturated
  have h1 : 0 ≤ 1 - s := by linarith
  have := mul_nonneg h1 l0
  have := mul_nonneg hs0 c0
  have := mul_le_mul_of_nonneg_left l1 h1
  have := mul_le_mul_of_nonneg_left c1 hs0
  constructor <;> linarith

/-- **C135.** For weights that are not negative and sum to at most 1, and a saturation from 0 to 1, `iluSaturate4f` changes an image of bytes with the pixels `red, green,
blue` in this way: every component `c` of a pixel of luminance `L` becomes `(1 - s) L + s c` without its fraction.  Alpha stays.  Arithmetic is exact here.  Missing, because
false: pixels that begin with blue (`C135_violated_bgr`), formats that are refused (`C135_violated_format`), components of more than one byte (`C135_violated_short`). -/
theorem C135_saturation_partial (m : Img) (r g b s : Rat) (hm : m.Whole) (hb : m.bpc = 1) (hf : m.format = IL_RGB ∨ m.format = IL_RGBA)
    (hr : 0 ≤ r) (hg : 0 ≤ g) (hbl : 0 ≤ b) (hsum : r + g + b ≤ 1) (hs0 : 0 ≤ s) (hs1 : s ≤ 1) :
    ∃ m', iluSaturate4f exact m r g b s = .ok (true, false, m') ∧
      m.Recoloured m' (fun c => ⟨byteOf (saturated s (luminance r g b c) c.r), byteOf (saturated s (luminance r g b c) c.g),
        byteOf (saturated s (luminance r g b c) c.b)⟩) := by
  have h : isRgb m.format = true := decide_eq_true hf
  obtain ⟨d, e, q⟩ := recolour_rgb hm hb h (matRgb exact (satCols exact r g b s))
    (fun c => ⟨byteOf (saturated s (luminance r g b c) c.r), byteOf (saturated s (luminance r g b c) c.g),
      byteOf (saturated s (luminance r g b c) c.b)⟩) (fun A B x y z => by
      have rng := fun c => saturated_range (x := x) (y := y) (z := z) (c := c) hr hg hbl hsum hs0 hs1
      have d0 := exact_dot (x := x) (y := y) (z := z) (a := exact.diag r s) (b := exact.off g s) (c := exact.off b s)
        (v := saturated s (luminance r g b ⟨x, y, z⟩) x) (by simp only [exact, saturated, luminance]; ring) (rng x).1 (rng x).2
      have d1 := exact_dot (x := x) (y := y) (z := z) (a := exact.off r s) (b := exact.diag g s) (c := exact.off b s)
        (v := saturated s (luminance r g b ⟨x, y, z⟩) y) (by simp only [exact, saturated, luminance]; ring) (rng y).1 (rng y).2
      have d2 := exact_dot (x := x) (y := y) (z := z) (a := exact.off r s) (b := exact.off g s) (c := exact.diag b s)
        (v := saturated s (luminance r g b ⟨x, y, z⟩) z) (by simp only [exact, saturated, luminance]; ring) (rng z).1 (rng z).2
      simp only [matRgb, satCols, rd0, rd1, rd2, bind_ok]
      simp only [rd, List.getElem?_cons_zero, List.getElem?_cons_succ, bind_ok]
      rw [d0, bind_ok, d1, bind_ok, d2, bind_ok, wr0, bind_ok, wr1, bind_ok, wr2])
  refine ⟨_, ?_, q⟩
  unfold iluSaturate4f
  rw [if_pos h, e]
  rfl

/-- **C135.** With saturation 1 the colours stay. -/
theorem C135_one_partial (m : Img) (r g b : Rat) (hm : m.Whole) (hb : m.bpc = 1) (hf : m.format = IL_RGB ∨ m.format = IL_RGBA)
    (hr : 0 ≤ r) (hg : 0 ≤ g) (hbl : 0 ≤ b) (hsum : r + g + b ≤ 1) :
    ∃ m', iluSaturate4f exact m r g b 1 = .ok (true, false, m') ∧ m.Recoloured m' id := by
  obtain ⟨m', e, q⟩ := C135_saturation_partial m r g b 1 hm hb hf hr hg hbl hsum (by decide) (by decide)
  refine ⟨m', e, ?_⟩
  have hc : ∀ (L : Rat) (c : UInt8), byteOf (saturated 1 L c) = c := by
    intro L c
    have : saturated 1 L c = (c.toNat : Rat) := by unfold saturated; ring
    unfold byteOf
    rw [this, show (c.toNat : Rat).floor = (c.toNat : Int) from Rat.floor_intCast (c.toNat : Int)]
    simp
  simp only [hc] at q
  exact q

/-- **C135.** With saturation 0 the image becomes grey: the three components of every pixel are its luminance. -/
theorem C135_zero_partial (m : Img) (r g b : Rat) (hm : m.Whole) (hb : m.bpc = 1) (hf : m.format = IL_RGB ∨ m.format = IL_RGBA)
    (hr : 0 ≤ r) (hg : 0 ≤ g) (hbl : 0 ≤ b) (hsum : r + g + b ≤ 1) :
    ∃ m', iluSaturate4f exact m r g b 0 = .ok (true, false, m') ∧
      m.Recoloured m' (fun c => ⟨byteOf (luminance r g b c), byteOf (luminance r g b c), byteOf (luminance r g b c)⟩) := by
  obtain ⟨m', e, q⟩ := C135_saturation_partial m r g b 0 hm hb hf hr hg hbl hsum (by decide) (by decide)
  refine ⟨m', e, ?_⟩
  have hc : ∀ (L : Rat) (c : UInt8), saturated 0 L c = L := by
    intro L c
    unfold saturated; ring
  simp only [hc] at q
  exact q

/-- **C135 violated.** For pixels that begin with blue the weights of red and of blue are exchanged, whatever the image is. -/
theorem C135_violated_bgr (m : Img) (r g b s : Rat) (hm : m.Whole) (hb : m.bpc = 1) (hf : m.format = IL_BGR ∨ m.format = IL_BGRA)
    (hr : 0 ≤ r) (hg : 0 ≤ g) (hbl : 0 ≤ b) (hsum : r + g + b ≤ 1) (hs0 : 0 ≤ s) (hs1 : s ≤ 1) :
    ∃ m', iluSaturate4f exact m r g b s = .ok (true, false, m') ∧
      m.Recoloured m' (fun c => ⟨byteOf (saturated s (luminance b g r c) c.r), byteOf (saturated s (luminance b g r c) c.g),
        byteOf (saturated s (luminance b g r c) c.b)⟩) := by
  have h : isBgr m.format = true := decide_eq_true hf
  obtain ⟨d, e, q⟩ := recolour_bgr hm hb h (matBgr exact (satCols exact r g b s))
    (fun c => ⟨byteOf (saturated s (luminance b g r c) c.r), byteOf (saturated s (luminance b g r c) c.g),
      byteOf (saturated s (luminance b g r c) c.b)⟩) (fun A B x y z => by
      have rng := fun c => saturated_range (x := z) (y := y) (z := x) (c := c) hbl hg hr (by linarith) hs0 hs1
      have d0 := exact_dot (x := x) (y := y) (z := z) (a := exact.diag r s) (b := exact.off g s) (c := exact.off b s)
        (v := saturated s (luminance b g r ⟨z, y, x⟩) x) (by simp only [exact, saturated, luminance]; ring) (rng x).1 (rng x).2
      have d1 := exact_dot (x := x) (y := y) (z := z) (a := exact.off r s) (b := exact.diag g s) (c := exact.off b s)
        (v := saturated s (luminance b g r ⟨z, y, x⟩) y) (by simp only [exact, saturated, luminance]; ring) (rng y).1 (rng y).2
      have d2 := exact_dot (x := x) (y := y) (z := z) (a := exact.off r s) (b := exact.off g s) (c := exact.diag b s)
        (v := saturated s (luminance b g r ⟨z, y, x⟩) z) (by simp only [exact, saturated, luminance]; ring) (rng z).1 (rng z).2
      simp only [matBgr, satCols, rd0, rd1, rd2, bind_ok]
      simp only [rd, List.getElem?_cons_zero, List.getElem?_cons_succ, bind_ok]
      rw [d2, bind_ok, d1, bind_ok, d0, bind_ok, wr0, bind_ok, wr1, bind_ok, wr2])
  refine ⟨_, ?_, q⟩
  unfold iluSaturate4f
  rw [(bgr_facts hm h).2.2, if_neg (by decide), if_pos h, e]
  rfl

/-- **C135 violated.** The same red seen in the two orders: with all the weight on red and saturation 0, the pixel red 10, green 20, blue 30 becomes the grey 10 if it is kept as
`IL_RGB` and the grey 30 if it is kept as `IL_BGR`. -/
theorem C135_violated_orders :
    (iluSaturate4f exact (sample IL_RGB IL_UNSIGNED_BYTE 3 1 1 [10, 20, 30]) 1 0 0 0).map (fun p => p.2.2.colour 0 0 0) = .ok (some ⟨10, 10, 10⟩) ∧
    (sample IL_BGR IL_UNSIGNED_BYTE 3 1 1 [30, 20, 10]).colour 0 0 0 = some ⟨10, 20, 30⟩ ∧
    (iluSaturate4f exact (sample IL_BGR IL_UNSIGNED_BYTE 3 1 1 [30, 20, 10]) 1 0 0 0).map (fun p => p.2.2.colour 0 0 0) = .ok (some ⟨30, 30, 30⟩) := by
  decide +kernel

/-- **C135 violated.** For every other format an error is recorded, nothing is done, and the result is `IL_TRUE`. -/
theorem C135_violated_format {F : Type} (A : Sat F) (m : Img) (r g b s : F) (h : order m.format = none) : iluSaturate4f A m r g b s = .ok (true, true, m) := by
  obtain ⟨x, y⟩ := order_none h
  unfold iluSaturate4f
  rw [x, y]; rfl

/-- **C135 violated.** A pixel of 16 bits per component, red 0x0201, green 0x0403 and blue 0x0605, with all the weight on red and saturation 0: the components become 0x0101,
0x0401 and 0x0404 and not 0x0201 each. -/
theorem C135_violated_short : (sample IL_RGB IL_UNSIGNED_SHORT 3 2 1 [1, 2, 3, 4, 5, 6]).Whole ∧
    (iluSaturate4f exact (sample IL_RGB IL_UNSIGNED_SHORT 3 2 1 [1, 2, 3, 4, 5, 6]) 1 0 0 0).map (fun p => p.2.2.data) = .ok [1, 1, 1, 4, 4, 4] := by
  refine ⟨sample_whole ?_ ?_ ?_ ?_ ?_ ?_ ?_, ?_⟩ <;> decide +kernel

example : (iluSaturate4f exact (sample IL_RGBA IL_UNSIGNED_BYTE 4 1 1 [10, 20, 30, 99]) (1/2) (1/4) (1/4) (1/2)).map (fun p => p.2.2.data) =
    .ok [13, 18, 23, 99] := by decide +kernel

/-! ### C136 -/

/-- The square of the distance of two colours. -/
def dist2 (c e : RGB) : Nat :=
  ((c.r.toNat : Int) - e.r.toNat).natAbs ^ 2 + ((c.g.toNat : Int) - e.g.toNat).natAbs ^ 2 + ((c.b.toNat : Int) - e.b.toNat).natAbs ^ 2

theorem within_iff {tol : Nat} {x y z r g b : UInt8} : within tol x y z r g b = true ↔ dist2 ⟨x, y, z⟩ ⟨r, g, b⟩ < (tol + 1) ^ 2 := by
  unfold within dist2 sq
  rw [decide_eq_true_iff, ← Nat.lt_succ_iff, Nat.sqrt_lt']

/-- **C136.** For images of bytes with the pixels `red, green, blue`: unless the tolerance is next to 0, `iluReplaceColour` gives the new colour to the pixels whose distance to the
clear colour is less than `tol + 1`, and changes no other pixel; `tol` is the tolerance times 255 without its fraction.  Missing, because false: tolerance 0
(`C136_violated_exact`), pixels that begin with blue (`C136_violated_bgr`), luminance (`C136_violated_luminance`). -/
theorem C136_replace_partial (tol : Nat) (clear new : RGB) (m : Img) (hm : m.Whole) (hb : m.bpc = 1) (hf : m.format = IL_RGB ∨ m.format = IL_RGBA) :
    ∃ m', iluReplaceColour false tol (clear.r, clear.g, clear.b) (new.r, new.g, new.b) m = .ok m' ∧
      m.Recoloured m' (fun c => if dist2 c clear < (tol + 1) ^ 2 then new else c) := by
  have h : isRgb m.format = true := decide_eq_true hf
  obtain ⟨d, e, q⟩ := recolour_rgb hm hb h (replRgb tol (clear.r, clear.g, clear.b) (new.r, new.g, new.b))
    (fun c => if dist2 c clear < (tol + 1) ^ 2 then new else c) (fun A B x y z => by
      simp only [replRgb, rd0, rd1, rd2, bind_ok]
      by_cases hd : dist2 ⟨x, y, z⟩ clear < (tol + 1) ^ 2
      · rw [if_pos (within_iff.mpr hd), if_pos hd, wr0, bind_ok, wr1, bind_ok, wr2]
      · rw [if_neg (fun h => hd (within_iff.mp h)), if_neg hd]; rfl)
  refine ⟨_, ?_, q⟩
  unfold iluReplaceColour
  rw [if_neg (by decide), if_pos h, e]
  rfl

/-- **C136 violated.** With the tolerance 0 nothing is replaced, although some pixels have the clear colour. -/
theorem C136_violated_exact (tol : Nat) (clear new : UInt8 × UInt8 × UInt8) (m : Img) : iluReplaceColour true tol clear new m = .ok m := rfl

/-- **C136 violated.** For pixels that begin with blue, blue is compared with the red of the clear colour and red with its blue. -/
theorem C136_violated_bgr (tol : Nat) (clear new : RGB) (m : Img) (hm : m.Whole) (hb : m.bpc = 1) (hf : m.format = IL_BGR ∨ m.format = IL_BGRA) :
    ∃ m', iluReplaceColour false tol (clear.r, clear.g, clear.b) (new.r, new.g, new.b) m = .ok m' ∧
      m.Recoloured m' (fun c => if dist2 ⟨c.b, c.g, c.r⟩ clear < (tol + 1) ^ 2 then new else c) := by
  have h : isBgr m.format = true := decide_eq_true hf
  obtain ⟨d, e, q⟩ := recolour_bgr hm hb h (replBgr tol (clear.r, clear.g, clear.b) (new.r, new.g, new.b))
    (fun c => if dist2 ⟨c.b, c.g, c.r⟩ clear < (tol + 1) ^ 2 then new else c) (fun A B x y z => by
      simp only [replBgr, rd0, rd1, rd2, bind_ok]
      by_cases hd : dist2 ⟨x, y, z⟩ clear < (tol + 1) ^ 2
      · rw [if_pos (within_iff.mpr hd), if_pos hd, wr2, bind_ok, wr1, bind_ok, wr0]
      · rw [if_neg (fun h => hd (within_iff.mp h)), if_neg hd]; rfl)
  refine ⟨_, ?_, q⟩
  unfold iluReplaceColour
  rw [if_neg (by decide), (bgr_facts hm h).2.2, if_neg (by decide), if_pos h, e]
  rfl

/-- **C136 violated.** The clear colour is pure red, the new colour pure green, the tolerance 1/255: a red pixel of `IL_BGR` stays, and a blue one becomes green. -/
theorem C136_violated_red :
    (sample IL_BGR IL_UNSIGNED_BYTE 3 1 2 [0, 0, 255, 255, 0, 0]).colour 0 0 0 = some ⟨255, 0, 0⟩ ∧
    (iluReplaceColour false 1 (255, 0, 0) (0, 255, 0) (sample IL_BGR IL_UNSIGNED_BYTE 3 1 2 [0, 0, 255, 255, 0, 0])).map Img.data =
      .ok [0, 0, 255, 0, 255, 0] := by decide +kernel

/-- **C136 violated.** A luminance equal to the clear colour, replaced with the colour red 1, green 2, blue 3, becomes 3: the blue alone counts. -/
theorem C136_violated_luminance :
    (iluReplaceColour false 1 (9, 9, 9) (1, 2, 3) (sample IL_LUMINANCE IL_UNSIGNED_BYTE 1 1 3 [9, 8, 90])).map Img.data = .ok [3, 3, 90] := by decide +kernel

example : (iluReplaceColour false 2 (9, 9, 9) (1, 2, 3) (sample IL_RGB IL_UNSIGNED_BYTE 3 1 2 [9, 8, 7, 6, 9, 9])).map Img.data = .ok [1, 2, 3, 6, 9, 9] := by decide +kernel

/-! ### C137 -/

/-- **C137 violated.** No image with unsigned bytes, the usual type, can be scaled: every one that is not colour-indexed is refused, by both functions. -/
theorem C137_violated_bytes (r g b : UInt8 → C Int) (m : Img) (p : Pal) (ht : m.type = IL_UNSIGNED_BYTE) (hf : m.format ≠ IL_COLOUR_INDEX) :
    iluScaleColours r g b m p = .ok none ∧ iluScaleAlpha r m p = .ok none := by
  unfold iluScaleColours iluScaleAlpha
  rw [if_pos ⟨hf, by rw [ht]; decide⟩, if_pos ⟨hf, by rw [ht]; decide⟩]
  exact ⟨rfl, rfl⟩

/-- The colour of entry `i` of a palette of 8-bit components. -/
def palColour (p : Pal) (i : Nat) : Option RGB :=
  let k := ilGetBppPal p.type
  let at_ := fun c => p.data[i * k + c]?
  match if p.type = IL_PAL_RGB24 ∨ p.type = IL_PAL_RGB32 ∨ p.type = IL_PAL_RGBA32 then (at_ 0, at_ 1, at_ 2) else (at_ 2, at_ 1, at_ 0) with
  | (some r, some g, some b) => some ⟨r, g, b⟩
  | _ => none

theorem pal3 {p : Pal} {n : Nat} (hl : p.data.length = n * ilGetBppPal p.type) (h3 : 3 ≤ ilGetBppPal p.type) (body : Nat → List UInt8 → C (List UInt8))
    (F : UInt8 → UInt8 → UInt8 → UInt8 × UInt8 × UInt8)
    (hs : ∀ A B x y z, body A.length (A ++ x :: y :: z :: B) = .ok (A ++ (F x y z).1 :: (F x y z).2.1 :: (F x y z).2.2 :: B)) :
    ∃ d, forStep 0 (n * ilGetBppPal p.type) (ilGetBppPal p.type) body p.data = .ok d ∧ d.length = p.data.length ∧
      ∀ i, i < n → ∃ u v w, p.data[i * ilGetBppPal p.type]? = some u ∧ p.data[i * ilGetBppPal p.type + 1]? = some v ∧
        p.data[i * ilGetBppPal p.type + 2]? = some w ∧
        d[i * ilGetBppPal p.type]? = some (F u v w).1 ∧ d[i * ilGetBppPal p.type + 1]? = some (F u v w).2.1 ∧
        d[i * ilGetBppPal p.type + 2]? = some (F u v w).2.2 ∧
        ∀ b, 3 ≤ b → b < ilGetBppPal p.type → d[i * ilGetBppPal p.type + b]? = p.data[i * ilGetBppPal p.type + b]? := by
  generalize ilGetBppPal p.type = k at *
  obtain ⟨d, e, l, r⟩ := chunks (k := k) (n := n) id
    (fun _ c c' => ∃ x y z t, c = x :: y :: z :: t ∧ c' = (F x y z).1 :: (F x y z).2.1 :: (F x y z).2.2 :: t)
    (fun q => body (q * k)) p.data hl (by
      intro q t A c B hp ht hA hc
      obtain ⟨x, y, z, r, rfl⟩ := three (c := c) (by omega)
      refine ⟨_, _, ?_, rfl, ?_, x, y, z, r, rfl, rfl⟩
      · rw [show t = A ++ (x :: y :: z :: r ++ B) from ht, ← hA]
        simp only [List.cons_append]
        rw [hs]
      · simpa using hc)
  refine ⟨d, by rw [forStep_mul (by omega)]; exact e, by rw [hl]; exact l, fun i hi => ?_⟩
  obtain ⟨u, v, w, t, hc, hc'⟩ := r i hi
  simp only [id] at hc hc'
  have g : ∀ b, b < k → p.data[i * k + b]? = (u :: v :: w :: t)[b]? ∧
      d[i * k + b]? = ((F u v w).1 :: (F u v w).2.1 :: (F u v w).2.2 :: t)[b]? := by
    intro b hb'
    rw [← hc, ← hc', chunk_get hb', chunk_get hb']
    exact ⟨rfl, rfl⟩
  refine ⟨u, v, w, (g 0 (by omega)).1, (g 1 (by omega)).1, (g 2 (by omega)).1, (g 0 (by omega)).2, (g 1 (by omega)).2, (g 2 (by omega)).2, fun b h4 hb => ?_⟩
  rw [(g b hb).1, (g b hb).2]
  match b, h4 with
  | b + 3, _ => rfl

/-- **C137.** For a colour-indexed image `iluScaleColours` multiplies the red, green and blue of every palette entry by their factors, limited to 0 to 255, and leaves the pixels and
the fourth byte of the entries alone; `r v` is `v` times the factor of red, as an integer.  Missing, because false: images that are not colour-indexed
(`C137_violated_bytes`). -/
theorem C137_palette_partial (r g b : UInt8 → Int) (m : Img) (p : Pal) (n : Nat) (hf : m.format = IL_COLOUR_INDEX)
    (ht : p.type ∈ [IL_PAL_RGB24, IL_PAL_RGB32, IL_PAL_RGBA32, IL_PAL_BGR24, IL_PAL_BGR32, IL_PAL_BGRA32])
    (hn : p.size = n * ilGetBppPal p.type) (hl : p.data.length = p.size) :
    ∃ d, iluScaleColours (fun v => .ok (r v)) (fun v => .ok (g v)) (fun v => .ok (b v)) m p = .ok (some (m, { p with data := d })) ∧ d.length = p.data.length ∧
      ∀ i, i < n → (∃ c, palColour p i = some c ∧ palColour { p with data := d } i = some ⟨clamp (r c.r), clamp (g c.g), clamp (b c.b)⟩) ∧
        (ilGetBppPal p.type = 4 → d[i * 4 + 3]? = p.data[i * 4 + 3]?) := by
  have h3 : 3 ≤ ilGetBppPal p.type := by
    simp only [List.mem_cons, List.not_mem_nil, or_false] at ht
    rcases ht with h | h | h | h | h | h <;> rw [h] <;> decide
  have hne : isRgb m.format = false ∧ isBgr m.format = false ∧ ¬(m.format = IL_LUMINANCE ∨ m.format = IL_LUMINANCE_ALPHA) := by
    rw [hf]; decide
  unfold iluScaleColours
  rw [if_neg (fun h => h.1 hf), hne.1, hne.2.1, if_neg (by decide), if_neg (by decide), if_neg hne.2.2, if_pos hf]
  by_cases hp : palRgb p.type = true
  · have hq : p.type = IL_PAL_RGB24 ∨ p.type = IL_PAL_RGB32 ∨ p.type = IL_PAL_RGBA32 := of_decide_eq_true hp
    obtain ⟨d, e, l, s⟩ := pal3 (hl.trans hn) h3 (scaleRgb (fun v => .ok (r v)) (fun v => .ok (g v)) (fun v => .ok (b v)))
      (fun x y z => (clamp (r x), clamp (g y), clamp (b z))) (fun A B x y z => by
        simp only [scaleRgb, rd0, rd1, rd2, wr0, wr1, wr2, bind_ok])
    rw [if_pos hp, hn, e]
    refine ⟨d, rfl, l, fun i hi => ?_⟩
    obtain ⟨u, v, w, h0, h1, h2, k0, k1, k2, k3⟩ := s i hi
    refine ⟨⟨⟨u, v, w⟩, ?_, ?_⟩, fun h4 => ?_⟩
    · unfold palColour
      simp only [if_pos hq, Nat.add_zero, h0, h1, h2]
    · unfold palColour
      simp only [if_pos hq, Nat.add_zero, k0, k1, k2]
    · have := k3 3 (by omega) (by omega)
      rw [h4] at this
      exact this
  · have hq : palBgr p.type = true ∧ ¬(p.type = IL_PAL_RGB24 ∨ p.type = IL_PAL_RGB32 ∨ p.type = IL_PAL_RGBA32) := by
      simp only [List.mem_cons, List.not_mem_nil, or_false] at ht
      rcases ht with h | h | h | h | h | h <;> rw [h] at hp ⊢ <;> first | exact absurd rfl hp | decide
    obtain ⟨d, e, l, s⟩ := pal3 (hl.trans hn) h3 (scaleBgr (fun v => .ok (r v)) (fun v => .ok (g v)) (fun v => .ok (b v)))
      (fun x y z => (clamp (b x), clamp (g y), clamp (r z))) (fun A B x y z => by
        simp only [scaleBgr, rd0, rd1, rd2, wr0, wr1, wr2, bind_ok])
    rw [if_neg hp, if_pos hq.1, hn, e]
    refine ⟨d, rfl, l, fun i hi => ?_⟩
    obtain ⟨u, v, w, h0, h1, h2, k0, k1, k2, k3⟩ := s i hi
    refine ⟨⟨⟨w, v, u⟩, ?_, ?_⟩, fun h4 => ?_⟩
    · unfold palColour
      simp only [if_neg hq.2, Nat.add_zero, h0, h1, h2]
    · unfold palColour
      simp only [if_neg hq.2, Nat.add_zero, k0, k1, k2]
    · have := k3 3 (by omega) (by omega)
      rw [h4] at this
      exact this

theorem fourth (s : UInt8 → Int) {n : Nat} {d0 : List UInt8} (hl : d0.length = n * 4) :
    ∃ d, forStep 0 (n * 4) 4 (fun i d => scaleAt (fun v => .ok (s v)) (i + 3) d) d0 = .ok d ∧ d.length = d0.length ∧
      ∀ i, i < n → (∀ b, b < 3 → d[i * 4 + b]? = d0[i * 4 + b]?) ∧ ∃ v, d0[i * 4 + 3]? = some v ∧ d[i * 4 + 3]? = some (clamp (s v)) := by
  obtain ⟨d, e, l, r⟩ := chunks (k := 4) (n := n) id (fun _ c c' => ∃ x y z w, c = [x, y, z, w] ∧ c' = [x, y, z, clamp (s w)])
    (fun q => (fun i d => scaleAt (fun v => .ok (s v)) (i + 3) d) (q * 4)) d0 hl (by
      intro q t A c B hp ht hA hc
      match c, hc with
      | [x, y, z, w], _ =>
        refine ⟨_, [x, y, z, clamp (s w)], ?_, rfl, rfl, x, y, z, w, rfl, rfl⟩
        have ht' : t = A ++ ([x, y, z, w] ++ B) := ht
        rw [ht', ← hA]
        unfold scaleAt
        dsimp only
        rw [rd_of_some (b := A ++ ([x, y, z, w] ++ B)) (i := A.length + 3) (v := w) (by simp), bind_ok, bind_ok, wr_of_lt (by simp)]
        simp)
  refine ⟨d, by rw [forStep_mul (by omega)]; exact e, by rw [hl]; exact l, fun i hi => ?_⟩
  obtain ⟨x, y, z, w, hc, hc'⟩ := r i hi
  simp only [id] at hc hc'
  have g : ∀ b, b < 4 → d0[i * 4 + b]? = [x, y, z, w][b]? ∧ d[i * 4 + b]? = [x, y, z, clamp (s w)][b]? := by
    intro b hb
    rw [← hc, ← hc', chunk_get hb, chunk_get hb]
    exact ⟨rfl, rfl⟩
  refine ⟨fun b hb => ?_, w, (g 3 (by omega)).1, (g 3 (by omega)).2⟩
  rw [(g b (by omega)).1, (g b (by omega)).2]
  match b, hb with
  | 0, _ => rfl
  | 1, _ => rfl
  | 2, _ => rfl

/-- **C137.** `iluScaleAlpha` multiplies the alpha of every pixel of an image with signed bytes and alpha, or that of every entry of a palette with alpha, by the factor,
limited to 0 to 255, and leaves all else; `s v` is `v` times the factor, as an integer.  Missing, because false: images of other types (`C137_violated_bytes`). -/
theorem C137_alpha_partial (s : UInt8 → Int) (m : Img) (p : Pal) (n : Nat) :
    ((m.format = IL_RGBA ∨ m.format = IL_BGRA) → m.type = IL_BYTE → m.bpp = 4 → m.size = n * 4 → m.data.length = m.size →
      ∃ d, iluScaleAlpha (fun v => .ok (s v)) m p = .ok (some ({ m with data := d }, p)) ∧ d.length = m.data.length ∧
        ∀ i, i < n → (∀ b, b < 3 → d[i * 4 + b]? = m.data[i * 4 + b]?) ∧ ∃ v, m.data[i * 4 + 3]? = some v ∧ d[i * 4 + 3]? = some (clamp (s v))) ∧
    (m.format = IL_COLOUR_INDEX → (p.type = IL_PAL_RGBA32 ∨ p.type = IL_PAL_BGRA32) → p.size = n * 4 → p.data.length = p.size →
      ∃ d, iluScaleAlpha (fun v => .ok (s v)) m p = .ok (some (m, { p with data := d })) ∧ d.length = p.data.length ∧
        ∀ i, i < n → (∀ b, b < 3 → d[i * 4 + b]? = p.data[i * 4 + b]?) ∧ ∃ v, p.data[i * 4 + 3]? = some v ∧ d[i * 4 + 3]? = some (clamp (s v))) := by
  constructor
  · intro hf ht hb hs hl
    obtain ⟨d, e, l, r⟩ := fourth s (hl.trans hs)
    refine ⟨d, ?_, l, r⟩
    unfold iluScaleAlpha
    rw [if_neg (fun h => h.2 ht), if_pos (by rcases hf with h | h; exact .inr h; exact .inl h), hs, hb, e]
    rfl
  · intro hf ht hs hl
    obtain ⟨d, e, l, r⟩ := fourth s (hl.trans hs)
    refine ⟨d, ?_, l, r⟩
    have h4 : ilGetBppPal p.type = 4 := by rcases ht with h | h <;> rw [h] <;> rfl
    unfold iluScaleAlpha
    rw [if_neg (fun h => h.1 hf), if_neg (by rw [hf]; decide), if_pos hf, if_pos ht, h4, hs, e]
    rfl

example : (iluScaleAlpha (fun v => .ok (v.toNat * 2 : Nat)) (sample IL_BGRA IL_BYTE 4 1 2 [1, 2, 3, 4, 5, 6, 7, 200]) { data := [], size := 0, type := 0 }).map
    (Option.map (fun q => q.1.data)) = .ok (some [1, 2, 3, 8, 5, 6, 7, 255]) := by decide +kernel

/-- **C137 violated.** Of an image with luminance and alpha, in signed bytes, `iluScaleColours` scales the first half alone. -/
theorem C137_violated_half :
    (iluScaleColours (fun v => .ok (v.toNat * 2 : Nat)) (fun v => .ok (v.toNat * 2 : Nat)) (fun v => .ok (v.toNat * 2 : Nat))
      (sample IL_LUMINANCE_ALPHA IL_BYTE 2 1 4 [1, 9, 1, 9, 1, 9, 1, 9]) { data := [], size := 0, type := 0 }).map (Option.map (fun q => q.1.data)) =
      .ok (some [2, 9, 2, 9, 1, 9, 1, 9]) := by decide +kernel

/-- What the limit does: the nearest number from 0 to 255. -/
theorem C137_limit_partial (v : Int) : ((clamp v).toNat : Int) = max 0 (min 255 v) := by
  unfold clamp
  rw [Int.max_def, Int.min_def]
  split
  · show (0 : Int) = _
    split <;> split <;> omega
  · split
    · show (255 : Int) = _
      split <;> split <;> omega
    · rw [UInt8.toNat_ofNat']
      split <;> split <;> omega

example : (iluScaleColours (fun v => .ok (v.toNat * 2 : Nat)) (fun _ => .ok (-1)) (fun v => .ok v.toNat)
    (sample IL_COLOUR_INDEX IL_UNSIGNED_BYTE 1 1 1 [0]) { data := [3, 4, 200, 7], size := 4, type := IL_PAL_BGRA32 }).map (Option.map (fun q => q.2.data)) =
    .ok (some [3, 0, 255, 7]) := by decide +kernel

end DevIL.Colour
