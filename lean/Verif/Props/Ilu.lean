import Verif.Lemmas.Ilu
/-! Properties C49 (negative), C50 (alpha inversion), C51 (crop), C52 (comparison), C53 (colour counting), C54 (mipmaps). -/
set_option autoImplicit false
namespace DevIL.Ilu
open Utility

/-! ### C49 -/

theorem negate_plain {k n bpp : Nat} {d : List UInt8} (hk : k = 1 ∨ k = 2 ∨ k = 4) (hl : d.length = n * k) :
    negate k n bpp none d = .ok (d.map (~~~·)) := by
  unfold negate
  rw [if_pos hk]
  exact negPlain_spec hl

theorem cells {m : Img} (hm : m.Consistent) (hk : 0 < m.bpc) :
    m.data.length = m.width * m.height * m.depth * m.bpp * m.bpc ∧ m.size / m.bpc = m.width * m.height * m.depth * m.bpp := by
  have h : m.size = m.width * m.height * m.depth * m.bpp * m.bpc := by rw [hm.2.2.1]; grind
  exact ⟨by rw [hm.2.2.2, h], by rw [h, Nat.mul_div_cancel _ hk]⟩

/-- **C49.** The negative of an image that is not colour-indexed, with components of one, two or four bytes and no region set, is the image with
every byte of every pixel complemented and nothing else changed.  Missing, because false: components of eight bytes; and the complement of a
`float` is not its negative (`C49_violated_double`, `C49_violated_float`). -/
theorem C49_negative_partial (m : Img) (pal : Option Pal) (hm : m.Consistent) (hf : m.format ≠ IL_COLOUR_INDEX)
    (hk : m.bpc = 1 ∨ m.bpc = 2 ∨ m.bpc = 4) :
    ∃ m', iluNegative m pal none = .ok (some (m', pal)) ∧ m.SameShape m' ∧ m'.origin = m.origin ∧
      ∀ x y z b, m.In x y z b → m'.px x y z b = (m.px x y z b).map (~~~·) := by
  obtain ⟨h1, h2⟩ := cells hm (by omega)
  refine ⟨{ m with data := m.data.map (~~~·) }, ?_, ⟨rfl, by simp⟩, rfl, fun x y z b _ => ?_⟩
  · unfold iluNegative
    rw [if_neg hf, h2, negate_plain hk h1]
    rfl
  · unfold Img.px
    exact List.getElem?_map ..

/-- **C49.** Twice gives the image back. -/
theorem C49_twice_partial (m : Img) (pal : Option Pal) (hm : m.Consistent) (hf : m.format ≠ IL_COLOUR_INDEX)
    (hk : m.bpc = 1 ∨ m.bpc = 2 ∨ m.bpc = 4) :
    ∃ m', iluNegative m pal none = .ok (some (m', pal)) ∧ iluNegative m' pal none = .ok (some (m, pal)) := by
  obtain ⟨m', e, s, o, p⟩ := C49_negative_partial m pal hm hf hk
  have e1 := s.1
  have hm' := hm.of_same s
  obtain ⟨m'', e', s', o', p'⟩ := C49_negative_partial m' pal hm' (by rw [e1]; exact hf) (by rw [e1]; exact hk)
  refine ⟨m', e, ?_⟩
  rw [e']
  have hd : m''.data = m.data := by
    refine Img.data_ext hm ⟨?_, by rw [s'.2, s.2]⟩ fun x y z b hin => ?_
    · have e2 := s'.1
      rw [e1] at e2
      exact e2
    · rw [p' x y z b (by unfold Img.In at *; rw [e1]; exact hin), p x y z b hin, Option.map_map]
      cases m.px x y z b with
      | none => rfl
      | some v => simp
  have e2 := s'.1
  rw [e1] at e2
  have : m'' = m := by
    rw [e2, hd, o', o]
  rw [this]

/-- **C49.** With a palette, the palette entries are complemented and the pixels stay. -/
theorem C49_palette (m : Img) (p : Pal) (hf : m.format = IL_COLOUR_INDEX) (hk : m.bpc = 1) (hp : p.data.length = p.size)
    (h0 : p.size ≠ 0) (ht : p.type ≠ IL_PAL_NONE) :
    iluNegative m (some p) none = .ok (some (m, some { p with data := p.data.map (~~~·) })) := by
  unfold iluNegative
  rw [if_pos hf]
  dsimp only
  rw [if_neg (by simp [h0, ht]), hk, Nat.div_one, negate_plain (Or.inl rfl) (by omega)]
  rfl

/-- **C49.** With a region set, exactly the pixels of the region are complemented. -/
theorem C49_region_partial (m : Img) (pal : Option Pal) (mask : List UInt8) (hm : m.Consistent) (hf : m.format ≠ IL_COLOUR_INDEX)
    (hb : 0 < m.bpp) (hk : m.bpc = 1 ∨ m.bpc = 2 ∨ m.bpc = 4) (hmask : mask.length = m.width * m.height * m.depth) :
    ∃ m', iluNegative m pal (some mask) = .ok (some (m', pal)) ∧ m.SameShape m' ∧ m'.origin = m.origin ∧
      ∀ x y z b, m.In x y z b → m'.px x y z b =
        if mask[(z * m.height + y) * m.width + x]? = some 0 then m.px x y z b else (m.px x y z b).map (~~~·) := by
  obtain ⟨h1, h2⟩ := cells hm (by omega)
  obtain ⟨d', e, l, s⟩ := negMasked_spec (k := m.bpc) (mask := mask) hb h1 (by omega)
  refine ⟨{ m with data := d' }, ?_, ⟨rfl, l⟩, rfl, ?_⟩
  · unfold iluNegative negate
    rw [if_neg hf, h2, if_pos hk]
    dsimp only
    rw [e]
    rfl
  · rintro x y z b ⟨hx, hy, hz, hb'⟩
    have hp : (z * m.height + y) * m.width + x < m.width * m.height * m.depth := by
      have := idx_lt (idx_lt hz hy) hx
      rw [show m.depth * m.height * m.width = m.width * m.height * m.depth by grind] at this
      exact this
    have hk0 : 0 < m.bpc := by omega
    have hc : b / m.bpc < m.bpp := (Nat.div_lt_iff_lt_mul hk0).mpr hb'
    have key := s _ (b / m.bpc) (b % m.bpc) hp hc (Nat.mod_lt _ hk0)
    have ei : ((((z * m.height + y) * m.width + x) * m.bpp + b / m.bpc) * m.bpc + b % m.bpc) =
        ((z * m.height + y) * m.width + x) * (m.bpp * m.bpc) + b := by
      rw [Nat.add_mul, Nat.add_assoc, Nat.div_add_mod', Nat.mul_assoc]
    rw [ei] at key
    exact key

def dot (type bpc : Nat) (data : List UInt8) : Img :=
  ⟨1, 1, 1, 1, bpc, bpc, bpc, bpc, IL_LUMINANCE, type, IL_ORIGIN_LOWER_LEFT, data⟩

def rgbDot : Img := ⟨2, 1, 1, 3, 1, 6, 6, 6, IL_RGB, IL_UNSIGNED_BYTE, IL_ORIGIN_LOWER_LEFT, [1, 2, 3, 4, 5, 6]⟩

set_option maxRecDepth 20000 in
example : rgbDot.Consistent ∧ iluNegative rgbDot none none = .ok (some ({ rgbDot with data := [254, 253, 252, 251, 250, 249] }, none)) ∧
    iluNegative rgbDot none (some [0, 1]) = .ok (some ({ rgbDot with data := [1, 2, 3, 251, 250, 249] }, none)) :=
  ⟨⟨rfl, rfl, rfl, rfl⟩, rfl, rfl⟩

set_option maxRecDepth 20000 in
/-- **C49 (violated).** The negative of an image of `double` components is reported as done, but is the image itself. -/
theorem C49_violated_double (v : List UInt8) :
    iluNegative (dot IL_DOUBLE 8 v) none none = .ok (some (dot IL_DOUBLE 8 v, none)) := rfl

/-- **C49 (violated).** The negative of the `float` 1.0 (bytes 0, 0, 128, 63) has the bytes 255, 255, 127, 192, which is -3.9999998. -/
theorem C49_violated_float :
    iluNegative (dot IL_FLOAT 4 [0, 0, 128, 63]) none none = .ok (some (dot IL_FLOAT 4 [255, 255, 127, 192], none)) := rfl

/-- **C49 (violated).** With a region and a palette of two colours, the region's mask of one pixel is read outside its bounds. -/
theorem C49_violated_region_palette :
    iluNegative { dot IL_UNSIGNED_BYTE 1 [0] with format := IL_COLOUR_INDEX } (some ⟨[1, 2, 3, 4, 5, 6], 6, IL_PAL_RGB24⟩) (some [1]) =
      .error .oobRead := rfl

/-! ### C50 -/

/-- The bytes of component `c` of a pixel. -/
def compBytes (m : Img) (x y z c : Nat) : List UInt8 :=
  (m.data.drop ((((z * m.height + y) * m.width + x) * m.bpp + c) * m.bpc)).take m.bpc

/-- The inverse of a component: the complement of an integer, `1 - x` of a `float` or `double`. -/
def inverse (sub : List UInt8 → List UInt8) (type : Nat) (v : List UInt8) : List UInt8 :=
  if type = IL_FLOAT ∨ type = IL_DOUBLE then sub v else v.map (~~~·)

theorem alphaCase_spec (sub : List UInt8 → List UInt8) {t : Nat} (ht : ilGetBpcType t ≠ 0) (hh : t ≠ IL_HALF) :
    alphaCase sub t = some (ilGetBpcType t, inverse sub t) := by
  have h : t = IL_BYTE ∨ t = IL_UNSIGNED_BYTE ∨ t = IL_SHORT ∨ t = IL_UNSIGNED_SHORT ∨ t = IL_INT ∨ t = IL_UNSIGNED_INT ∨ t = IL_FLOAT ∨
      t = IL_DOUBLE := by
    unfold ilGetBpcType at ht
    grind
  rcases h with h | h | h | h | h | h | h | h <;> subst h <;> rfl

theorem inverse_length {sub : List UInt8 → List UInt8} (hs : ∀ v : List UInt8, (sub v).length = v.length) (t : Nat) (v : List UInt8) :
    (inverse sub t v).length = v.length := by
  unfold inverse
  split
  · exact hs v
  · simp

/-- An image with alpha, of any type but `IL_HALF`. -/
structure WithAlpha (m : Img) : Prop where
  whole : m.Whole
  format : m.format = IL_RGBA ∨ m.format = IL_BGRA ∨ m.format = IL_LUMINANCE_ALPHA
  type : m.type ≠ IL_HALF

theorem compBytes_get (m : Img) {x y z c b : Nat} (hb : b < m.bpc) : (compBytes m x y z c)[b]? = m.px x y z (c * m.bpc + b) := by
  unfold compBytes Img.px
  rw [List.getElem?_take, if_pos hb, List.getElem?_drop]
  congr 1
  grind

/-- **C50.** Inverting alpha replaces the alpha of the pixel number `p` (rows after each other) by its inverse if `p + components - 1` is still a
pixel number, and leaves every other component alone.  (`sub` is `1 - x` on the bytes of floating-point components.)  Missing, because false: the
last pixels of the image. -/
theorem C50_alpha_partial (sub : List UInt8 → List UInt8) (hsub : ∀ v : List UInt8, (sub v).length = v.length) (m : Img) (hm : WithAlpha m) :
    ∃ m', iluInvertAlpha sub m = .ok (some m') ∧ m.SameShape m' ∧ m'.origin = m.origin ∧
      ∀ x y z, x < m.width → y < m.height → z < m.depth →
        (∀ c, c + 1 < m.bpp → compBytes m' x y z c = compBytes m x y z c) ∧
        compBytes m' x y z (m.bpp - 1) =
          if (z * m.height + y) * m.width + x + (m.bpp - 1) < m.width * m.height * m.depth then inverse sub m.type (compBytes m x y z (m.bpp - 1))
          else compBytes m x y z (m.bpp - 1) := by
  obtain ⟨hw, hf, hh⟩ := hm
  have hbt := hw.bpcT
  have hb0 := hw.bpc0
  have hp0 := hw.bpp0
  have hcase := alphaCase_spec sub (t := m.type) (by omega) hh
  rw [← hbt] at hcase
  obtain ⟨hlen, -⟩ := cells hw.cons hb0
  generalize hN : m.width * m.height * m.depth = N at *
  have hsz : N * m.bpp * m.bpc < 4294967296 := by
    have := hw.fits
    rw [← hw.cons.2.2.2, hlen] at this
    exact this
  have hNlt : N < 4294967296 := by
    refine Nat.lt_of_le_of_lt ?_ hsz
    rw [Nat.mul_assoc]
    exact Nat.le_mul_of_pos_right _ (Nat.mul_pos hp0 hb0)
  have hwh : m.width * m.height < 4294967296 := by
    refine Nat.lt_of_le_of_lt ?_ hNlt
    rw [← hN]
    exact Nat.le_mul_of_pos_right _ hw.d0
  have hcnt : u32 (u32 (m.width * m.height) * m.depth) = N := by rw [u32_of_lt hwh, hN, u32_of_lt hNlt]
  have hin : ∀ i, i < N - (m.bpp - 1) → (m.bpp - 1 + i * m.bpp) * m.bpc + m.bpc ≤ m.data.length := by
    intro i hi
    rw [hlen, ← Nat.succ_mul]
    refine Nat.mul_le_mul_right _ ?_
    have := idx_lt (x := i) (w := N) (k := m.bpp) (c := m.bpp - 1) (by omega) (by omega)
    omega
  have hu : Upd (fun d => loopN (N - (m.bpp - 1)) (fun i d => mapComp m.bpc (inverse sub m.type) (m.bpp - 1 + i * m.bpp) d) d) m.data _ _ _ :=
    Upd.loop (U := fun i => InC m.bpc (m.bpp - 1 + i * m.bpp)) (R := fun i => InC m.bpc (m.bpp - 1 + i * m.bpp))
      (fun i hi => mapComp_upd (hin i hi) hb0 (inverse_length hsub m.type))
      (fun a b i hab _ _ h h' => by
        have := h.inj h'
        have := (idx_inj (x := a) (x' := b) (c := m.bpp - 1) (c' := m.bpp - 1) (k := m.bpp) (by omega) (by omega) (by omega)).1
        omega)
  obtain ⟨d', e, l, s⟩ := hu.apply
  refine ⟨{ m with data := d' }, ?_, ⟨rfl, l⟩, rfl, fun x y z hx hy hz => ?_⟩
  · unfold iluInvertAlpha
    rw [if_neg (by rintro ⟨h1, h2, h3⟩; rcases hf with h | h | h <;> contradiction), hcase, hcnt]
    dsimp only
    rw [e]
    rfl
  · have hp : (z * m.height + y) * m.width + x < N := by
      have := idx_lt (idx_lt hz hy) hx
      rw [show m.depth * m.height * m.width = N by rw [← hN]; grind] at this
      exact this
    have hch : ∀ c, c < m.bpp → ∀ b, b < m.bpc →
        (((z * m.height + y) * m.width + x) * m.bpp + c) * m.bpc + b < m.data.length := by
      intro c hc b hb
      rw [hlen]
      exact idx_lt (idx_lt hp hc) hb
    have get : ∀ (d : List UInt8) c b, b < m.bpc → (compBytes { m with data := d } x y z c)[b]? =
        d[(((z * m.height + y) * m.width + x) * m.bpp + c) * m.bpc + b]? := by
      intro d c b hb
      unfold compBytes
      dsimp only
      rw [List.getElem?_take, if_pos hb, List.getElem?_drop]
    have out : ∀ (d : List UInt8) c b, ¬ b < m.bpc → (compBytes { m with data := d } x y z c)[b]? = none := by
      intro d c b hb
      unfold compBytes
      dsimp only
      rw [List.getElem?_take, if_neg hb]
    generalize hP : (z * m.height + y) * m.width + x = P at *
    have keep : ∀ c, c < m.bpp → (∀ i, i < N - (m.bpp - 1) → m.bpp - 1 + i * m.bpp ≠ P * m.bpp + c) →
        compBytes { m with data := d' } x y z c = compBytes m x y z c := by
      intro c hc hne
      apply List.ext_getElem?
      intro b
      by_cases hb : b < m.bpc
      · rw [get d' c b hb, show compBytes m x y z c = compBytes { m with data := m.data } x y z c from rfl, get m.data c b hb]
        refine (s _ (hch c hc b hb)).2 ?_
        rintro ⟨i, hi, hic⟩
        exact hne i hi (hic.inj ⟨b, hb, rfl⟩)
      · rw [out d' c b hb]
        exact (out m.data c b hb).symm
    refine ⟨fun c hc => keep c (by omega) fun i hi he => ?_, ?_⟩
    · have := (idx_inj (x := i) (x' := P) (c := m.bpp - 1) (c' := c) (k := m.bpp) (by omega) (by omega) (by omega)).2
      omega
    · split
      · rename_i hlt
        apply List.ext_getElem?
        intro b
        by_cases hb : b < m.bpc
        · have hi := hch (m.bpp - 1) (by omega) b hb
          rw [get d' _ b hb, (s _ hi).1 ⟨P, by omega, b, hb, by rw [Nat.add_comm (m.bpp - 1)]⟩]
          rw [idx_div hb, idx_mod hb]
          unfold compBytes
          rw [hP]
        · rw [out d' _ b hb, List.getElem?_eq_none]
          rw [inverse_length hsub]
          unfold compBytes
          simp
          omega
      · rename_i hlt
        refine keep _ (by omega) fun i hi he => ?_
        have := (idx_inj (x := i) (x' := P) (c := m.bpp - 1) (c' := m.bpp - 1) (k := m.bpp) (by omega) (by omega) (by omega)).1
        omega

/-- Two by two pixels of luminance and alpha. -/
def la22 : Img := ⟨2, 2, 1, 2, 1, 4, 8, 8, IL_LUMINANCE_ALPHA, IL_UNSIGNED_BYTE, IL_ORIGIN_LOWER_LEFT, [1, 2, 3, 4, 5, 6, 7, 8]⟩

set_option maxRecDepth 20000 in
example : WithAlpha la22 ∧ iluInvertAlpha id la22 = .ok (some { la22 with data := [1, 253, 3, 251, 5, 249, 7, 8] }) :=
  ⟨⟨⟨⟨rfl, rfl, rfl, rfl⟩, by decide, by decide, by decide, by decide, by decide, rfl, rfl, by decide⟩, Or.inr (Or.inr rfl), by decide⟩, rfl⟩

set_option maxRecDepth 20000 in
/-- **C50 (violated).** In an image of one RGBA pixel no alpha is inverted. -/
theorem C50_violated_last (sub : List UInt8 → List UInt8) (r g b a : UInt8) :
    iluInvertAlpha sub ⟨1, 1, 1, 4, 1, 4, 4, 4, IL_RGBA, IL_UNSIGNED_BYTE, IL_ORIGIN_LOWER_LEFT, [r, g, b, a]⟩ =
      .ok (some ⟨1, 1, 1, 4, 1, 4, 4, 4, IL_RGBA, IL_UNSIGNED_BYTE, IL_ORIGIN_LOWER_LEFT, [r, g, b, a]⟩) := rfl

/-- **C50 (violated).** Alpha of type `IL_HALF` is never inverted, though success is reported. -/
theorem C50_violated_half (sub : List UInt8 → List UInt8) (m : Img) (hf : m.format = IL_RGBA) (ht : m.type = IL_HALF) :
    iluInvertAlpha sub m = .ok (some m) := by
  unfold iluInvertAlpha
  rw [if_neg (by simp [hf]), ht]
  rfl

/-! ### C51 -/

/-- **C51.** Cropping an image of one slice and one byte per component to a rectangle inside it gives an image of the rectangle's size, with the
kind and the origin of the image, whose pixel at `x, y` is the image's pixel at `x + xoff, y + yoff`.  Missing, because false: rectangles that
reach outside, larger components, several slices, palettes, and an origin mode other than the image's origin. -/
theorem C51_crop_partial (junk junk' : Nat → UInt8) (mode : Option Nat) (m : Img) (xoff yoff w h : Nat) (zoff d : Nat) (hm : m.Whole)
    (hf : m.format ≠ IL_COLOUR_INDEX) (hd : m.depth = 1) (hb : m.bpc = 1) (hmode : mode = none ∨ mode = some m.origin) (hz : zoff ≤ 1)
    (hw : 0 < w) (hh : 0 < h) (hx : xoff + w ≤ m.width) (hy : yoff + h ≤ m.height) :
    ∃ m', iluCrop junk junk' mode m xoff yoff zoff w h d = .ok (some m') ∧ m'.Consistent ∧ m'.width = w ∧ m'.height = h ∧ m'.depth = 1 ∧
      m'.bpp = m.bpp ∧ m'.bpc = m.bpc ∧ m'.format = m.format ∧ m'.type = m.type ∧ m'.origin = m.origin ∧
      ∀ x y b, x < w → y < h → b < m.bpp → m'.px x y 0 b = m.px (x + xoff) (y + yoff) 0 b := by
  have hp0 := hm.bpp0
  have hW := hm.w0
  have hH := hm.h0
  have hlen := hm.cons.len
  rw [hd, hb, Nat.mul_one, Nat.one_mul] at hlen
  have hfits : m.height * m.width * m.bpp < 4294967296 := by
    have := hm.fits
    rw [← hm.cons.2.2.2, hlen] at this
    exact this
  have hWH : m.width ≤ m.height * m.width * m.bpp ∧ m.height ≤ m.height * m.width * m.bpp := by
    constructor
    · rw [Nat.mul_comm m.height, Nat.mul_assoc]; exact Nat.le_mul_of_pos_right _ (Nat.mul_pos hH hp0)
    · rw [Nat.mul_assoc]; exact Nat.le_mul_of_pos_right _ (Nat.mul_pos hW hp0)
  have hbps : m.bps = m.width * m.bpp := by rw [hm.cons.1, hb, Nat.mul_one]
  obtain ⟨src, e1, l1, s1, -⟩ := Manip.C18_copyPixels_partial junk' m mode 0 0 0 m.width m.height 1 (alloc junk' m.size) hm hf hW hH (by decide)
    (by rw [alloc_length, ← hm.cons.2.2.2, hlen, hb]; grind) (by rw [hb]; grind) (by omega) (by omega) (by omega) (by omega) (by omega) (by omega)
    (Or.inl ⟨by omega, by omega⟩) (fun _ _ => ⟨rfl, Or.inl rfl⟩)
  have hsrc : ∀ x y b, x < m.width → y < m.height → b < m.bpp → src[(y * m.width + x) * m.bpp + b]? = m.px x y 0 b := by
    intro x y b hx hy hb'
    have key := s1 x y 0 b hx hy (by decide) (by rw [hb]; omega)
    rw [if_pos ⟨by omega, by omega, by omega⟩] at key
    unfold blockPx at key
    rw [hb, Nat.mul_one] at key
    simp only [Nat.zero_mul, Nat.zero_add, Nat.add_zero] at key
    rw [key]
    rcases hmode with e | e
    · rw [e]; rfl
    · rw [e]
      exact if_pos rfl
  have hwh : h * w * m.bpp ≤ m.height * m.width * m.bpp := Nat.mul_le_mul_right _ (Nat.mul_le_mul (by omega) (by omega))
  have hbt : ilGetBpcType m.type = 1 := by rw [← hm.bpcT, hb]
  obtain ⟨n, e2, c, f1, f2, f3, f4, f5, f6, f7, _⟩ := Image.C14_geometry_partial junk w h m.depth m.bpp m.format m.type none
      (by rw [hbt]; decide)
      (by rw [hbt, hd, Nat.max_eq_left hw, Nat.max_eq_left hh, Nat.max_self, Nat.mul_one, Nat.mul_one]
          refine Nat.lt_of_le_of_lt ?_ (Nat.lt_of_le_of_lt hwh hfits)
          grind) (fun _ h => nomatch h)
  rw [hbt] at f5
  rw [Nat.max_eq_left hw] at f1
  rw [Nat.max_eq_left hh] at f2
  rw [hd, Nat.max_self] at f3
  have hnb : n.bps = w * m.bpp := by rw [c.1, f1, f4, f5, Nat.mul_one]
  have hnl : n.data.length = h * w * m.bpp := by rw [c.len, f1, f2, f3, f4, f5, Nat.mul_one, Nat.one_mul]
  have hsl : src.length = m.height * m.width * m.bpp := by rw [l1, alloc_length, ← hm.cons.2.2.2, hlen]
  obtain ⟨data, e3, l3, s3, -⟩ := copy4_spec (nz := 1) (ny := h) (nx := w) (nc := m.bpp)
    (dIdx := fun _ y x c => u32 (y * n.bps + x * m.bpp + c))
    (sIdx := fun _ y x c => u32 ((y + yoff) * m.bps + x * m.bpp + xoff * m.bpp + c)) (src := src) (dst := n.data)
    (fun z y x c hz hy' hx' hc => by
      have := idx_lt (idx_lt hy' hx') hc
      rw [hnl, hnb, u32_of_lt] <;> rw [show y * (w * m.bpp) + x * m.bpp + c = (y * w + x) * m.bpp + c by grind] <;> omega)
    (fun z y x c hz hy' hx' hc => by
      have := idx_lt (idx_lt (show y + yoff < m.height by omega) (show x + xoff < m.width by omega)) hc
      rw [hsl, hbps, u32_of_lt] <;>
        rw [show (y + yoff) * (m.width * m.bpp) + x * m.bpp + xoff * m.bpp + c = ((y + yoff) * m.width + (x + xoff)) * m.bpp + c by grind] <;> omega)
    (fun z y x c z' y' x' c' hz hy hx hc hz' hy' hx' hc' he => by
      have h1 := idx_lt (idx_lt hy hx) hc
      have h2 := idx_lt (idx_lt hy' hx') hc'
      rw [hnb, show y * (w * m.bpp) + x * m.bpp + c = (y * w + x) * m.bpp + c by grind,
        show y' * (w * m.bpp) + x' * m.bpp + c' = (y' * w + x') * m.bpp + c' by grind, u32_of_lt (by omega), u32_of_lt (by omega)] at he
      obtain ⟨he, hcc⟩ := idx_inj hc hc' he
      obtain ⟨hyy, hxx⟩ := idx_inj hx hx' he
      exact ⟨by omega, hyy, hxx, hcc⟩)
  unfold copy4 at e3
  rw [loopN_one] at e3
  refine ⟨{ n with origin := m.origin, data := data }, ?_, ⟨c.1, c.2.1, c.2.2.1, by rw [← c.2.2.2]; exact l3⟩, f1, f2, f3, f4, f5.trans hb.symm, f6,
    f7, rfl, fun x y b hx' hy' hb' => ?_⟩
  · unfold iluCrop iluCrop2D
    rw [if_pos hz, if_neg (by omega), e1, bind_ok]
    simp only []
    rw [e2, bind_ok]
    simp only []
    rw [f2, f4, hnb]
    have : (fun (y : Nat) (d : List UInt8) => forStep 0 (w * m.bpp) m.bpp (fun x d => loopN m.bpp (fun c d => do
        let v ← rd src (u32 ((y + yoff) * m.bps + x + xoff * m.bpp + c))
        wr d (u32 (y * (w * m.bpp) + x + c)) v) d) d) =
        fun y d => loopN w (fun x d => loopN m.bpp (fun c d => do
          let v ← rd src (u32 ((y + yoff) * m.bps + x * m.bpp + xoff * m.bpp + c))
          wr d (u32 (y * (w * m.bpp) + x * m.bpp + c)) v) d) d := by
      funext y d
      rw [forStep_mul hp0]
    rw [this]
    rw [hnb] at e3
    rw [e3]
    rfl
  · have key := s3 0 y x b (by decide) hy' hx' hb'
    have h1 := idx_lt (idx_lt hy' hx') hb'
    have h2 := idx_lt (idx_lt (show y + yoff < m.height by omega) (show x + xoff < m.width by omega)) hb'
    rw [hnb, hbps, show y * (w * m.bpp) + x * m.bpp + b = (y * w + x) * m.bpp + b by grind,
      show (y + yoff) * (m.width * m.bpp) + x * m.bpp + xoff * m.bpp + b = ((y + yoff) * m.width + (x + xoff)) * m.bpp + b by grind,
      u32_of_lt (by omega), u32_of_lt (by omega), hsrc (x + xoff) (y + yoff) b (by omega) (by omega) hb'] at key
    rw [← key]
    unfold Img.px
    dsimp only
    rw [f1, f4, f5, Nat.zero_mul, Nat.zero_add, Nat.mul_one]

/-- Three by two pixels of RGB. -/
def rgb32 : Img := ⟨3, 2, 1, 3, 1, 9, 18, 18, IL_RGB, IL_UNSIGNED_BYTE, IL_ORIGIN_UPPER_LEFT,
  [1, 2, 3, 4, 5, 6, 7, 8, 9, 11, 12, 13, 14, 15, 16, 17, 18, 19]⟩

set_option maxRecDepth 20000 in
example : rgb32.Whole ∧ (iluCrop (fun _ => 0) (fun _ => 0) none rgb32 1 1 0 2 1 1).map (Option.map Img.data) = .ok (some [14, 15, 16, 17, 18, 19]) :=
  ⟨⟨⟨rfl, rfl, rfl, rfl⟩, by decide, by decide, by decide, by decide, by decide, rfl, rfl, by decide⟩, rfl⟩

set_option maxRecDepth 20000 in
/-- **C51 (violated).** A rectangle of the image's size placed one row down is accepted, and read from outside the image. -/
theorem C51_violated_outside : iluCrop (fun _ => 0) (fun _ => 0) none rgb32 0 1 0 3 2 1 = .error .oobRead := by rfl

set_option maxRecDepth 20000 in
/-- **C51 (violated).** Cropping the second of two 16-bit pixels gives a pixel made of the halves of both. -/
theorem C51_violated_wide : (iluCrop (fun _ => 0) (fun _ => 0) none ⟨2, 1, 1, 1, 2, 4, 4, 4, IL_LUMINANCE, IL_UNSIGNED_SHORT, IL_ORIGIN_UPPER_LEFT, [1, 2, 3, 4]⟩
    1 0 0 1 1 1).map (Option.map Img.data) = .ok (some [2, 3]) := by rfl

set_option maxRecDepth 20000 in
/-- **C51 (violated).** Cropping an image of two slices leaves the second slice uninitialised: it is whatever the new block held. -/
theorem C51_violated_slices : ∀ v : Bool, (iluCrop (fun _ => if v then 7 else 9) (fun _ => 0) none
    ⟨1, 1, 2, 1, 1, 1, 1, 2, IL_LUMINANCE, IL_UNSIGNED_BYTE, IL_ORIGIN_UPPER_LEFT, [1, 2]⟩ 0 0 0 1 1 2).map (Option.map Img.data) =
      .ok (some [1, if v then 7 else 9])
  | true => by rfl
  | false => by rfl

set_option maxRecDepth 20000 in
/-- **C51 (violated).** Cropping a colour-indexed image gives uninitialised pixels. -/
theorem C51_violated_index (v : UInt8) : (iluCrop (fun _ => 0) (fun _ => v) none
    ⟨2, 1, 1, 1, 1, 2, 2, 2, IL_COLOUR_INDEX, IL_UNSIGNED_BYTE, IL_ORIGIN_UPPER_LEFT, [1, 2]⟩ 0 0 0 1 1 1).map (Option.map Img.data) = .ok (some [v]) := by rfl

set_option maxRecDepth 20000 in
/-- **C51 (violated).** With the origin mode set to the opposite of the image's origin, the top row is asked for and the bottom row is given. -/
theorem C51_violated_origin : (iluCrop (fun _ => 0) (fun _ => 0) (some IL_ORIGIN_LOWER_LEFT) rgb32 0 0 0 3 1 1).map (Option.map fun m => (m.origin, m.data)) =
    .ok (some (IL_ORIGIN_UPPER_LEFT, [11, 12, 13, 14, 15, 16, 17, 18, 19])) := by rfl

set_option maxRecDepth 20000 in
/-- **C51 (violated).** Cropping slices 2 and 3 of four gives no such image: the depth asked for is reduced by the offset. -/
theorem C51_violated_depth : (iluCrop (fun _ => 0) (fun _ => 0) none
    ⟨1, 2, 4, 1, 1, 1, 2, 8, IL_LUMINANCE, IL_UNSIGNED_BYTE, IL_ORIGIN_UPPER_LEFT, [1, 2, 3, 4, 5, 6, 7, 8]⟩ 0 0 2 1 2 2).map
      (Option.map fun m => (m.depth, m.data)) = .ok (some (1, [5, 6])) := by rfl

/-! ### C52 -/

/-- Two images have the same dimensions, layout and pixels. -/
def SameImage (a b : Img) : Prop :=
  a.width = b.width ∧ a.height = b.height ∧ a.depth = b.depth ∧ a.bpp = b.bpp ∧ a.format = b.format ∧ a.type = b.type ∧ a.origin = b.origin ∧
    ∀ x y z c, a.In x y z c → a.px x y z c = b.px x y z c

/-- Comparing bytes stops at the first difference. -/
theorem same_bytes {a b : List UInt8} (n : Nat) (ha : n ≤ a.length) (hb : n ≤ b.length) :
    ∃ r, loopN n (fun i same => if same then do
      let u ← rd a i
      let v ← rd b i
      pure (decide (u = v)) else pure same) true = .ok r ∧ (r = true ↔ ∀ i, i < n → a[i]? = b[i]?) := by
  refine loopN_inv (fun k r => r = true ↔ ∀ i, i < k → a[i]? = b[i]?) (by simp) fun k r hk I => ?_
  cases r with
  | false =>
    refine ⟨false, rfl, ?_⟩
    constructor
    · exact fun h => nomatch h
    · intro h
      exact I.2 fun i hi => h i (by omega)
  | true =>
    have I := I.1 rfl
    refine ⟨decide (a[k] = b[k]), ?_, ?_⟩
    · rw [if_pos rfl, rd_of_lt (by omega), bind_ok, rd_of_lt (by omega), bind_ok]
      rfl
    · rw [decide_eq_true_iff]
      constructor
      · intro h i hi
        by_cases hik : i = k
        · subst hik
          rw [List.getElem?_eq_getElem (by omega), List.getElem?_eq_getElem (by omega), h]
        · exact I i (by omega)
      · intro h
        have := h k (by omega)
        rw [List.getElem?_eq_getElem (by omega), List.getElem?_eq_getElem (by omega)] at this
        exact Option.some.inj this

/-- **C52.** Comparing the current image with another answers whether they have the same dimensions, layout and pixels, and leaves the binding
and all images as they are.  Missing, because false: the palettes are not compared. -/
theorem C52_compare_partial (s : Names) (comp : Nat) (c o : Img × Option Pal) (hc : s.image s.cur = some c) (ho : s.image comp = some o)
    (hcc : c.1.Consistent) (hoc : o.1.Consistent) (hct : c.1.bpc = ilGetBpcType c.1.type) (hot : o.1.bpc = ilGetBpcType o.1.type) :
    ∃ r, iluCompareImage s comp = .ok (r, s) ∧ (r = true ↔ SameImage c.1 o.1) := by
  unfold iluCompareImage
  by_cases he : s.cur = comp
  · rw [if_pos he]
    refine ⟨true, rfl, ?_⟩
    rw [← he, hc, Option.some.injEq] at ho
    rw [ho]
    simp [SameImage]
  · rw [if_neg he, hc, ho]
    dsimp only
    unfold compareImages
    by_cases hd : o.1.bpp ≠ c.1.bpp ∨ o.1.depth ≠ c.1.depth ∨ o.1.format ≠ c.1.format ∨ o.1.height ≠ c.1.height ∨
        o.1.origin ≠ c.1.origin ∨ o.1.type ≠ c.1.type ∨ o.1.width ≠ c.1.width
    · rw [if_pos hd]
      refine ⟨false, rfl, ?_⟩
      constructor
      · exact fun h => nomatch h
      · rintro ⟨h1, h2, h3, h4, h5, h6, h7, -⟩
        omega
    · rw [if_neg hd]
      have hbpc : c.1.bpc = o.1.bpc := by
        rw [hct, hot]
        congr 1
        omega
      have hl : o.1.data.length = c.1.data.length := by
        rw [hcc.len, hoc.len, ← hbpc, show o.1.depth = c.1.depth by omega, show o.1.height = c.1.height by omega,
          show o.1.width = c.1.width by omega, show o.1.bpp = c.1.bpp by omega]
      obtain ⟨r, e, h⟩ := same_bytes (a := o.1.data) (b := c.1.data) c.1.size (by rw [hl, hcc.2.2.2]; omega) (by rw [hcc.2.2.2]; omega)
      refine ⟨r, ?_, h.trans ?_⟩
      · rw [e]
        rfl
      · constructor
        · intro h
          have hd : o.1.data = c.1.data := by
            apply List.ext_getElem?
            intro i
            by_cases hi : i < c.1.data.length
            · exact h i (by rw [← hcc.2.2.2]; exact hi)
            · rw [List.getElem?_eq_none (by omega), List.getElem?_eq_none (by omega)]
          refine ⟨by omega, by omega, by omega, by omega, by omega, by omega, by omega, fun x y z b _ => ?_⟩
          unfold Img.px
          rw [hd, hbpc, show o.1.height = c.1.height by omega, show o.1.width = c.1.width by omega, show o.1.bpp = c.1.bpp by omega]
        · rintro ⟨h1, h2, h3, h4, h5, h6, h7, h⟩ i -
          have : o.1.data = c.1.data := by
            refine ext_pos (hl.trans hcc.len) hcc.len fun z y x b hz hy hx hb => ?_
            have := h x y z b ⟨hx, hy, hz, hb⟩
            unfold Img.px at this
            rw [← h1, ← h2, ← h4, ← hbpc] at this
            exact this.symm
          rw [this]

/-- **C52.** A name that is not an image is reported different, and the binding is unchanged. -/
theorem C52_missing_partial (s : Names) (comp : Nat) (hc : s.cur ≠ comp) (h : s.image comp = none) : iluCompareImage s comp = .ok (false, s) := by
  unfold iluCompareImage
  rw [if_neg hc, h]
  cases s.image s.cur <;> rfl

def two (a b : Img × Option Pal) : Names := ⟨fun n => if n = 1 then some a else if n = 2 then some b else none, 1⟩

example : rgbDot.bpc = ilGetBpcType rgbDot.type ∧
    (iluCompareImage (two (rgbDot, none) ({ rgbDot with data := [1, 2, 3, 4, 5, 7] }, none)) 2).map Prod.fst = .ok false ∧
    (iluCompareImage (two (rgbDot, none) (rgbDot, none)) 2).map Prod.fst = .ok true := ⟨rfl, rfl, rfl⟩

/-- **C52 (violated).** A black and a white image, each one pixel with colour 0 of its palette, compare as the same. -/
theorem C52_violated_palette : let m := { dot IL_UNSIGNED_BYTE 1 [0] with format := IL_COLOUR_INDEX }
    (iluCompareImage (two (m, some ⟨[0, 0, 0], 3, IL_PAL_RGB24⟩) (m, some ⟨[255, 255, 255], 3, IL_PAL_RGB24⟩)) 2).map Prod.fst = .ok true := rfl

/-! ### C53 -/

/-- The bytes of a pixel. -/
def pixel (m : Img) (x y z : Nat) : List UInt8 :=
  (m.data.drop (((z * m.height + y) * m.width + x) * (m.bpp * m.bpc))).take (m.bpp * m.bpc)

/-- `n` is the number of distinct colours of the image. -/
def DistinctColours (m : Img) (n : Nat) : Prop :=
  ∃ cols : List (List UInt8), cols.Nodup ∧ cols.length = n ∧
    ∀ c, c ∈ cols ↔ ∃ x y z, x < m.width ∧ y < m.height ∧ z < m.depth ∧ c = pixel m x y z

/-- A pixel as four bytes. -/
def pad (bpp : Nat) (c : List UInt8) : List UInt8 := c ++ List.replicate (4 - bpp) 0

theorem pad_inj {bpp : Nat} {c c' : List UInt8} (h : pad bpp c = pad bpp c') : c = c' := List.append_cancel_right h

theorem colour_spec {d : List UInt8} {bpp i : Nat} (hb : bpp = 1 ∨ bpp = 3 ∨ bpp = 4) (hi : i + bpp ≤ d.length) :
    colour d bpp i = .ok (pad bpp ((d.drop i).take bpp)) := by
  unfold colour
  have e : (d.drop i).take bpp = (List.range bpp).map fun k => d.getD (i + k) 0 := by
    apply List.ext_getElem?
    intro k
    rw [List.getElem?_take]
    split
    · rw [List.getElem?_drop, List.getElem?_map, List.getElem?_range (by omega), Option.map_some, List.getD_eq_getElem?_getD,
        List.getElem?_eq_getElem (by omega)]
      rfl
    · rw [List.getElem?_eq_none (by simp; omega)]
  have r : ∀ k, k < bpp → rd d (i + k) = .ok (d.getD (i + k) 0) := by
    intro k hk
    rw [rd_of_lt (by omega), List.getD_eq_getElem?_getD, List.getElem?_eq_getElem (by omega)]
    rfl
  have r0 := r 0 (by omega)
  rw [Nat.add_zero] at r0
  rw [e, r0, bind_ok]
  rcases hb with h | h | h
  · subst h
    rfl
  · subst h
    rw [if_pos (by decide), r 1 (by decide), bind_ok, r 2 (by decide), bind_ok, if_neg (by decide)]
    rfl
  · subst h
    rw [if_pos (by decide), r 1 (by decide), bind_ok, r 2 (by decide), bind_ok, if_pos (by decide), r 3 (by decide), bind_ok]
    rfl

/-- Distinct members of a list are no more than its length. -/
theorem nodup_le {α : Type} : ∀ {l l' : List α}, l.Nodup → (∀ c, c ∈ l → c ∈ l') → l.length ≤ l'.length
  | [], _, _, _ => Nat.zero_le _
  | a :: l, l', hn, h => by
    obtain ⟨u, v, rfl⟩ := List.append_of_mem (h a (List.mem_cons_self ..))
    have hn := List.nodup_cons.1 hn
    have := nodup_le (l := l) (l' := u ++ v) hn.2 fun c hc => by
      have := h c (List.mem_cons_of_mem _ hc)
      rw [List.mem_append, List.mem_cons] at this
      rw [List.mem_append]
      rcases this with h | h | h
      · exact Or.inl h
      · subst h; exact absurd hc hn.1
      · exact Or.inr h
    simp only [List.length_append, List.length_cons] at this ⊢
    omega

/-- The pixels counted so far. -/
structure Counted (bpp H : Nat) (P : Nat → List UInt8) (k : Nat) (s : Count) (seen : List (List UInt8)) : Prop where
  nodup : seen.Nodup
  mem : ∀ c, c ∈ seen ↔ ∃ i, i < k ∧ c = P i
  chain : ∀ q c, c ∈ s.chain q ↔ ∃ p, p ∈ seen ∧ c = pad bpp p ∧ bucketOf c % 8192 = q
  cols : s.cols = seen.length
  heap : s.heapPos * H + s.heapPtr = seen.length
  ptr : s.heapPtr < H

theorem counted_step {bpp H : Nat} {P : Nat → List UInt8} {k : Nat} {s : Count} {seen : List (List UInt8)} (hC : Counted bpp H P k s seen)
    (hroom : (P k ∉ seen) → seen.length + 1 < 9 * H) :
    ∃ t seen', countStep H (pad bpp (P k)) s = .ok t ∧ Counted bpp H P (k + 1) t seen' := by
  unfold countStep
  dsimp only
  have hmem : (pad bpp (P k) ∈ s.chain (bucketOf (pad bpp (P k)) % 8192)) ↔ P k ∈ seen := by
    rw [hC.chain]
    constructor
    · rintro ⟨p, hp, he, -⟩
      rw [pad_inj he]
      exact hp
    · exact fun h => ⟨P k, h, rfl, rfl⟩
  by_cases hk : P k ∈ seen
  · rw [if_pos (hmem.2 hk)]
    refine ⟨s, seen, rfl, ⟨hC.nodup, fun c => ?_, hC.chain, hC.cols, hC.heap, hC.ptr⟩⟩
    rw [hC.mem]
    constructor
    · rintro ⟨i, hi, h⟩
      exact ⟨i, by omega, h⟩
    · rintro ⟨i, hi, h⟩
      by_cases hik : i = k
      · subst hik
        rw [h]
        exact (hC.mem _).1 hk
      · exact ⟨i, by omega, h⟩
  · rw [if_neg (fun h => hk (hmem.1 h))]
    have hr := hroom hk
    have hH := hC.ptr
    have hh := hC.heap
    have next : ∃ t, takeEntry H s = .ok t ∧ t.chain = s.chain ∧ t.cols = s.cols ∧ t.heapPos * H + t.heapPtr = seen.length + 1 ∧ t.heapPtr < H := by
      unfold takeEntry
      rw [if_neg (by omega)]
      split
      · rename_i hfull
        have e : (s.heapPos + 1) * H = seen.length + 1 := by rw [Nat.add_mul]; omega
        have : s.heapPos + 1 < 9 := by
          apply Nat.lt_of_not_le
          intro h
          have := Nat.mul_le_mul_right H h
          omega
        rw [if_pos this]
        exact ⟨_, rfl, rfl, rfl, by show (s.heapPos + 1) * H + 0 = _; omega, by show 0 < H; omega⟩
      · exact ⟨_, rfl, rfl, rfl, by show s.heapPos * H + (s.heapPtr + 1) = _; omega, by show s.heapPtr + 1 < H; omega⟩
    obtain ⟨t, e, t1, t2, t3, t4⟩ := next
    rw [e, bind_ok]
    refine ⟨_, P k :: seen, rfl, ⟨List.nodup_cons.2 ⟨hk, hC.nodup⟩, fun c => ?_, fun q c => ?_, ?_, t3, t4⟩⟩
    · rw [List.mem_cons, hC.mem]
      constructor
      · rintro (h | ⟨i, hi, h⟩)
        · exact ⟨k, by omega, h⟩
        · exact ⟨i, by omega, h⟩
      · rintro ⟨i, hi, h⟩
        by_cases hik : i = k
        · subst hik
          exact Or.inl h
        · exact Or.inr ⟨i, by omega, h⟩
    · show c ∈ (if q = _ then pad bpp (P k) :: t.chain q else t.chain q) ↔ _
      rw [t1]
      split
      · rename_i hq
        rw [List.mem_cons, hC.chain]
        constructor
        · rintro (h | ⟨p, hp, h⟩)
          · exact ⟨P k, List.mem_cons_self .., h, by rw [h, hq]⟩
          · exact ⟨p, List.mem_cons_of_mem _ hp, h⟩
        · rintro ⟨p, hp, h⟩
          rcases List.mem_cons.1 hp with hp | hp
          · subst hp; exact Or.inl h.1
          · exact Or.inr ⟨p, hp, h⟩
      · rename_i hq
        rw [hC.chain]
        constructor
        · rintro ⟨p, hp, h⟩
          exact ⟨p, List.mem_cons_of_mem _ hp, h⟩
        · rintro ⟨p, hp, h1, h2⟩
          rcases List.mem_cons.1 hp with hp | hp
          · subst hp; rw [h1] at h2; exact absurd h2.symm hq
          · exact ⟨p, hp, h1, h2⟩
    · show t.cols + 1 = _
      rw [t2, hC.cols]
      rfl

/-- **C53.** `iluColoursUsed` gives the number of distinct colours of an image of 1, 3 or 4 components of one byte, if there are fewer than nine
times an eighth of the number of its pixels (rounded down, at least one).  Missing, because false: the other images. -/
theorem C53_count_partial (m : Img) (hm : m.Consistent) (hb : m.bpp = 1 ∨ m.bpp = 3 ∨ m.bpp = 4) (hc : m.bpc = 1)
    (cols : List (List UInt8)) (hcols : ∀ x y z, x < m.width → y < m.height → z < m.depth → pixel m x y z ∈ cols)
    (hfew : cols.length < 9 * max 1 (m.width * m.height * m.depth / 8)) :
    ∃ n, iluColoursUsed m = .ok n ∧ DistinctColours m n := by
  have hl := hm.len
  rw [hc, Nat.mul_one] at hl
  have hb0 : 0 < m.bpp := by omega
  have hsz : m.size = m.depth * m.height * m.width * m.bpp := by rw [← hm.2.2.2, hl]
  have hpx : m.size / m.bpp = m.width * m.height * m.depth := by
    rw [hsz, Nat.mul_div_cancel _ hb0]
    grind
  let P : Nat → List UInt8 := fun i => (m.data.drop (i * m.bpp)).take m.bpp
  have hP : ∀ x y z, pixel m x y z = P ((z * m.height + y) * m.width + x) := by
    intro x y z
    unfold pixel
    rw [hc, Nat.mul_one]
  have hin : ∀ i, i < m.depth * m.height * m.width → ∃ x y z, x < m.width ∧ y < m.height ∧ z < m.depth ∧ (z * m.height + y) * m.width + x = i := by
    intro i hi
    have hW : 0 < m.width := Nat.pos_of_ne_zero (by rintro h; rw [h] at hi; simp at hi)
    have hH : 0 < m.height := Nat.pos_of_ne_zero (by rintro h; rw [h] at hi; simp at hi)
    have h1 : i / m.width < m.depth * m.height := (Nat.div_lt_iff_lt_mul hW).2 hi
    refine ⟨i % m.width, i / m.width % m.height, i / m.width / m.height, Nat.mod_lt _ hW, Nat.mod_lt _ hH, (Nat.div_lt_iff_lt_mul hH).2 h1, ?_⟩
    rw [Nat.div_add_mod', Nat.div_add_mod']
  unfold iluColoursUsed
  rw [hpx, hsz, forStep_mul hb0]
  obtain ⟨t, e, seen, hC⟩ := loopN_inv (f := fun i s => do
      let col ← colour m.data m.bpp (i * m.bpp)
      countStep (max 1 (m.width * m.height * m.depth / 8)) col s)
    (I := fun k s => ∃ seen, Counted m.bpp (max 1 (m.width * m.height * m.depth / 8)) P k s seen)
    (n := m.depth * m.height * m.width) (s := (⟨fun _ => [], 0, 0, 0⟩ : Count))
    ⟨[], List.nodup_nil, by simp, by simp, rfl, by simp, by show 0 < max 1 _; omega⟩
    (fun k s hk ⟨seen, hC⟩ => by
      have := idx_lt hk (show m.bpp - 1 < m.bpp by omega)
      rw [colour_spec hb (by omega), bind_ok]
      obtain ⟨t, seen', e, h⟩ := counted_step hC fun hn => by
        have := nodup_le (l := P k :: seen) (l' := cols) (List.nodup_cons.2 ⟨hn, hC.nodup⟩) fun c hcm => by
          have : ∃ i, i < k + 1 ∧ c = P i := by
            rcases List.mem_cons.1 hcm with h | h
            · exact ⟨k, by omega, h⟩
            · obtain ⟨i, hi, h⟩ := (hC.mem c).1 h
              exact ⟨i, by omega, h⟩
          obtain ⟨i, hi, rfl⟩ := this
          obtain ⟨x, y, z, hx, hy, hz, he⟩ := hin i (by omega)
          rw [← he, ← hP]
          exact hcols x y z hx hy hz
        rw [List.length_cons] at this
        omega
      exact ⟨t, e, seen', h⟩)
  refine ⟨t.cols, by rw [e]; rfl, seen, hC.nodup, hC.cols.symm, fun c => ?_⟩
  rw [hC.mem]
  constructor
  · rintro ⟨i, hi, rfl⟩
    obtain ⟨x, y, z, hx, hy, hz, he⟩ := hin i hi
    exact ⟨x, y, z, hx, hy, hz, by rw [hP, he]⟩
  · rintro ⟨x, y, z, hx, hy, hz, rfl⟩
    exact ⟨_, idx_lt (idx_lt hz hy) hx, hP x y z⟩

/-- **C53.** In particular every image of 1, 3 or 4 components of one byte with at most 8 or at least 64 pixels is counted correctly. -/
theorem C53_small_or_large_partial (m : Img) (hm : m.Consistent) (hb : m.bpp = 1 ∨ m.bpp = 3 ∨ m.bpp = 4) (hc : m.bpc = 1)
    (hn : m.width * m.height * m.depth ≤ 8 ∨ 64 ≤ m.width * m.height * m.depth) : ∃ n, iluColoursUsed m = .ok n ∧ DistinctColours m n := by
  refine C53_count_partial m hm hb hc ((List.range (m.width * m.height * m.depth)).map fun i => (m.data.drop (i * m.bpp)).take m.bpp)
    (fun x y z hx hy hz => ?_) ?_
  · refine List.mem_map.2 ⟨(z * m.height + y) * m.width + x, List.mem_range.2 ?_, ?_⟩
    · have := idx_lt (idx_lt hz hy) hx
      rwa [show m.depth * m.height * m.width = m.width * m.height * m.depth by grind] at this
    · unfold pixel
      rw [hc, Nat.mul_one]
  · rw [List.length_map, List.length_range]
    generalize m.width * m.height * m.depth = n at hn ⊢
    omega

set_option maxRecDepth 20000 in
example : iluColoursUsed rgb32 = .ok 6 ∧ iluColoursUsed { rgb32 with data := [1, 2, 3, 4, 5, 6, 1, 2, 3, 1, 2, 3, 0, 0, 0, 1, 2, 3] } = .ok 3 := ⟨rfl, rfl⟩

set_option maxRecDepth 100000 in
/-- **C53 (violated).** Nine different grey pixels make `iluColoursUsed` write behind its array of nine blocks. -/
theorem C53_violated_nine : iluColoursUsed ⟨3, 3, 1, 1, 1, 3, 9, 9, IL_LUMINANCE, IL_UNSIGNED_BYTE, IL_ORIGIN_UPPER_LEFT,
    [1, 2, 3, 4, 5, 6, 7, 8, 9]⟩ = .error .oobWrite := rfl

set_option maxRecDepth 20000 in
/-- **C53 (violated).** The last pixel of an image of luminance and alpha is read beyond its end. -/
theorem C53_violated_two_components : iluColoursUsed la22 = .error .oobRead := rfl

set_option maxRecDepth 20000 in
/-- **C53 (violated).** A single pixel of 16-bit luminance 258 counts as two colours. -/
theorem C53_violated_wide : iluColoursUsed (dot IL_UNSIGNED_SHORT 2 [2, 1]) = .ok 2 := rfl

/-! ### C54 -/

/-- Half of each dimension, but not less than one. -/
def half (d : Dim) : Dim := ⟨max 1 (d.w / 2), max 1 (d.h / 2), max 1 (d.d / 2)⟩

/-- A chain of levels behind `m`: each is half the one before. -/
def Halves : Dim → List Dim → Prop
  | _, [] => True
  | m, n :: rest => n = half m ∧ Halves n rest

theorem build_spec (scale : Dim → Dim → Option Dim) (hs : ∀ p w n, scale p w = some n → n = w) (fuel : Nat) : ∀ m : Dim,
    0 < m.w → 0 < m.h → 0 < m.d → m.w + m.h + m.d < fuel + 3 →
      ∃ r chain, iBuildMipmaps scale fuel m ⟨m.w / 2, m.h / 2, m.d / 2⟩ = .ok (r, chain) ∧ Halves m chain ∧
        ((∀ p w, scale p w ≠ none) → r = true ∧ (m :: chain).getLast? = some ⟨1, 1, 1⟩) := by
  induction fuel with
  | zero => intro m h1 h2 h3 h; omega
  | succ fuel ih =>
    intro m h1 h2 h3 h
    unfold iBuildMipmaps
    split
    · rename_i h
      refine ⟨true, [], rfl, trivial, fun _ => ⟨rfl, ?_⟩⟩
      obtain ⟨w, h', d⟩ := m
      obtain ⟨a, b, c⟩ := h
      simp only at a b c
      subst a; subst b; subst c
      rfl
    · rename_i hne
      have hw : (⟨if m.w / 2 = 0 then 1 else m.w / 2, if m.h / 2 = 0 then 1 else m.h / 2, if m.d / 2 = 0 then 1 else m.d / 2⟩ : Dim) = half m := by
        unfold half
        congr 1 <;> split <;> omega
      dsimp only
      rw [hw]
      cases hsc : scale m (half m) with
      | none => exact ⟨false, [], rfl, trivial, fun h => absurd hsc (h _ _)⟩
      | some n =>
        have hn := hs _ _ _ hsc
        subst hn
        obtain ⟨r, chain, e, h4, h5⟩ := ih (half m) (by show 0 < max 1 _; omega) (by show 0 < max 1 _; omega)
          (by show 0 < max 1 _; omega) (by show max 1 (m.w / 2) + max 1 (m.h / 2) + max 1 (m.d / 2) < _; omega)
        dsimp only
        rw [e, bind_ok]
        refine ⟨true, half m :: chain, rfl, ⟨rfl, h4⟩, fun hall => ⟨rfl, ?_⟩⟩
        rw [List.getLast?_cons_cons]
        exact (h5 hall).2

/-- **C54.** For an image of any size, if every scaling succeeds and gives an image of the size asked for, `iluBuildMipmaps` ends, reports
success, and the chain behind the image halves every dimension at each level and ends with a level of 1 by 1 by 1. -/
theorem C54_chain (scale : Dim → Dim → Option Dim) (hs : ∀ p w, scale p w = some w) (m : Dim) (hw : 0 < m.w) (hh : 0 < m.h) (hd : 0 < m.d) :
    ∃ fuel chain, iluBuildMipmaps scale fuel m = .ok (true, chain) ∧ Halves m chain ∧ (m :: chain).getLast? = some ⟨1, 1, 1⟩ := by
  obtain ⟨r, chain, e, h1, h2⟩ := build_spec scale (fun p w n h => by rw [hs, Option.some.injEq] at h; exact h.symm) (m.w + m.h + m.d) m hw hh hd (by omega)
  obtain ⟨h3, h4⟩ := h2 fun p w h => by rw [hs] at h; exact nomatch h
  subst h3
  exact ⟨_, chain, e, h1, h4⟩

/-- **C54.** Whatever scalings fail, `iluBuildMipmaps` ends with a chain that halves every dimension. -/
theorem C54_failing (scale : Dim → Dim → Option Dim) (hs : ∀ p w n, scale p w = some n → n = w) (m : Dim) (hw : 0 < m.w) (hh : 0 < m.h) (hd : 0 < m.d) :
    ∃ fuel r chain, iluBuildMipmaps scale fuel m = .ok (r, chain) ∧ Halves m chain := by
  obtain ⟨r, chain, e, h1, -⟩ := build_spec scale hs (m.w + m.h + m.d) m hw hh hd (by omega)
  exact ⟨_, r, chain, e, h1⟩

example : iluBuildMipmaps (fun _ w => some w) 10 ⟨5, 3, 1⟩ = .ok (true, [⟨2, 1, 1⟩, ⟨1, 1, 1⟩]) := rfl

/-- **C54 (violated).** When the scaling of a later level fails, success is reported for a chain that does not reach 1 by 1 by 1. -/
theorem C54_violated_failing : iluBuildMipmaps (fun p w => if p.w = 4 then some w else none) 10 ⟨4, 4, 1⟩ = .ok (true, [⟨2, 2, 1⟩]) := rfl

end DevIL.Ilu
