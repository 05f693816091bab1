import Verif.Lemmas.Block
import Verif.Props.Manip
/-! Properties C18 (`ilCopyPixels`) and C19 (`ilSetPixels`). -/
set_option autoImplicit false
namespace DevIL

/-! ### Specification -/

/-- An image as the library's own functions produce it: consistent geometry, at least one pixel, component count and
size as its format and type say, fewer than 2^32 bytes. -/
structure Img.Whole (m : Img) : Prop where
  cons : m.Consistent
  w0 : 0 < m.width
  h0 : 0 < m.height
  d0 : 0 < m.depth
  bpp0 : 0 < m.bpp
  bpc0 : 0 < m.bpc
  bppF : m.bpp = Utility.ilGetBppFormat m.format
  bpcT : m.bpc = Utility.ilGetBpcType m.type
  fits : m.size < 2 ^ 32

/-- The pixels as a caller with the origin mode `mode` (`some o` when `IL_ORIGIN_SET` is enabled with mode `o`) sees
them: upside down if the mode is not the image's origin. -/
def Img.view (m : Img) (mode : Option Nat) (x y z b : Nat) : Option UInt8 :=
  match mode with
  | none => m.px x y z b
  | some o => if o = m.origin then m.px x y z b else m.px x (m.height - 1 - y) z b

/-- Byte `b` of the pixel at `x, y, z` of a block of `w * h` pixels (of `k` bytes) per slice. -/
def blockPx (w h k : Nat) (data : List UInt8) (x y z b : Nat) : Option UInt8 := data[((z * h + y) * w + x) * k + b]?

namespace Img.Whole
variable {m : Img}

theorem len (hm : m.Whole) : m.data.length = m.depth * m.height * m.width * (m.bpp * m.bpc) := hm.cons.len

theorem k0 (hm : m.Whole) : 0 < m.bpp * m.bpc := Nat.mul_pos hm.bpp0 hm.bpc0

theorem fit (hm : m.Whole) : m.depth * m.height * m.width * (m.bpp * m.bpc) < 2 ^ 32 := by
  rw [← hm.len, hm.cons.2.2.2]; exact hm.fits

theorem bnd (hm : m.Whole) : m.width < 2 ^ 32 ∧ m.height < 2 ^ 32 ∧ m.depth < 2 ^ 32 := by
  have f := hm.fit
  have p := hm.k0
  have a := hm.w0
  have b := hm.h0
  have c := hm.d0
  refine ⟨?_, ?_, ?_⟩
  · refine Nat.lt_of_le_of_lt ?_ f
    rw [show m.depth * m.height * m.width * (m.bpp * m.bpc) = m.width * (m.depth * m.height * (m.bpp * m.bpc)) by grind]
    exact Nat.le_mul_of_pos_right _ (Nat.mul_pos (Nat.mul_pos c b) p)
  · refine Nat.lt_of_le_of_lt ?_ f
    rw [show m.depth * m.height * m.width * (m.bpp * m.bpc) = m.height * (m.depth * m.width * (m.bpp * m.bpc)) by grind]
    exact Nat.le_mul_of_pos_right _ (Nat.mul_pos (Nat.mul_pos c a) p)
  · refine Nat.lt_of_le_of_lt ?_ f
    rw [show m.depth * m.height * m.width * (m.bpp * m.bpc) = m.depth * (m.height * m.width * (m.bpp * m.bpc)) by grind]
    exact Nat.le_mul_of_pos_right _ (Nat.mul_pos (Nat.mul_pos b a) p)

theorem of_same {m' : Img} (hm : m.Whole) (s : m.SameShape m') : m'.Whole := by
  refine ⟨hm.cons.of_same s, ?_, ?_, ?_, ?_, ?_, ?_, ?_, ?_⟩ <;> rw [s.1]
  · exact hm.w0
  · exact hm.h0
  · exact hm.d0
  · exact hm.bpp0
  · exact hm.bpc0
  · exact hm.bppF
  · exact hm.bpcT
  · exact hm.fits

end Img.Whole

namespace Manip
open Utility

theorem oriented_spec (junk : Nat → UInt8) (m : Img) (mode : Option Nat) (hm : m.Whole) :
    ∃ src : List UInt8, oriented junk m mode = .ok src ∧ src.length = m.data.length ∧
      ∀ x y z b, m.In x y z b → src[pos m.width m.height (m.bpp * m.bpc) z y x b]? = m.view mode x y z b := by
  unfold oriented Img.view
  cases mode with
  | none => exact ⟨m.data, rfl, rfl, fun _ _ _ _ _ => rfl⟩
  | some o =>
    simp only
    by_cases ho : o = m.origin
    · rw [if_pos ho]
      exact ⟨m.data, rfl, rfl, fun _ _ _ _ _ => by rw [if_pos ho]; rfl⟩
    · rw [if_neg ho]
      obtain ⟨m', e, s, _, p⟩ := C16_flip m hm.cons hm.fits
      refine ⟨m'.data, by rw [C16_flipped_copy junk m hm.cons hm.fits, e]; rfl, s.2, ?_⟩
      rintro x y z b ⟨hx, hy, hz, hb⟩
      rw [if_neg ho]
      have := p x (m.height - 1 - y) z b ⟨hx, by omega, hz, hb⟩
      rw [show m.height - 1 - (m.height - 1 - y) = y by omega] at this
      rw [← this]
      unfold Img.px
      rw [show m'.height = m.height by rw [s.1], show m'.width = m.width by rw [s.1], show m'.bpp = m.bpp by rw [s.1],
        show m'.bpc = m.bpc by rw [s.1]]
      rfl

/-- **C18 (partial).** Reading a block of `w*h*d` pixels at `xo,yo,zo` (in the image's format and type) into a caller's
buffer of at least that many pixels accesses nothing outside the image or the buffer, and leaves in the buffer exactly
the image's pixels at the positions inside the image, the old contents elsewhere, as well as behind the block.
Missing, because false (`C18_violated_offset`, `C18_violated_slab`, `C18_violated_line`): offsets beyond the image,
several slices clipped in x or y, and single top rows of other slices. -/
theorem C18_copyPixels_partial (junk : Nat → UInt8) (m : Img) (mode : Option Nat) (xo yo zo w h d : Nat) (out : List UInt8)
    (hm : m.Whole) (hf : m.format ≠ IL_COLOUR_INDEX) (hw : 0 < w) (hh : 0 < h) (hd : 0 < d)
    (hout : w * h * d * (m.bpp * m.bpc) ≤ out.length) (hfit : w * h * d * (m.bpp * m.bpc) < 2 ^ 32)
    (hx : xo ≤ m.width) (hy : yo ≤ m.height) (hz : zo ≤ m.depth)
    (hxs : xo + w < 2 ^ 32) (hys : yo + h < 2 ^ 32) (hzs : zo + d < 2 ^ 32)
    (hslab : (xo + w ≤ m.width ∧ yo + h ≤ m.height) ∨ d = 1 ∨ m.depth - zo ≤ 1)
    (hline : yo = 0 → h = 1 → zo = 0 ∧ (d = 1 ∨ m.depth = 1)) :
    ∃ out' : List UInt8, ilCopyPixels junk m mode xo yo zo w h d out = .ok (w * h * d * (m.bpp * m.bpc), out') ∧
      out'.length = out.length ∧
      (∀ x y z b, x < w → y < h → z < d → b < m.bpp * m.bpc → blockPx w h (m.bpp * m.bpc) out' x y z b =
        if x + xo < m.width ∧ y + yo < m.height ∧ z + zo < m.depth then m.view mode (x + xo) (y + yo) (z + zo) b
        else blockPx w h (m.bpp * m.bpc) out x y z b) ∧
      (∀ i : Nat, w * h * d * (m.bpp * m.bpc) ≤ i → out'[i]? = out[i]?) := by
  have hk0 := hm.k0
  have hfit0 := hm.fit
  obtain ⟨hW, hH, hD⟩ := hm.bnd
  have hW0 := hm.w0
  have hH0 := hm.h0
  have hD0 := hm.d0
  obtain ⟨src, es, ls, vs⟩ := oriented_spec junk m mode hm
  have hlen := hm.len
  have eds : u32 (w * h * d * ilGetBppFormat m.format * ilGetBpcType m.type) = w * h * d * (m.bpp * m.bpc) := by
    rw [← hm.bppF, ← hm.bpcT, Nat.mul_assoc]; exact u32_of_lt hfit
  have hbps : m.bps = m.width * (m.bpp * m.bpc) := by rw [hm.cons.1]; grind
  have hplane : m.plane = m.width * (m.bpp * m.bpc) * m.height := by rw [hm.cons.2.1]; grind
  have hvol : d * h * w * (m.bpp * m.bpc) = w * h * d * (m.bpp * m.bpc) := by grind
  -- one rectangular copy
  have key : ∃ nd, nd = min d (m.depth - zo) ∧ (copyDispatch m src xo yo zo w h d out =
      copy4 nd (min h (m.height - yo)) (min w (m.width - xo)) (m.bpp * m.bpc) (pos w h (m.bpp * m.bpc))
        (fun z y x c => pos m.width m.height (m.bpp * m.bpc) (z + zo) (y + yo) (x + xo) c) src out) := by
    refine ⟨_, rfl, ?_⟩
    unfold copyDispatch
    have hwle : w * (m.bpp * m.bpc) ≤ w * h * d * (m.bpp * m.bpc) := by
      rw [show w * h * d * (m.bpp * m.bpc) = h * d * (w * (m.bpp * m.bpc)) by grind]
      exact Nat.le_mul_of_pos_left _ (Nat.mul_pos hh hd)
    by_cases h1 : u32 (yo + h) ≤ 1
    · rw [if_pos h1]
      rw [u32_of_lt hys] at h1
      have y0 : yo = 0 := by omega
      have hh1 : h = 1 := by omega
      obtain ⟨z0, hd1⟩ := hline y0 hh1
      subst y0 hh1 z0
      rw [copyPixels1D_eq rfl hk0 hD0 hH0 hfit0 (by simp; omega) hw hW hx hxs]
      rw [show min 1 (m.height - 0) = 1 by omega, show min d (m.depth - 0) = 1 by omega]
    · rw [if_neg h1]
      by_cases h2 : u32 (zo + d) ≤ 1
      · rw [if_pos h2]
        rw [u32_of_lt hzs] at h2
        have z0 : zo = 0 := by omega
        have hd1 : d = 1 := by omega
        subst z0 hd1
        rw [copyPixels2D_eq rfl hk0 hbps hD0 hfit0 (by rw [hvol]; exact hfit) hw hh hW hH hx hy hxs hys]
        rw [show min 1 (m.depth - 0) = 1 by omega]
      · rw [if_neg h2]
        exact copyPixels3D_eq rfl hk0 hbps hplane hfit0 (by rw [hvol]; exact hfit) hw hh hd hW hH hD hx hy hz hxs hys hzs hslab
  obtain ⟨nd, hnd, key⟩ := key
  obtain ⟨o', e, l, s1, s2⟩ := copyBlock_spec (W := m.width) (H := m.height) (D := m.depth) (k := m.bpp * m.bpc)
    (w := w) (h := h) (d := d) (nw := min w (m.width - xo)) (nh := min h (m.height - yo)) (nd := nd)
    (xo := xo) (yo := yo) (zo := zo) (src := src) (out := out) (by omega) (by omega) (by omega) (by omega) (by omega)
    (by omega) (by omega) (by omega)
  refine ⟨o', ?_, l, ?_, ?_⟩
  · unfold ilCopyPixels
    rw [eds]
    have hne : w * h * d * (m.bpp * m.bpc) ≠ 0 :=
      Nat.ne_of_gt (Nat.mul_pos (Nat.mul_pos (Nat.mul_pos hw hh) hd) hk0)
    rw [if_neg hne, if_neg hf, es, bind_ok, key, e]
    rfl
  · intro x y z b bx bY bz bb
    unfold blockPx
    have := s1 z y x b bz bY bx bb
    unfold pos at this
    rw [this]
    by_cases hin : x + xo < m.width ∧ y + yo < m.height ∧ z + zo < m.depth
    · rw [if_pos hin, if_pos (by omega)]
      exact vs _ _ _ _ ⟨hin.1, hin.2.1, hin.2.2, bb⟩
    · rw [if_neg hin, if_neg (by omega)]
  · intro i hi
    exact s2 i (by omega)

/-- A 4x3 image of two slices. -/
def blockDemo : Img :=
  { width := 4, height := 3, depth := 2, bpp := 1, bpc := 1, bps := 4, plane := 12, size := 24, format := IL_LUMINANCE,
    type := IL_UNSIGNED_BYTE, origin := IL_ORIGIN_UPPER_LEFT,
    data := [1, 2, 3, 4, 5, 6, 7, 8, 9, 10, 11, 12, 13, 14, 15, 16, 17, 18, 19, 20, 21, 22, 23, 24] }

theorem blockDemo_whole : blockDemo.Whole := ⟨⟨rfl, rfl, rfl, rfl⟩, by decide, by decide, by decide, by decide, by decide, rfl, rfl, by decide⟩

/-- A clipped 3x2 block at column 2, row 2 (only its first row and two columns are inside), read upside down. -/
example : ilCopyPixels (fun _ => 0) blockDemo (some IL_ORIGIN_LOWER_LEFT) 2 2 0 3 2 1 [50, 51, 52, 53, 54, 55, 56] =
    .ok (6, [3, 4, 52, 53, 54, 55, 56]) := by decide +kernel

/-- The hypotheses of `C18_copyPixels_partial` hold for that block. -/
example := C18_copyPixels_partial (fun _ => 0) blockDemo (some IL_ORIGIN_LOWER_LEFT) 2 2 0 3 2 1 [50, 51, 52, 53, 54, 55, 56]
  blockDemo_whole (by decide) (by decide) (by decide) (by decide) (by decide) (by decide) (by decide) (by decide) (by decide)
  (by decide) (by decide) (by decide) (Or.inr (Or.inl rfl)) (by decide)

/-- The claim fails for an offset beyond the image: a 1x2 block at column 5 of the 4x3 image is written past the end of a
caller's buffer of exactly the reported size, and with room there it is read past the end of the image. -/
theorem C18_violated_offset :
    ilCopyPixels (fun _ => 0) blockDemo none 5 0 1 1 2 1 [50, 51] = .error .oobWrite ∧
    ilCopyPixels (fun _ => 0) blockDemo none 5 0 1 1 2 1 [50, 51, 0, 0, 0, 0, 0, 0, 0] = .error .oobRead := by
  decide +kernel

/-- The claim fails for two slices clipped in `x`: the second slice is delivered at the wrong place (position 2 of a
block whose second slice starts at 4). -/
theorem C18_violated_slab : ilCopyPixels (fun _ => 0) blockDemo none 3 0 0 2 2 2 [50, 51, 52, 53, 54, 55, 56, 57] =
    .ok (8, [4, 51, 16, 53, 20, 55, 56, 57]) := by decide +kernel

/-- The claim fails for the top row of the second slice: the top row of the first slice is delivered. -/
theorem C18_violated_line : ilCopyPixels (fun _ => 0) blockDemo none 0 0 1 4 1 1 [50, 51, 52, 53] = .ok (4, [1, 2, 3, 4]) := by
  decide +kernel

/-- **C19 (partial).** Writing a block of `w*h*d` pixels at the signed position `xo,yo,zo` changes exactly the image
pixels the block covers, to the block's values, and accesses nothing outside the image or the block.
Missing, because false (`C19_violated_*`): a block that overhangs the left, top or front side (`AxisOk`) while larger than the
image, blocks ending at image row 0 or 1 (slice 0 or 1) that do not start there, and an enabled origin mode different from
the image's. -/
theorem C19_setPixels_partial (junk : Nat → UInt8) (m : Img) (mode : Option Nat) (xo yo zo : Int) (w h d : Nat)
    (src : List UInt8) (hm : m.Whole) (hmode : mode = none ∨ mode = some m.origin)
    (hsrc : w * h * d * (m.bpp * m.bpc) ≤ src.length) (hfit : w * h * d * (m.bpp * m.bpc) < 2 ^ 32)
    (hW : m.width < 2 ^ 31) (hH : m.height < 2 ^ 31) (hD : m.depth < 2 ^ 31) (hw : w < 2 ^ 31) (hh : h < 2 ^ 31) (hd : d < 2 ^ 31)
    (hx : -(2 ^ 31) < xo ∧ xo < 2 ^ 31) (hy : -(2 ^ 31) < yo ∧ yo < 2 ^ 31) (hz : -(2 ^ 31) < zo ∧ zo < 2 ^ 31)
    (ax : AxisOk m.width w xo) (ay : AxisOk m.height h yo) (az : AxisOk m.depth d zo)
    (hline : yo + h = 0 ∨ yo + h = 1 → yo = 0 ∧ h = 1 ∧ zo = 0 ∧ (d = 1 ∨ (d > 1 ∧ m.depth = 1)))
    (hslab : zo + d = 0 ∨ zo + d = 1 → zo = 0 ∧ d = 1) :
    ∃ m', ilSetPixels junk m mode xo yo zo w h d src = .ok m' ∧ m.SameShape m' ∧ m'.origin = m.origin ∧
      ∀ x y z b, m.In x y z b → m'.px x y z b =
        if (xo ≤ x ∧ (x : Int) < xo + w) ∧ (yo ≤ y ∧ (y : Int) < yo + h) ∧ zo ≤ z ∧ (z : Int) < zo + d
        then blockPx w h (m.bpp * m.bpc) src (x - xo).toNat (y - yo).toNat (z - zo).toNat b
        else m.px x y z b := by
  have hk0 := hm.k0
  have hfit0 := hm.fit
  have hW0 := hm.w0
  have hH0 := hm.h0
  have hD0 := hm.d0
  have hlen := hm.len
  have eor : oriented junk m mode = .ok m.data := by
    unfold oriented
    rcases hmode with rfl | rfl
    · rfl
    · simp
  have hbps : m.bps = m.width * (m.bpp * m.bpc) := by rw [hm.cons.1]; grind
  have hplane : m.plane = m.width * (m.bpp * m.bpc) * m.height := by rw [hm.cons.2.1]; grind
  have hvol : d * h * w * (m.bpp * m.bpc) = w * h * d * (m.bpp * m.bpc) := by grind
  have eX := extent_eq hW hw hx.1 hx.2 ax
  have eY := extent_eq hH hh hy.1 hy.2 ay
  have eZ := extent_eq hD hd hz.1 hz.2 az
  have t1 : ∀ (o : Int) (n : Nat), -(2 ^ 31) < o → o < 2 ^ 31 → n < 2 ^ 31 → (toU32 (o + n) ≤ 1 ↔ o + n = 0 ∨ o + n = 1) := by
    intro o n h1 h2 h3; unfold toU32; omega
  have key : (setDispatch m m.data xo yo zo w h d src =
      copy4 (min (m.depth : Int) (zo + d) - max zo 0).toNat (min (m.height : Int) (yo + h) - max yo 0).toNat
        (min (m.width : Int) (xo + w) - max xo 0).toNat (m.bpp * m.bpc)
        (fun z y x c => pos m.width m.height (m.bpp * m.bpc) (z + zo.toNat) (y + yo.toNat) (x + xo.toNat) c)
        (fun z y x c => pos w h (m.bpp * m.bpc) (z + (-zo).toNat) (y + (-yo).toNat) (x + (-xo).toNat) c) src m.data) := by
    unfold setDispatch
    by_cases h1 : toU32 (yo + h) ≤ 1
    · rw [if_pos h1]
      obtain ⟨y0, hh1, z0, hd1⟩ := hline ((t1 yo h hy.1 hy.2 hh).mp h1)
      subst y0 hh1 z0
      have hwle : w * (m.bpp * m.bpc) ≤ w * 1 * d * (m.bpp * m.bpc) := by
        rw [show w * 1 * d * (m.bpp * m.bpc) = d * (w * (m.bpp * m.bpc)) by grind]
        exact Nat.le_mul_of_pos_left _ (by omega)
      rw [setPixels1D_eq rfl hD0 hH0 hfit0 (by simp; omega) eX]
      rw [show (min (m.height : Int) (0 + (1 : Nat)) - max 0 0).toNat = 1 by omega,
        show (min (m.depth : Int) (0 + d) - max 0 0).toNat = 1 by omega]
      rfl
    · rw [if_neg h1]
      by_cases h2 : toU32 (zo + d) ≤ 1
      · rw [if_pos h2]
        obtain ⟨z0, hd1⟩ := hslab ((t1 zo d hz.1 hz.2 hd).mp h2)
        subst z0 hd1
        rw [setPixels2D_eq rfl hbps hD0 hfit0 (by rw [hvol]; exact hfit) eX eY]
        rw [show (min (m.depth : Int) (0 + (1 : Nat)) - max 0 0).toNat = 1 by omega]
        rfl
      · rw [if_neg h2]
        exact setPixels3D_eq rfl hbps hplane hfit0 (by rw [hvol]; exact hfit) eX eY eZ
  obtain ⟨o', e, l, s⟩ := putBlock_spec (W := m.width) (H := m.height) (D := m.depth) (k := m.bpp * m.bpc)
    (w := w) (h := h) (d := d) (nw := (min (m.width : Int) (xo + w) - max xo 0).toNat)
    (nh := (min (m.height : Int) (yo + h) - max yo 0).toNat) (nd := (min (m.depth : Int) (zo + d) - max zo 0).toNat)
    (xo := xo.toNat) (yo := yo.toNat) (zo := zo.toNat) (sx := (-xo).toNat) (sy := (-yo).toNat) (sz := (-zo).toNat)
    (src := src) (dst := m.data) (by omega) (by omega) (by omega) (by omega) (by omega) (by omega) (by omega) (by omega)
  refine ⟨{ m with data := o' }, ?_, ⟨rfl, l⟩, rfl, ?_⟩
  · unfold ilSetPixels
    rw [eor, bind_ok, key, e]
    rfl
  · rintro x y z b ⟨bx, bY, bz, bb⟩
    have := s z y x b bz bY bx bb
    unfold pos at this
    unfold Img.px
    simp only
    rw [this]
    by_cases hin : (xo ≤ x ∧ (x : Int) < xo + w) ∧ (yo ≤ y ∧ (y : Int) < yo + h) ∧ zo ≤ z ∧ (z : Int) < zo + d
    · rw [if_pos hin, if_pos (by omega)]
      unfold blockPx
      rw [show z - zo.toNat + (-zo).toNat = (z - zo).toNat by omega, show y - yo.toNat + (-yo).toNat = (y - yo).toNat by omega,
        show x - xo.toNat + (-xo).toNat = (x - xo).toNat by omega]
    · rw [if_neg hin, if_neg (by omega)]

/-- A 3x2 block written at column -1, row 2: the middle and right pixel of its first row land in the image. -/
example : (ilSetPixels (fun _ => 0) blockDemo none (-1) 2 0 3 2 1 [50, 51, 52, 53, 54, 55]).map (·.data) =
    .ok [1, 2, 3, 4, 5, 6, 7, 8, 51, 52, 11, 12, 13, 14, 15, 16, 17, 18, 19, 20, 21, 22, 23, 24] := by decide +kernel

/-- The hypotheses of `C19_setPixels_partial` hold for that block. -/
example := C19_setPixels_partial (fun _ => 0) blockDemo none (-1) 2 0 3 2 1 [50, 51, 52, 53, 54, 55]
  blockDemo_whole (Or.inl rfl) (by decide) (by decide) (by decide) (by decide) (by decide) (by decide) (by decide) (by decide)
  (by decide) (by decide) (by decide) (Or.inr (Or.inl (by decide))) (Or.inl (by decide)) (Or.inl (by decide)) (by decide)
  (by decide)

/-- A block overhanging on the left and wider than the image: image column 3 is covered by the block (its column 4) and
is not written. -/
theorem C19_violated_wide :
    (ilSetPixels (fun _ => 0) blockDemo none (-1) 0 0 6 1 1 [50, 51, 52, 53, 54, 55]).map (·.data) =
      .ok [51, 52, 53, 4, 5, 6, 7, 8, 9, 10, 11, 12, 13, 14, 15, 16, 17, 18, 19, 20, 21, 22, 23, 24] := by decide +kernel

/-- A block of two rows at row -1: row 0 of the image is covered by the block's second row and gets its first one.  A block
of three rows at row -3 lies wholly outside and yet row 0 is overwritten. -/
theorem C19_violated_row :
    (ilSetPixels (fun _ => 0) blockDemo none 0 (-1) 0 2 2 1 [50, 51, 52, 53]).map (fun m => m.data.take 4) = .ok [50, 51, 3, 4] ∧
    (ilSetPixels (fun _ => 0) blockDemo none 0 (-3) 0 2 3 1 [50, 51, 52, 53, 54, 55]).map (fun m => m.data.take 4) =
      .ok [50, 51, 3, 4] := by decide +kernel

/-- With an enabled origin mode other than the image's, writing one pixel turns the whole image upside down and does not
change its origin flag. -/
theorem C19_violated_origin :
    (ilSetPixels (fun _ => 0) flipDemo (some IL_ORIGIN_LOWER_LEFT) 0 1 0 1 1 1 [50]).map (fun m => (m.origin, m.data.take 6)) =
      .ok (IL_ORIGIN_UPPER_LEFT, [5, 6, 50, 4, 1, 2]) := by decide +kernel

/-- **C19 (partial), read back.** A block that lies inside the image, written and read again, comes back unchanged. -/
theorem C19_read_back_partial (junk : Nat → UInt8) (m : Img) (mode : Option Nat) (xo yo zo w h d : Nat)
    (src out : List UInt8) (hm : m.Whole) (hf : m.format ≠ IL_COLOUR_INDEX) (hmode : mode = none ∨ mode = some m.origin)
    (hw : 0 < w) (hh : 0 < h) (hd : 0 < d) (hx : xo + w ≤ m.width) (hy : yo + h ≤ m.height) (hz : zo + d ≤ m.depth)
    (hW : m.width < 2 ^ 31) (hH : m.height < 2 ^ 31) (hD : m.depth < 2 ^ 31)
    (hsrc : src.length = w * h * d * (m.bpp * m.bpc)) (hout : out.length = w * h * d * (m.bpp * m.bpc))
    (hline : yo = 0 → h = 1 → zo = 0 ∧ d = 1) :
    (ilSetPixels junk m mode xo yo zo w h d src >>= fun m' => ilCopyPixels junk m' mode xo yo zo w h d out) =
      .ok (w * h * d * (m.bpp * m.bpc), src) := by
  have hlen := hm.len
  have hfit0 := hm.fit
  have hsz : w * h * d * (m.bpp * m.bpc) ≤ m.depth * m.height * m.width * (m.bpp * m.bpc) := by
    rw [show w * h * d * (m.bpp * m.bpc) = d * h * w * (m.bpp * m.bpc) by grind]
    exact Nat.mul_le_mul_right _ (Nat.mul_le_mul (Nat.mul_le_mul (by omega) (by omega)) (by omega))
  obtain ⟨m', e1, s1, o1, p1⟩ := C19_setPixels_partial junk m mode xo yo zo w h d src hm hmode (by omega) (by omega) hW hH hD
    (by omega) (by omega) (by omega) ⟨by omega, by omega⟩ ⟨by omega, by omega⟩ ⟨by omega, by omega⟩ (Or.inl (by omega))
    (Or.inl (by omega)) (Or.inl (by omega)) (by omega) (by omega)
  have ew : m'.width = m.width := by rw [s1.1]
  have eh : m'.height = m.height := by rw [s1.1]
  have ed : m'.depth = m.depth := by rw [s1.1]
  have ep : m'.bpp = m.bpp := by rw [s1.1]
  have ec : m'.bpc = m.bpc := by rw [s1.1]
  have ef : m'.format = m.format := by rw [s1.1]
  have hm' : m'.Whole := hm.of_same s1
  obtain ⟨o', e2, l2, p2, _⟩ := C18_copyPixels_partial junk m' mode xo yo zo w h d out hm' (by rw [ef]; exact hf) hw hh hd
    (by rw [ep, ec]; omega) (by rw [ep, ec]; omega) (by omega) (by omega) (by omega) (by omega) (by omega) (by omega)
    (Or.inl (by omega)) (by omega)
  rw [e1, bind_ok, e2, ep, ec]
  congr 2
  rw [ep, ec] at p2
  refine ext_pos (w := w) (h := h) (d := d) (k := m.bpp * m.bpc) (by rw [l2, hout]; grind) (by rw [hsrc]; grind) ?_
  intro z y x c hz' hy' hx' hc
  have q := p2 x y z c hx' hy' hz' hc
  rw [if_pos (by omega)] at q
  have hv : m'.view mode (x + xo) (y + yo) (z + zo) c = m'.px (x + xo) (y + yo) (z + zo) c := by
    unfold Img.view
    rcases hmode with rfl | rfl
    · rfl
    · simp [o1]
  rw [hv, p1 _ _ _ _ ⟨by omega, by omega, by omega, hc⟩, if_pos (by omega),
    show ((x + xo : Nat) - (xo : Int)).toNat = x by omega, show ((y + yo : Nat) - (yo : Int)).toNat = y by omega,
    show ((z + zo : Nat) - (zo : Int)).toNat = z by omega] at q
  exact q

end Manip
end DevIL
