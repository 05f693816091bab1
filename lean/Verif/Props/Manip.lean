import Verif.Lemmas.Manip
import Verif.Props.Image
/-! Properties C16 (flip) and C17 (mirror). -/
set_option autoImplicit false
namespace DevIL

/-! ### Specification -/

/-- Byte `b` of the pixel in column `x`, row `y`, slice `z`: pixels of `bpp*bpc` bytes, rows of `width` pixels and
slices of `height` rows follow each other without gaps. -/
def Img.px (m : Img) (x y z b : Nat) : Option UInt8 :=
  m.data[((z * m.height + y) * m.width + x) * (m.bpp * m.bpc) + b]?

/-- `x, y, z, b` name a byte of a pixel of the image. -/
def Img.In (m : Img) (x y z b : Nat) : Prop := x < m.width ∧ y < m.height ∧ z < m.depth ∧ b < m.bpp * m.bpc

/-- `m'` is `m` with other contents and another origin flag: all other fields, and the amount of data, agree. -/
def Img.SameShape (m m' : Img) : Prop :=
  m' = { m with data := m'.data, origin := m'.origin } ∧ m'.data.length = m.data.length

theorem Img.Consistent.of_same {m m' : Img} (h : m.Consistent) (s : m.SameShape m') : m'.Consistent := by
  obtain ⟨e, l⟩ := s
  rw [e]
  obtain ⟨h1, h2, h3, h4⟩ := h
  exact ⟨h1, h2, h3, by rw [← h4]; exact l⟩

theorem Img.Consistent.len {m : Img} (h : m.Consistent) :
    m.data.length = m.depth * m.height * m.width * (m.bpp * m.bpc) := by
  rw [h.2.2.2, h.2.2.1]; grind

/-- Two images of one shape whose pixel bytes agree hold the same data. -/
theorem Img.data_ext {m m' : Img} (h : m.Consistent) (s : m.SameShape m')
    (he : ∀ x y z b, m.In x y z b → m'.px x y z b = m.px x y z b) : m'.data = m.data := by
  have e1 := s.1
  refine ext_pos (by rw [s.2]; exact h.len) h.len (fun z y x c hz hy hx hc => ?_)
  have := he x y z c ⟨hx, hy, hz, hc⟩
  unfold Img.px at this
  rw [show m'.height = m.height by rw [e1], show m'.width = m.width by rw [e1], show m'.bpp = m.bpp by rw [e1],
    show m'.bpc = m.bpc by rw [e1]] at this
  exact this

namespace Manip
open Utility

theorem flip_len {m : Img} (hm : m.Consistent) : m.data.length = m.depth * (m.height * m.bps) := by
  rw [hm.2.2.2, hm.2.2.1, hm.1]; grind

/-- **C16.** Flipping moves row `y` of every slice to row `height-1-y`, pixel by pixel, and changes nothing else of
the image but the origin flag, which it toggles. -/
theorem C16_flip (m : Img) (hm : m.Consistent) (h32 : m.size < 2 ^ 32) :
    ∃ m', ilFlipImage m = .ok m' ∧ m.SameShape m' ∧
      m'.origin = (if m.origin = IL_ORIGIN_LOWER_LEFT then IL_ORIGIN_UPPER_LEFT else IL_ORIGIN_LOWER_LEFT) ∧
      ∀ x y z b, m.In x y z b → m'.px x (m.height - 1 - y) z b = m.px x y z b := by
  obtain ⟨d', e, l, s⟩ := flip_spec m.data m.depth m.bps m.height (flip_len hm) (by rw [hm.2.2.2]; exact h32)
  refine ⟨{ m with data := d', origin := _ }, ?_, ⟨rfl, l⟩, rfl, ?_⟩
  · unfold ilFlipImage
    simp only [e, bind_ok, pure_eq_ok]
    rfl
  · rintro x y z b ⟨hx, hy, hz, hb⟩
    have hbps : m.bps = m.width * (m.bpp * m.bpc) := by rw [hm.1]; grind
    have hi : x * (m.bpp * m.bpc) + b < m.bps := by rw [hbps]; exact idx_lt hx hb
    have eidx : ∀ r, ((z * m.height + r) * m.width + x) * (m.bpp * m.bpc) + b =
        (z * m.height + r) * m.bps + (x * (m.bpp * m.bpc) + b) := by intro r; rw [hbps]; grind
    unfold Img.px
    simp only
    rw [eidx, eidx, s _ (by rw [flip_len hm]; exact row_lt hz (by omega) hi), flipIdx_row hi (by omega),
      show m.height - 1 - (m.height - 1 - y) = y by omega]

/-- **C16.** Flipping twice restores the image (whose origin flag is one of the two existing ones). -/
theorem C16_flip_twice (m : Img) (hm : m.Consistent) (h32 : m.size < 2 ^ 32)
    (ho : m.origin = IL_ORIGIN_LOWER_LEFT ∨ m.origin = IL_ORIGIN_UPPER_LEFT) :
    (ilFlipImage m >>= ilFlipImage) = .ok m := by
  obtain ⟨m1, e1, s1, o1, p1⟩ := C16_flip m hm h32
  have hm1 := hm.of_same s1
  have ew : m1.width = m.width := by rw [s1.1]
  have eh : m1.height = m.height := by rw [s1.1]
  have ed : m1.depth = m.depth := by rw [s1.1]
  have ep : m1.bpp = m.bpp := by rw [s1.1]
  have ec : m1.bpc = m.bpc := by rw [s1.1]
  obtain ⟨m2, e2, s2, o2, p2⟩ := C16_flip m1 hm1 (by rw [s1.1]; exact h32)
  have s3 : m.SameShape m2 := ⟨by rw [s2.1, s1.1], by rw [s2.2, s1.2]⟩
  have hd : m2.data = m.data := by
    refine Img.data_ext hm s3 ?_
    rintro x y z b ⟨hx, hy, hz, hb⟩
    have q1 := p1 x y z b ⟨hx, hy, hz, hb⟩
    have q2 := p2 x (m.height - 1 - y) z b ⟨by omega, by omega, by omega, by rw [ep, ec]; exact hb⟩
    rw [eh, show m.height - 1 - (m.height - 1 - y) = y by omega] at q2
    rw [q2, q1]
  have hor : m2.origin = m.origin := by
    rw [o2, o1]
    rcases ho with h | h <;> rw [h] <;> rfl
  rw [e1, bind_ok, e2]
  congr 1
  rw [s3.1, hd, hor]

/-- **C16.** The flipped copy made for savers and block reads (`iGetFlipped`) holds exactly the bytes an in-place
flip produces, whatever the fresh block contained, and leaves the image alone. -/
theorem C16_flipped_copy (junk : Nat → UInt8) (m : Img) (hm : m.Consistent) (h32 : m.size < 2 ^ 32) :
    iGetFlipped junk m = (ilFlipImage m >>= fun m' => .ok m'.data) := by
  have hl : m.data.length < 2 ^ 32 := by rw [hm.2.2.2]; exact h32
  obtain ⟨d1, e1, l1, s1⟩ := flip_spec m.data m.depth m.bps m.height (flip_len hm) hl
  obtain ⟨d2, e2, l2, s2⟩ := flipNew_spec junk m.data m.depth m.bps m.height (flip_len hm) hl
  have : d2 = d1 := by
    apply List.ext_getElem?
    intro i
    by_cases hi : i < m.data.length
    · rw [s1 i hi, s2 i hi]
    · rw [List.getElem?_eq_none (by omega), List.getElem?_eq_none (by omega)]
  unfold iGetFlipped ilFlipImage
  simp only [e1, e2, bind_ok, pure_eq_ok, this]

/-- A 2x3 image of one-byte pixels, with two slices. -/
def flipDemo : Img :=
  { width := 2, height := 3, depth := 2, bpp := 1, bpc := 1, bps := 2, plane := 6, size := 12, format := IL_LUMINANCE,
    type := IL_UNSIGNED_BYTE, origin := IL_ORIGIN_UPPER_LEFT, data := [1, 2, 3, 4, 5, 6, 7, 8, 9, 10, 11, 12] }

example : flipDemo.Consistent ∧ flipDemo.size < 2 ^ 32 ∧
    (ilFlipImage flipDemo).map (·.data) = .ok [5, 6, 3, 4, 1, 2, 11, 12, 9, 10, 7, 8] := by
  refine ⟨⟨rfl, rfl, rfl, rfl⟩, by decide, by decide +kernel⟩

/-- **C17.** Mirroring moves the pixel of column `x` of every row to column `width-1-x`, its bytes in order, and
changes nothing else.  (`width*bpp < 2^31` is where the model is the code: the column counter is a signed `int`.) -/
theorem C17_mirror (junk : Nat → UInt8) (m : Img) (hm : m.Consistent) (h32 : m.size < 2 ^ 32)
    (_h31 : m.width * m.bpp < 2 ^ 31) (hc : m.bpc = 1 ∨ m.bpc = 2 ∨ m.bpc = 4 ∨ m.bpc = 8) :
    ∃ m', iMirror junk m = .ok m' ∧ m.SameShape m' ∧ m'.origin = m.origin ∧
      ∀ x y z b, m.In x y z b → m'.px (m.width - 1 - x) y z b = m.px x y z b := by
  obtain ⟨d', e, l, s⟩ := mirror_spec junk m hm.1 hm.2.1 hm.2.2.1 hm.2.2.2 h32 hc
  refine ⟨_, e, ⟨rfl, l⟩, rfl, ?_⟩
  rintro x y z b ⟨hx, hy, hz, hb⟩
  unfold Img.px
  simp only
  have hlt := pos_lt hz hy (by omega : m.width - 1 - x < m.width) hb (by rw [hm.len]; exact Nat.le_refl _ : _ ≤ m.data.length)
  unfold pos at hlt
  rw [s _ hlt, mirIdx_pix hb (by omega),
    show m.width - 1 - (m.width - 1 - x) = x by omega]

/-- **C17.** Mirroring twice restores the image, whatever the fresh blocks contained. -/
theorem C17_mirror_twice (junk junk' : Nat → UInt8) (m : Img) (hm : m.Consistent) (h32 : m.size < 2 ^ 32)
    (h31 : m.width * m.bpp < 2 ^ 31) (hc : m.bpc = 1 ∨ m.bpc = 2 ∨ m.bpc = 4 ∨ m.bpc = 8) :
    (iMirror junk m >>= iMirror junk') = .ok m := by
  obtain ⟨m1, e1, s1, o1, p1⟩ := C17_mirror junk m hm h32 h31 hc
  have hm1 := hm.of_same s1
  have ew : m1.width = m.width := by rw [s1.1]
  have eh : m1.height = m.height := by rw [s1.1]
  have ed : m1.depth = m.depth := by rw [s1.1]
  have ep : m1.bpp = m.bpp := by rw [s1.1]
  have ec : m1.bpc = m.bpc := by rw [s1.1]
  obtain ⟨m2, e2, s2, o2, p2⟩ := C17_mirror junk' m1 hm1 (by rw [s1.1]; exact h32) (by rw [ew, ep]; exact h31)
    (by rw [ec]; exact hc)
  have s3 : m.SameShape m2 := ⟨by rw [s2.1, s1.1], by rw [s2.2, s1.2]⟩
  have hd : m2.data = m.data := by
    refine Img.data_ext hm s3 ?_
    rintro x y z b ⟨hx, hy, hz, hb⟩
    have q1 := p1 x y z b ⟨hx, hy, hz, hb⟩
    have q2 := p2 (m.width - 1 - x) y z b ⟨by omega, by omega, by omega, by rw [ep, ec]; exact hb⟩
    rw [ew, show m.width - 1 - (m.width - 1 - x) = x by omega] at q2
    rw [q2, q1]
  rw [e1, bind_ok, e2]
  congr 1
  rw [s3.1, hd, o2, o1]

/-- A 3x2 image of 16-bit components. -/
def mirrorDemo : Img :=
  { width := 3, height := 2, depth := 1, bpp := 1, bpc := 2, bps := 6, plane := 12, size := 12, format := IL_LUMINANCE,
    type := IL_UNSIGNED_SHORT, origin := IL_ORIGIN_UPPER_LEFT, data := [1, 2, 3, 4, 5, 6, 7, 8, 9, 10, 11, 12] }

example : mirrorDemo.Consistent ∧ mirrorDemo.size < 2 ^ 32 ∧ mirrorDemo.width * mirrorDemo.bpp < 2 ^ 31 ∧
    (iMirror (fun _ => 0) mirrorDemo).map (·.data) = .ok [5, 6, 3, 4, 1, 2, 11, 12, 9, 10, 7, 8] := by
  refine ⟨⟨rfl, rfl, rfl, rfl⟩, by decide, by decide, by decide +kernel⟩

end Manip
end DevIL
