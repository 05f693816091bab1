import Verif.Lemmas.DxtSaveE
/-! Properties C150 to C155: compressing pictures to DXT data. -/
set_option autoImplicit false
namespace DevIL.DxtSave
open DevIL.Image DevIL.Lump DevIL.Dxt DevIL.Conv DevIL.ConvImage DevIL.DxtSpec

/-- `q` is what is shown after `s` has been compressed by `ilSurfaceToDxtcData` and decompressed by `ilDxtcDataToSurface`. -/
def Back (big : Bool) (k : Mem) (junk : Nat → UInt8) (s : Surface) (fmt : Nat) (q : Img) : Prop :=
  ∃ t : Surface, ilSurfaceToDxtcData big k s fmt = .ok (some (true, t)) ∧ ilDxtcDataToSurface junk t = .ok (true, { t with img := q })

/-! ### Examples -/

/-- A picture of 5x2 pixels with alpha, stored from the bottom up. -/
def photo : Surface := ⟨⟨5, 2, 1, 4, 1, 20, 40, 40, IL_RGBA, IL_UNSIGNED_BYTE, IL_ORIGIN_LOWER_LEFT,
  [10, 20, 30, 40, 200, 100, 50, 255, 0, 0, 0, 0, 255, 255, 255, 130, 7, 8, 9, 127, 1, 2, 3, 4, 5, 6, 7, 8, 90, 91, 92, 93, 64, 65, 66, 67, 31, 32, 33, 250]⟩,
  IL_DXT_NO_COMP, []⟩

instance (m : Img) : Decidable m.Consistent := by unfold Img.Consistent; infer_instance

theorem photo_picture : Picture photo.img :=
  ⟨⟨by decide, by decide, by decide, by decide, by decide, by decide, by decide, by decide, by decide⟩, rfl, by decide, by decide, by decide⟩

/-- Its upper left and lower right pixels. -/
example : colour photo.img 0 0 0 = ⟨1, 2, 3⟩ ∧ value photo.img .alpha 0 0 0 = 4 ∧ colour photo.img 4 1 0 = ⟨7, 8, 9⟩ ∧ photo.In 4 1 0 := by
  refine ⟨?_, ?_, ?_, ?_⟩ <;> first | decide | (unfold Surface.In; decide)

/-! ### C150: sizes -/

/-- **C150 (part): sizes.** For a picture that is not stored in the format asked for, `ilGetDXTCData(NULL, 0, Format)` is the number of bytes of
the blocks of 4x4 pixels, and a call with a buffer of at least this size writes so many bytes at its start, returns this number, and leaves the
rest of the buffer alone.  Missing: see the violations. -/
theorem C150_size_partial (big : Bool) (k : Mem) {s : Surface} (h : Picture s.img) {fmt : Nat} (hf : fmt = IL_DXT1 ∨ fmt = IL_DXT3 ∨ fmt = IL_DXT5)
    (hc : fmt = s.fmt → s.comp = []) {buf : List UInt8} (hn : dxtcSize s.img fmt ≤ buf.length) (hlt : buf.length < 4294967296) :
    dxtcSize s.img fmt = bytes (if fmt = IL_DXT1 then 8 else 16) s.img.width s.img.height s.img.depth ∧
    ∃ out : List UInt8, out.length = dxtcSize s.img fmt ∧
      ilGetDXTCData big k s buf fmt = .ok (some (dxtcSize s.img fmt, out ++ buf.drop (dxtcSize s.img fmt))) := by
  have hs := size_eq h hf
  have hpos := bytes_pos (bsize_pos fmt) h.plain.w0 h.plain.h0 h.plain.d0
  refine ⟨hs, ?_⟩
  rw [hs] at hn ⊢
  obtain ⟨out, m, e, hl, _⟩ := getData big k h hf (fun hh => hh.2 (hc hh.1)) (buf := buf) (by omega) hlt
  refine ⟨out, hl, ?_⟩
  rw [e, List.take_of_length_le (by omega), hl]

example (big : Bool) (k : Mem) : dxtcSize photo.img IL_DXT5 = 32 ∧ ∃ out : List UInt8, out.length = 32 ∧
    ilGetDXTCData big k photo (List.replicate 35 7) IL_DXT5 = .ok (some (32, out ++ [7, 7, 7])) := by
  have h := C150_size_partial big k photo_picture (.inr (.inr rfl)) (fun e => rfl) (buf := List.replicate 35 7) (by decide) (by decide)
  have e : dxtcSize photo.img IL_DXT5 = 32 := by decide
  rw [e] at h
  exact ⟨e, h.2⟩

/-- **C150 (part): data that is already there.** If the picture holds compressed data of the format, its beginning is copied, as much as the buffer
takes, and the result is how much that is. -/
theorem C150_stored_partial (big : Bool) (k : Mem) {s : Surface} (h : s.comp ≠ []) (buf : List UInt8) :
    ilGetDXTCData big k s buf s.fmt = .ok (some (min buf.length s.comp.length, s.comp.take buf.length ++ buf.drop s.comp.length)) := by
  unfold ilGetDXTCData
  obtain ⟨d, e, l, hd⟩ := memcpy_get (dst := buf) (src := s.comp) (dOff := 0) (sOff := 0) (n := min buf.length s.comp.length) (by omega) (by omega)
  rw [if_pos ⟨rfl, h⟩, e, bind_ok, pure_eq_ok]
  congr 3
  refine List.ext_getElem? fun i => ?_
  rw [hd i]
  simp only [Nat.zero_le, true_and, Nat.zero_add, Nat.sub_zero]
  split
  · rw [List.getElem?_append_left (by rw [List.length_take]; omega), List.getElem?_take_of_lt (by omega)]
  · rw [List.getElem?_append_right (by rw [List.length_take]; omega), List.getElem?_drop, List.length_take]
    by_cases hi : i < buf.length
    · congr 1; omega
    · rw [List.getElem?_eq_none (by omega), List.getElem?_eq_none (by omega)]

example (big : Bool) (k : Mem) : ilGetDXTCData big k ⟨photo.img, IL_DXT1, [1, 2, 3, 4]⟩ [9, 9] IL_DXT1 = .ok (some (2, [1, 2])) :=
  C150_stored_partial big k (s := ⟨photo.img, IL_DXT1, [1, 2, 3, 4]⟩) (by decide) [9, 9]

/-- **C150 is violated: a buffer that is too small.** The result is the full size although only the size of the buffer was written, for every
picture and every such buffer. -/
theorem C150_violated_small (big : Bool) (k : Mem) {s : Surface} (h : Picture s.img) {fmt : Nat} (hf : fmt = IL_DXT1 ∨ fmt = IL_DXT3 ∨ fmt = IL_DXT5)
    (hc : fmt = s.fmt → s.comp = []) {buf : List UInt8} (h0 : 0 < buf.length) (hn : buf.length < dxtcSize s.img fmt) :
    ∃ (n : Nat) (b : List UInt8), ilGetDXTCData big k s buf fmt = .ok (some (n, b)) ∧ b.length = buf.length ∧ buf.length < n := by
  have hb := h.blocks
  have hle := bytes_le fmt s.img.width s.img.height s.img.depth
  rw [size_eq h hf] at hn
  obtain ⟨out, m, e, hl, _⟩ := getData big k h hf (fun hh => hh.2 (hc hh.1)) (buf := buf) h0 (by omega)
  refine ⟨_, _, e, ?_, hn⟩
  rw [List.length_append, List.length_take, List.length_drop]
  omega

example (big : Bool) (k : Mem) : ∃ (n : Nat) (b : List UInt8), ilGetDXTCData big k photo [1, 2, 3] IL_DXT1 = .ok (some (n, b)) ∧ b.length = 3 ∧ 3 < n :=
  C150_violated_small big k photo_picture (.inl rfl) (fun e => rfl) (buf := [1, 2, 3]) (by decide) (by decide)

/-! ### C151: alpha in DXT5 -/

/-- **C151: alpha in DXT5.** A picture compressed to DXT5 and back has its size, stands upright, and each alpha is at most a tenth (plus rounding) of
the range of alphas in its block away from what it was.  The lowest and the highest alpha of a block, transparent and opaque are exact. -/
theorem C151_dxt5_alpha (big : Bool) (k : Mem) (junk : Nat → UInt8) {s : Surface} (h : Picture s.img) :
    ∃ q, Back big k junk s IL_DXT5 q ∧ Shown s q ∧ ∀ x y z, s.In x y z →
      (∀ lo hi, (∀ x' y', s.In x' y' z → SameBlock x y x' y' → lo ≤ value s.img .alpha x' y' z ∧ value s.img .alpha x' y' z ≤ hi) →
        10 * dist (value q .alpha x y z) (value s.img .alpha x y z) ≤ hi - lo + 4) ∧
      ((∀ x' y', s.In x' y' z → SameBlock x y x' y' → value s.img .alpha x y z ≤ value s.img .alpha x' y' z) ∨
       (∀ x' y', s.In x' y' z → SameBlock x y x' y' → value s.img .alpha x' y' z ≤ value s.img .alpha x y z) ∨
       value s.img .alpha x y z = 0 ∨ value s.img .alpha x y z = 255 → value q .alpha x y z = value s.img .alpha x y z) := by
  obtain ⟨t, q, e1, e2, _, hq, hp⟩ := there_and_back big k junk h (.inr (.inr rfl))
  refine ⟨q, ⟨t, e1, e2⟩, hq, fun x y z hin => ?_⟩
  obtain ⟨β, blk, al, hv, hβ, hb, _, hk, _, ha, _⟩ := hp x y z hin
  have hd := dec5_alpha (β := β) (big := big) (blk := blk) (al := al) (fun i hi => hb i hi) (j := y % 4) (i := x % 4) (by omega) (by omega)
  obtain ⟨r1, ⟨i0, l0, m0⟩, ⟨i1, l1, m1⟩⟩ := alphaEnds al
  obtain ⟨x0, y0, in0, sb0, _, v0⟩ := hk i0 l0
  obtain ⟨x1, y1, in1, sb1, _, v1⟩ := hk i1 l1
  have hself := r1 (4 * (y % 4) + x % 4) (by omega)
  rw [ha] at hself hd
  rw [v0] at m0
  rw [v1] at m1
  rw [m0, m1] at hself hd
  have b0 := value_lt s.img .alpha x0 y0 z
  have b1 := value_lt s.img .alpha x1 y1 z
  have bv := value_lt s.img .alpha x y z
  rw [UInt8.le_iff_toNat_le, UInt8.le_iff_toNat_le, ofNat_toNat b0, ofNat_toNat b1, ofNat_toNat bv] at hself
  rw [ofNat_toNat b0, ofNat_toNat b1] at hd
  have hval : value q .alpha x y z = (alphas (value s.img .alpha x0 y0 z) (value s.img .alpha x1 y1 z)).getD
      (alphaMask (value s.img .alpha x0 y0 z) (value s.img .alpha x1 y1 z) (UInt8.ofNat (value s.img .alpha x y z))) 0 := by
    rw [hv .alpha 3 rfl (by decide), hd, Nat.mod_eq_of_lt (alphas_lt b0 b1 _)]
  obtain ⟨n1, n2⟩ := near_alpha (a := value s.img .alpha x0 y0 z) (b := value s.img .alpha x1 y1 z) (by omega) b1 hself.1 hself.2
  rw [← hval] at n1 n2
  refine ⟨fun lo hi hr => ?_, fun hx => n2 ?_⟩
  · have h0 := hr x0 y0 in0 sb0
    have h1 := hr x1 y1 in1 sb1
    omega
  · rcases hx with hx | hx | hx | hx
    · have := hx x0 y0 in0 sb0
      omega
    · have := hx x1 y1 in1 sb1
      omega
    · exact .inr (.inr (.inl hx))
    · exact .inr (.inr (.inr hx))

/-- Applied to the sample: the opaque pixel at the bottom stays opaque, the alpha 130 beside it in the same block stays within 25. -/
example (big : Bool) (k : Mem) (junk : Nat → UInt8) : ∃ q, Back big k junk photo IL_DXT5 q ∧ value q .alpha 1 1 0 = 255 ∧
    10 * dist (value q .alpha 3 1 0) 130 ≤ 255 - 0 + 4 := by
  obtain ⟨q, hb, _, h⟩ := C151_dxt5_alpha big k junk photo_picture
  refine ⟨q, hb, ?_, ?_⟩
  · exact (h 1 1 0 (by unfold Surface.In; decide)).2 (.inr (.inr (.inr (by decide))))
  · exact (h 3 1 0 (by unfold Surface.In; decide)).1 0 255 (fun x' y' _ _ => ⟨Nat.zero_le _, by have := value_lt photo.img .alpha x' y' 0; omega⟩)

/-! ### C152: alpha in DXT3 -/

/-- **C152 (part): alpha in DXT3.** Each alpha is the four leading bits of what it was, and so at most 15 away; transparent and opaque are exact.
Missing: the nearest of the sixteen alphas; see the violation. -/
theorem C152_dxt3_alpha_partial (big : Bool) (k : Mem) (junk : Nat → UInt8) {s : Surface} (h : Picture s.img) :
    ∃ q, Back big k junk s IL_DXT3 q ∧ Shown s q ∧ ∀ x y z, s.In x y z →
      value q .alpha x y z = 17 * (value s.img .alpha x y z / 16) ∧ dist (value q .alpha x y z) (value s.img .alpha x y z) ≤ 15 ∧
      (value s.img .alpha x y z = 0 ∨ value s.img .alpha x y z = 255 → value q .alpha x y z = value s.img .alpha x y z) := by
  obtain ⟨t, q, e1, e2, _, hq, hp⟩ := there_and_back big k junk h (.inr (.inl rfl))
  refine ⟨q, ⟨t, e1, e2⟩, hq, fun x y z hin => ?_⟩
  obtain ⟨β, blk, al, hv, hβ, hb, _, hk, _, ha, _⟩ := hp x y z hin
  have hd := dec3_alpha (β := β) (big := big) (blk := blk) (al := al) (fun i hi => hb i hi) (j := y % 4) (i := x % 4) (by omega) (by omega)
  have bv := value_lt s.img .alpha x y z
  rw [ha, ofNat_toNat bv] at hd
  have hval : value q .alpha x y z = 17 * (value s.img .alpha x y z / 16) := by
    rw [hv .alpha 3 rfl (by decide), hd, Nat.mod_eq_of_lt (by omega)]
  refine ⟨hval, ?_, ?_⟩
  · rw [hval]
    unfold dist
    omega
  · rw [hval]
    omega

example (big : Bool) (k : Mem) (junk : Nat → UInt8) : ∃ q, Back big k junk photo IL_DXT3 q ∧ value q .alpha 1 1 0 = 255 ∧ value q .alpha 3 1 0 = 136 := by
  obtain ⟨q, hb, _, h⟩ := C152_dxt3_alpha_partial big k junk photo_picture
  refine ⟨q, hb, ?_, ?_⟩
  · exact (h 1 1 0 (by unfold Surface.In; decide)).1
  · exact (h 3 1 0 (by unfold Surface.In; decide)).1

/-- **C152 is violated: rounding.** Wherever the last four bits of an alpha are above `7` by more than the first four are, the alpha is not rounded
to the nearest: the next of the sixteen alphas is closer. -/
theorem C152_violated_nearest (big : Bool) (k : Mem) (junk : Nat → UInt8) {s : Surface} (h : Picture s.img) {x y z : Nat} (hin : s.In x y z)
    (hv : value s.img .alpha x y z % 16 ≥ 9 + value s.img .alpha x y z / 16) (hlt : value s.img .alpha x y z / 16 < 15) :
    ∃ q, Back big k junk s IL_DXT3 q ∧ dist (17 * (value s.img .alpha x y z / 16 + 1)) (value s.img .alpha x y z) <
      dist (value q .alpha x y z) (value s.img .alpha x y z) := by
  obtain ⟨q, hb, _, hq⟩ := C152_dxt3_alpha_partial big k junk h
  refine ⟨q, hb, ?_⟩
  rw [(hq x y z hin).1]
  unfold dist
  omega

example : value photo.img .alpha 2 0 0 = 93 ∧ value photo.img .alpha 2 0 0 % 16 = 13 := by decide
/-- A pixel with alpha 15 becomes transparent. -/
example : ∃ s : Surface, Picture s.img ∧ s.In 0 0 0 ∧ value s.img .alpha 0 0 0 % 16 ≥ 9 + value s.img .alpha 0 0 0 / 16 ∧ value s.img .alpha 0 0 0 / 16 < 15 :=
  ⟨⟨⟨1, 1, 1, 2, 1, 2, 2, 2, IL_LUMINANCE_ALPHA, IL_UNSIGNED_BYTE, IL_ORIGIN_UPPER_LEFT, [9, 15]⟩, IL_DXT_NO_COMP, []⟩,
    ⟨⟨by decide, by decide, by decide, by decide, by decide, by decide, by decide, by decide, by decide⟩, rfl, by decide, by decide, by decide⟩,
    by unfold Surface.In; decide, by decide, by decide⟩

/-! ### C153: transparency in DXT1 -/

/-- **C153: transparency in DXT1.** A pixel of a picture compressed to DXT1 and back is transparent if its alpha was below 128, and opaque
otherwise. -/
theorem C153_dxt1_alpha (big : Bool) (k : Mem) (junk : Nat → UInt8) {s : Surface} (h : Picture s.img) :
    ∃ q, Back big k junk s IL_DXT1 q ∧ Shown s q ∧ ∀ x y z, s.In x y z →
      value q .alpha x y z = if value s.img .alpha x y z < 128 then 0 else 255 := by
  obtain ⟨t, q, e1, e2, _, hq, hp⟩ := there_and_back big k junk h (.inl rfl)
  refine ⟨q, ⟨t, e1, e2⟩, hq, fun x y z hin => ?_⟩
  obtain ⟨β, blk, al, hv, hβ, hb, hs, hk, _, ha, _⟩ := hp x y z hin
  have hd := (dec1 hβ (big := big) (blk := blk) (al := al) hs (fun i hi => hb i hi) (j := y % 4) (i := x % 4) (by omega) (by omega)).1
  have bv := value_lt s.img .alpha x y z
  rw [hv .alpha 3 rfl (by decide), hd, ha]
  simp only [UInt8.lt_iff_toNat_lt, ofNat_toNat bv, show (128 : UInt8).toNat = 128 from rfl]
  split <;> rfl

example (big : Bool) (k : Mem) (junk : Nat → UInt8) : ∃ q, Back big k junk photo IL_DXT1 q ∧ value q .alpha 3 1 0 = 255 ∧ value q .alpha 4 1 0 = 0 := by
  obtain ⟨q, hb, _, h⟩ := C153_dxt1_alpha big k junk photo_picture
  exact ⟨q, hb, h 3 1 0 (by unfold Surface.In; decide), h 4 1 0 (by unfold Surface.In; decide)⟩

/-! ### C154: colours -/

/-- A colour rounded to 5, 6 and 5 bits. -/
def rounded (c : Rgb) : Rgb := ⟨scaled 31 c.r, scaled 63 c.g, scaled 31 c.b⟩

/-- The pixel is the strongest, or the weakest, of its block; others that are as strong have the same colour, after rounding. -/
def Extreme (s : Surface) (x y z : Nat) : Prop :=
  (∀ x' y', s.In x' y' z → SameBlock x y x' y' → strength (colour s.img x' y' z) < strength (colour s.img x y z) ∨
    rounded (colour s.img x' y' z) = rounded (colour s.img x y z)) ∨
  (∀ x' y', s.In x' y' z → SameBlock x y x' y' → strength (colour s.img x y z) < strength (colour s.img x' y' z) ∨
    rounded (colour s.img x' y' z) = rounded (colour s.img x y z))

theorem same16 {c d : Rgb} (hc : c.r < 256 ∧ c.g < 256 ∧ c.b < 256) (hd : d.r < 256 ∧ d.g < 256 ∧ d.b < 256) (h : rounded c = rounded d) :
    As16Bit c.r c.g c.b = As16Bit d.r d.g d.b := by
  rw [(as16 hc.1 hc.2.1 hc.2.2).1, (as16 hd.1 hd.2.1 hd.2.2).1]
  unfold rounded at h
  simp only [Rgb.mk.injEq] at h
  rw [h.1, h.2.1, h.2.2]

theorem norm16 {r g b : Nat} (hr : r < 256) (hg : g < 256) (hb : b < 256) : NormSquared (ShortToColor888 (As16Bit r g b)) = strength ⟨r, g, b⟩ := by
  have h := norm_as16 (c := ⟨r, g, b⟩) hr hg hb
  exact h

theorem extreme_end {s : Surface} {x y z : Nat} (he : Extreme s x y z) {blk : List Nat}
    (hk : ∀ k, k < 16 → ∃ x' y', s.In x' y' z ∧ SameBlock x y x' y' ∧
      blk.getD k 0 = As16Bit (value s.img .red x' y' z) (value s.img .green x' y' z) (value s.img .blue x' y' z))
    (hs : blk.getD (4 * (y % 4) + x % 4) 0 = As16Bit (value s.img .red x y z) (value s.img .green x y z) (value s.img .blue x y z)) :
    IsEnd (ChooseEndpoints blk) (blk.getD (4 * (y % 4) + x % 4) 0) := by
  have hl : ∀ x y, (colour s.img x y z).r < 256 ∧ (colour s.img x y z).g < 256 ∧ (colour s.img x y z).b < 256 :=
    fun x y => ⟨value_lt _ _ _ _ _, value_lt _ _ _ _ _, value_lt _ _ _ _ _⟩
  have hn : ∀ x y, NormSquared (ShortToColor888 (As16Bit (value s.img .red x y z) (value s.img .green x y z) (value s.img .blue x y z))) = strength (colour s.img x y z) :=
    fun x y => by unfold colour; exact norm16 (value_lt _ _ _ _ _) (value_lt _ _ _ _ _) (value_lt _ _ _ _ _)
  obtain ⟨hi, lo, h1, h2, e, hr⟩ := colourEnds blk
  have hself := hr (4 * (y % 4) + x % 4) (by omega)
  obtain ⟨xh, yh, inh, sbh, vh⟩ := hk hi h1
  obtain ⟨xl, yl, inl, sbl, vl⟩ := hk lo h2
  rw [e]
  rw [hs, vh, vl, hn, hn, hn] at hself
  rw [hs, vh, vl]
  rcases he with he | he
  · rcases he xh yh inh sbh with h | h
    · omega
    · have := same16 (hl x y) (hl xh yh) h.symm
      unfold colour at this
      exact Or.inl this
  · rcases he xl yl inl sbl with h | h
    · omega
    · have := same16 (hl x y) (hl xl yl) h.symm
      unfold colour at this
      exact Or.inr this

/-- **C154 (part): colours in DXT3 and DXT5.** The strongest and the weakest colours of a block come back with red at most 4, green at most 6 and blue
at most 4 away from what they were.  Missing: the colours between, and blocks with different colours of the same strength; see the violation. -/
theorem C154_extreme_partial (big : Bool) (k : Mem) (junk : Nat → UInt8) {s : Surface} (h : Picture s.img) {fmt : Nat} (hf : fmt = IL_DXT3 ∨ fmt = IL_DXT5) :
    ∃ q, Back big k junk s fmt q ∧ Shown s q ∧ ∀ x y z, s.In x y z → Extreme s x y z →
      dist (value q .red x y z) (value s.img .red x y z) ≤ 4 ∧ dist (value q .green x y z) (value s.img .green x y z) ≤ 6 ∧
      dist (value q .blue x y z) (value s.img .blue x y z) ≤ 4 := by
  obtain ⟨t, q, e1, e2, _, hq, hp⟩ := there_and_back big k junk h (.inr hf)
  refine ⟨q, ⟨t, e1, e2⟩, hq, fun x y z hin he => ?_⟩
  obtain ⟨β, blk, al, hv, hβ, hb, hs, hk, hc, ha, _⟩ := hp x y z hin
  have hend := extreme_end he (fun k hk' => by obtain ⟨a, b, c, d, e, _⟩ := hk k hk'; exact ⟨a, b, c, d, e⟩) hc
  have hbC : ∀ i, i < 8 → β (8 + i) = ((output (opsC big blk)).getD i 0).toNat := by
    rcases hf with e | e <;> subst e
    · exact (ops3_alpha (al := al) (fun i hi => hb i hi)).2
    · exact (ops5_parts (al := al) (fun i hi => hb i hi)).2.2.2
  have hd := fun c hc => decC hβ hf (big := big) hs hbC (j := y % 4) (i := x % 4) (by omega) (by omega) (.inl ⟨rfl, hend⟩) (c := c) hc
  rw [hc] at hd
  obtain ⟨n1, n2, n3, n4⟩ := colourC (value_lt s.img .red x y z) (value_lt s.img .green x y z) (value_lt s.img .blue x y z)
  rw [hv .red 0 rfl (by decide), hv .green 1 rfl (by decide), hv .blue 2 rfl (by decide), hd 0 (by decide), hd 1 (by decide), hd 2 (by decide),
    Nat.mod_eq_of_lt (n4 0 (by decide)), Nat.mod_eq_of_lt (n4 1 (by decide)), Nat.mod_eq_of_lt (n4 2 (by decide))]
  exact ⟨n1, n2, n3⟩

/-- **C154 (part): colours in DXT1.** The same for the pixels of a DXT1 block that are not transparent, with blue at most 10 away (the decoder puts
bits of red at its end). -/
theorem C154_extreme1_partial (big : Bool) (k : Mem) (junk : Nat → UInt8) {s : Surface} (h : Picture s.img) :
    ∃ q, Back big k junk s IL_DXT1 q ∧ Shown s q ∧ ∀ x y z, s.In x y z → Extreme s x y z → 128 ≤ value s.img .alpha x y z →
      dist (value q .red x y z) (value s.img .red x y z) ≤ 4 ∧ dist (value q .green x y z) (value s.img .green x y z) ≤ 6 ∧
      dist (value q .blue x y z) (value s.img .blue x y z) ≤ 10 := by
  obtain ⟨t, q, e1, e2, _, hq, hp⟩ := there_and_back big k junk h (.inl rfl)
  refine ⟨q, ⟨t, e1, e2⟩, hq, fun x y z hin he halpha => ?_⟩
  obtain ⟨β, blk, al, hv, hβ, hb, hs, hk, hc, ha, _⟩ := hp x y z hin
  have hend := extreme_end he (fun k hk' => by obtain ⟨a, b, c, d, e, _⟩ := hk k hk'; exact ⟨a, b, c, d, e⟩) hc
  have hd := (dec1 hβ (big := big) (blk := blk) (al := al) hs (fun i hi => hb i hi) (j := y % 4) (i := x % 4) (by omega) (by omega)).2 (by
    rw [ha, UInt8.lt_iff_toNat_lt, ofNat_toNat (value_lt _ _ _ _ _)]
    show ¬ _ < 128
    omega) _ (.inl ⟨rfl, hend⟩)
  rw [hc] at hd
  obtain ⟨n1, n2, n3, n4⟩ := colour1 (value_lt s.img .red x y z) (value_lt s.img .green x y z) (value_lt s.img .blue x y z)
  rw [hv .red 0 rfl (by decide), hv .green 1 rfl (by decide), hv .blue 2 rfl (by decide), hd 0 (by decide), hd 1 (by decide), hd 2 (by decide),
    Nat.mod_eq_of_lt (n4 0 (by decide)), Nat.mod_eq_of_lt (n4 1 (by decide)), Nat.mod_eq_of_lt (n4 2 (by decide))]
  exact ⟨n1, n2, n3⟩

/-- A picture of one colour comes back with each colour close to what it was. -/
theorem C154_uniform_partial (big : Bool) (k : Mem) (junk : Nat → UInt8) {s : Surface} (h : Picture s.img) {fmt : Nat} (hf : fmt = IL_DXT3 ∨ fmt = IL_DXT5)
    {c : Rgb} (hu : ∀ x y z, s.In x y z → colour s.img x y z = c) :
    ∃ q, Back big k junk s fmt q ∧ Shown s q ∧ ∀ x y z, s.In x y z →
      dist (value q .red x y z) c.r ≤ 4 ∧ dist (value q .green x y z) c.g ≤ 6 ∧ dist (value q .blue x y z) c.b ≤ 4 := by
  obtain ⟨q, hb, hq, hp⟩ := C154_extreme_partial big k junk h hf
  refine ⟨q, hb, hq, fun x y z hin => ?_⟩
  have := hp x y z hin (.inl fun x' y' hin' _ => .inr (by rw [hu x y z hin, hu x' y' z hin']))
  have e := hu x y z hin
  unfold colour at e
  rw [← e]
  exact this

instance (s : Surface) (x y z : Nat) : Decidable (s.In x y z) := inferInstanceAs (Decidable (_ ∧ _))

/-- The last column of the sample is a block of its own, and both of its colours are extreme. -/
example : Extreme photo 4 0 0 ∧ Extreme photo 4 1 0 := by
  have key : ∀ x' < 5, ∀ y' < 2, 4 / 4 = x' / 4 → strength (colour photo.img x' y' 0) < strength (colour photo.img 4 0 0) ∨
      rounded (colour photo.img x' y' 0) = rounded (colour photo.img 4 0 0) := by decide
  have key' : ∀ x' < 5, ∀ y' < 2, 4 / 4 = x' / 4 → strength (colour photo.img 4 1 0) < strength (colour photo.img x' y' 0) ∨
      rounded (colour photo.img x' y' 0) = rounded (colour photo.img 4 1 0) := by decide
  exact ⟨.inl fun x' y' hin sb => key x' hin.1 y' hin.2.1 sb.1, .inr fun x' y' hin sb => key' x' hin.1 y' hin.2.1 sb.1⟩

/-- A red pixel beside a blue one. -/
def flag : Surface := ⟨⟨2, 1, 1, 3, 1, 6, 6, 6, IL_RGB, IL_UNSIGNED_BYTE, IL_ORIGIN_UPPER_LEFT, [255, 0, 0, 0, 0, 255]⟩, IL_DXT_NO_COMP, []⟩

theorem flag_picture : Picture flag.img :=
  ⟨⟨by decide, by decide, by decide, by decide, by decide, by decide, by decide, by decide, by decide⟩, rfl, by decide, by decide, by decide⟩

/-- **C154 is violated: colours of the same strength.** In a block whose colours are all of the same strength, every pixel comes back with the colour
of the upper left one. -/
theorem C154_violated_strength (big : Bool) (k : Mem) (junk : Nat → UInt8) {s : Surface} (h : Picture s.img) {fmt : Nat}
    (hf : fmt = IL_DXT1 ∨ fmt = IL_DXT3 ∨ fmt = IL_DXT5) :
    ∃ q, Back big k junk s fmt q ∧ ∀ x y z, s.In x y z → (fmt = IL_DXT1 → 128 ≤ value s.img .alpha x y z) →
      (∀ x' y', s.In x' y' z → SameBlock x y x' y' → strength (colour s.img x' y' z) = strength (colour s.img x y z)) →
      dist (value q .red x y z) (value s.img .red (4 * (x / 4)) (4 * (y / 4)) z) ≤ 4 ∧
      dist (value q .green x y z) (value s.img .green (4 * (x / 4)) (4 * (y / 4)) z) ≤ 6 ∧
      dist (value q .blue x y z) (value s.img .blue (4 * (x / 4)) (4 * (y / 4)) z) ≤ 10 := by
  obtain ⟨t, q, e1, e2, _, hq, hp⟩ := there_and_back big k junk h hf
  refine ⟨q, ⟨t, e1, e2⟩, fun x y z hin hopaque hstr => ?_⟩
  obtain ⟨β, blk, al, hv, hβ, hb, hs, hk, hc, ha, h0⟩ := hp x y z hin
  have hl : ∀ x y, (colour s.img x y z).r < 256 ∧ (colour s.img x y z).g < 256 ∧ (colour s.img x y z).b < 256 :=
    fun x y => ⟨value_lt _ _ _ _ _, value_lt _ _ _ _ _, value_lt _ _ _ _ _⟩
  have hn : ∀ x y, NormSquared (ShortToColor888 (As16Bit (value s.img .red x y z) (value s.img .green x y z) (value s.img .blue x y z))) = strength (colour s.img x y z) :=
    fun x y => by unfold colour; exact norm16 (value_lt _ _ _ _ _) (value_lt _ _ _ _ _) (value_lt _ _ _ _ _)
  have hnk : ∀ i, i < 16 → NormSquared (ShortToColor888 (blk.getD i 0)) = strength (colour s.img x y z) := by
    intro i hi
    obtain ⟨x', y', i1, i2, i3, _⟩ := hk i hi
    rw [i3, hn]
    exact hstr x' y' i1 i2
  have hE := same_ends (blk := blk) (fun i hi => by rw [hnk i hi, hnk 0 (by decide)])
  have hg : Gives (ChooseEndpoints blk) (blk.getD (4 * (y % 4) + x % 4) 0) (blk.getD 0 0) := by
    rw [hE]
    exact .inr fun w => ⟨fun hw => hw.elim id id, .inl⟩
  rcases hf with e | hf
  · subst e
    have hd := (dec1 hβ (big := big) (blk := blk) (al := al) hs (fun i hi => hb i hi) (j := y % 4) (i := x % 4) (by omega) (by omega)).2 (by
      rw [ha, UInt8.lt_iff_toNat_lt, ofNat_toNat (value_lt _ _ _ _ _)]
      have := hopaque rfl
      show ¬ _ < 128
      omega) _ hg
    rw [h0] at hd
    obtain ⟨n1, n2, n3, n4⟩ := colour1 (value_lt s.img .red (4 * (x / 4)) (4 * (y / 4)) z) (value_lt s.img .green (4 * (x / 4)) (4 * (y / 4)) z)
      (value_lt s.img .blue (4 * (x / 4)) (4 * (y / 4)) z)
    rw [hv .red 0 rfl (by decide), hv .green 1 rfl (by decide), hv .blue 2 rfl (by decide), hd 0 (by decide), hd 1 (by decide), hd 2 (by decide),
      Nat.mod_eq_of_lt (n4 0 (by decide)), Nat.mod_eq_of_lt (n4 1 (by decide)), Nat.mod_eq_of_lt (n4 2 (by decide))]
    exact ⟨n1, n2, n3⟩
  · have hbC : ∀ i, i < 8 → β (8 + i) = ((output (opsC big blk)).getD i 0).toNat := by
      rcases hf with e | e <;> subst e
      · exact (ops3_alpha (al := al) (fun i hi => hb i hi)).2
      · exact (ops5_parts (al := al) (fun i hi => hb i hi)).2.2.2
    have hd := fun c hc => decC hβ hf (big := big) hs hbC (j := y % 4) (i := x % 4) (by omega) (by omega) hg (c := c) hc
    rw [h0] at hd
    obtain ⟨n1, n2, n3, n4⟩ := colourC (value_lt s.img .red (4 * (x / 4)) (4 * (y / 4)) z) (value_lt s.img .green (4 * (x / 4)) (4 * (y / 4)) z)
      (value_lt s.img .blue (4 * (x / 4)) (4 * (y / 4)) z)
    rw [hv .red 0 rfl (by decide), hv .green 1 rfl (by decide), hv .blue 2 rfl (by decide), hd 0 (by decide), hd 1 (by decide), hd 2 (by decide),
      Nat.mod_eq_of_lt (n4 0 (by decide)), Nat.mod_eq_of_lt (n4 1 (by decide)), Nat.mod_eq_of_lt (n4 2 (by decide))]
    exact ⟨n1, n2, by omega⟩

/-- A red pixel beside a blue one: only two colours, and so fit for a block of any of the formats.  After compression both pixels are red. -/
theorem C154_violated_flag (big : Bool) (k : Mem) (junk : Nat → UInt8) {fmt : Nat} (hf : fmt = IL_DXT1 ∨ fmt = IL_DXT3 ∨ fmt = IL_DXT5) :
    colour flag.img 0 0 0 = ⟨255, 0, 0⟩ ∧ colour flag.img 1 0 0 = ⟨0, 0, 255⟩ ∧
    ∃ q, Back big k junk flag fmt q ∧ 251 ≤ value q .red 1 0 0 ∧ value q .blue 1 0 0 ≤ 10 := by
  refine ⟨by decide, by decide, ?_⟩
  obtain ⟨q, hb, hq⟩ := C154_violated_strength big k junk flag_picture hf
  have key : ∀ x' < 2, ∀ y' < 1, strength (colour flag.img x' y' 0) = strength (colour flag.img 1 0 0) := by decide
  have h := hq 1 0 0 ⟨by decide, by decide, by decide⟩ (fun _ => by decide) (fun x' y' hin _ => key x' hin.1 y' hin.2.1)
  have e1 : value flag.img .red (4 * (1 / 4)) (4 * (0 / 4)) 0 = 255 := by decide
  have e2 : value flag.img .blue (4 * (1 / 4)) (4 * (0 / 4)) 0 = 0 := by decide
  rw [e1, e2] at h
  unfold dist at h
  exact ⟨q, hb, by omega, by omega⟩

/-! ### C155: ilCompressDXT -/

/-- **C155 is violated: the data is ignored.** Whatever the data and its size, `ilCompressDXT` compresses the current image, with its own size. -/
theorem C155_violated_current (big : Bool) (k : Mem) {cur : Surface} (hp : Picture cur.img) (hc : cur.comp = []) (data : List UInt8) {w h d : Nat}
    (hw : 0 < w) (hh : 0 < h) (hd : 0 < d) {fmt : Nat} (hf : fmt = IL_DXT1 ∨ fmt = IL_DXT3 ∨ fmt = IL_DXT5) :
    ∃ t : Surface, ilSurfaceToDxtcData big k cur fmt = .ok (some (true, t)) ∧ t.img = cur.img ∧ ilCompressDXT big k cur data w h d fmt = .ok (some t.comp) := by
  have hs := size_eq hp hf
  have hpos := bytes_pos (bsize_pos fmt) hp.plain.w0 hp.plain.h0 hp.plain.d0
  have hb := hp.blocks
  have hle := bytes_le fmt cur.img.width cur.img.height cur.img.depth
  obtain ⟨_, out, _, e⟩ := C150_size_partial big k hp hf (fun _ => hc) (buf := alloc k.bytes (dxtcSize cur.img fmt)) (by rw [alloc_length])
    (by rw [alloc_length, hs]; omega)
  refine ⟨⟨cur.img, fmt, out ++ (alloc k.bytes (dxtcSize cur.img fmt)).drop (dxtcSize cur.img fmt)⟩, ?_, rfl, ?_⟩
  · unfold ilSurfaceToDxtcData
    dsimp only
    have hn : (if cur.comp ≠ [] then (⟨cur.img, IL_DXT_NO_COMP, []⟩ : Surface) else cur) = cur := if_neg (fun hn => hn hc)
    rw [hn, if_neg (by omega), e, bind_ok]
    rfl
  · unfold ilCompressDXT
    rw [if_neg (by rcases hf with e | e | e <;> subst e <;> simp <;> omega), if_neg (by omega), e, bind_ok]
    dsimp only
    rw [if_neg (fun hn => hn rfl)]
    rfl

/-- Four rows of four white pixels are to be compressed while the sample is the current image: the result has the two blocks of the sample. -/
example (big : Bool) (k : Mem) : ∃ t : Surface, ilSurfaceToDxtcData big k photo IL_DXT5 = .ok (some (true, t)) ∧ t.img = photo.img ∧
    ilCompressDXT big k photo (List.replicate 64 255) 4 4 1 IL_DXT5 = .ok (some t.comp) :=
  C155_violated_current big k photo_picture rfl _ (by decide) (by decide) (by decide) (.inr (.inr rfl))

/-- **C155 (part).** If the current image is a picture of the size and with the data given, the result is its compressed data, which decompresses to a
picture of this size in which every pixel is as transparent as C151 says (here stated for DXT5).  Missing: any other current image. -/
theorem C155_same_partial (big : Bool) (k : Mem) (junk : Nat → UInt8) {cur : Surface} (hp : Picture cur.img) (hc : cur.comp = []) :
    ∃ (out : List UInt8) (q : Img), ilCompressDXT big k cur cur.img.data cur.img.width cur.img.height cur.img.depth IL_DXT5 = .ok (some out) ∧
      ilDxtcDataToSurface junk ⟨cur.img, IL_DXT5, out⟩ = .ok (true, ⟨q, IL_DXT5, out⟩) ∧ Shown cur q ∧
      ∀ x y z, cur.In x y z → value cur.img .alpha x y z = 0 ∨ value cur.img .alpha x y z = 255 → value q .alpha x y z = value cur.img .alpha x y z := by
  obtain ⟨q, ⟨t, e1, e2⟩, hq, hv⟩ := C151_dxt5_alpha big k junk hp
  obtain ⟨t', e1', _, e3⟩ := C155_violated_current big k hp hc cur.img.data hp.plain.w0 hp.plain.h0 hp.plain.d0 (.inr (.inr (rfl : IL_DXT5 = IL_DXT5)))
  obtain ⟨t2, _, e4, hi, hf, _⟩ := stored big k hp (.inr (.inr (rfl : IL_DXT5 = IL_DXT5)))
  rw [e1] at e1' e4
  cases e1'
  cases e4
  have et : t = ⟨cur.img, IL_DXT5, t.comp⟩ := by rw [← hi, ← hf]
  rw [et] at e2
  exact ⟨t.comp, q, e3, e2, hq, fun x y z hin h0 => (hv x y z hin).2 (.inr (.inr h0))⟩

end DevIL.DxtSave
