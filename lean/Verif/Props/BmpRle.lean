import Verif.Lemmas.BmpRle
import Verif.Props.BmpRead
/-! C91: what a run-length encoded Windows bitmap decodes to. -/
set_option autoImplicit false
namespace DevIL.Bmp
open DevIL.Lump DevIL.Endian DevIL.Image DevIL.Utility DevIL.Load
open DevIL.Targa (Loaded)

/-! ### Specification (with `Verif/Spec/BmpRle.lean`) -/

/-- A run-length encoded Windows bitmap of `w` columns and `h` rows, of four (RLE4) or eight (RLE8) bits: the header is in order, and from the
announced offset on the file has the bytes of the codes `cs`, which stay inside the image, and of the code for the end. -/
structure Coded (file : List UInt8) (four : Bool) (w h off : Nat) (cs : List Code) (rest : List UInt8) : Prop where
  windows : Windows file
  small : file.length < 2147483648
  width : field file 18 4 = w
  height : (sfield file 22 4).natAbs = h
  depth : field file 28 2 = if four then 4 else 8
  method : field file 30 4 = if four then 2 else 1
  start : field file 10 4 = off
  palette : 54 + colours (if four then 4 else 8) (field file 46 4) * 4 ≤ off
  codes : file.drop off = cs.flatMap (Code.bytes four) ++ ([0, 1] ++ rest)
  inside : Fits four w h ⟨0, 0, fun _ _ => none⟩ cs
  fits : w * h < 4294967296 ∧ h < 2147483648

/-- The image that such a file is to give. -/
structure Shows (m : Img) (file : List UInt8) (w h : Nat) (f : Nat → Nat → Option UInt8) : Prop where
  cons : m.Consistent
  width : m.width = w
  height : m.height = h
  depth : m.depth = 1
  bpp : m.bpp = 1
  bpc : m.bpc = 1
  type : m.type = IL_UNSIGNED_BYTE
  format : m.format = IL_COLOUR_INDEX
  /-- The first line is at the bottom, unless the height is negative. -/
  origin : m.origin = if sfield file 22 4 < 0 then IL_ORIGIN_UPPER_LEFT else IL_ORIGIN_LOWER_LEFT
  pixels : ∀ x y v, x < w → y < h → f x y = some v → m.px x y 0 0 = some v

/-! ## C91 -/

theorem bytes_length (four : Bool) (c : Code) : 2 ≤ (c.bytes four).length := by
  cases c <;> simp [Code.bytes]

theorem codes_length (four : Bool) (cs : List Code) : 2 * cs.length ≤ (cs.flatMap (Code.bytes four)).length := by
  induction cs with
  | nil => simp
  | cons c cs ih =>
    have := bytes_length four c
    rw [List.flatMap_cons, List.length_append, List.length_cons]
    omega

theorem colours_eq {bits : Nat} (used : Nat) (hb : bits ≤ 8) : colours bits used = if used = 0 then 2 ^ bits else used := by
  unfold colours
  rw [if_neg (by omega)]

/-- **C91.** A run-length encoded bitmap (for four bits the number of colours, if given, being sixteen) loads: the image has the announced
dimensions, the origin that the sign of the height says, the stored palette, and every pixel that a code sets has the value that the last such code
says.  Partial: pixels that no code sets are not 0 (`C91_violated_skipped`). -/
theorem C91_decode_partial (big : Bool) (junk : Nat → UInt8) (file : List UInt8) (four : Bool) (w h off : Nat) (cs : List Code) (rest : List UInt8)
    (hC : Coded file four w h off cs rest) (h4 : four = true → field file 46 4 = 0 ∨ field file 46 4 = 16) :
    ∃ m l, iLoadBitmapInternal big junk (open_ file file.length) =
        .ok (true, some (m, paletteOf file (colours (if four then 4 else 8) (field file 46 4))), l) ∧
      Shows m file w h (picture four cs) := by
  have hw := hC.windows
  have h54 := hw.long
  have g := (at_open (data := file) (by omega) hw.lt).1
  have hmet := hC.method
  obtain ⟨hc, hp, hb, hcm⟩ := hw.check (by rw [hmet]; split <;> omega) (by rw [hmet]; split <;> omega)
  have hsmall := hC.small
  have hw0 : 0 < w ∧ (headOf file).width.toNat = w := by
    have h1 := hw.width
    have e : (headOf file).width = sfield file 18 4 := rfl
    rw [e]
    unfold sfield at h1 ⊢
    have := field_lt file 18 4
    rw [hC.width] at h1 this ⊢
    simp only [Nat.reducePow, Nat.reduceMul, Nat.reduceSub, Int.reducePow] at this h1 ⊢
    split at h1 <;> split <;> omega
  have hh0 : 0 < h := by have := hw.height; have := hC.height; omega
  have hlen : off + 2 + 2 * cs.length ≤ file.length := by
    have := congrArg List.length hC.codes
    have := codes_length four cs
    simp only [List.length_drop, List.length_append, List.length_cons, List.length_nil] at *
    omega
  have hpal := hC.palette
  have ho : (headOf file).off = (off : Int) := by
    have := sfield_of hC.start (n := 4) (by simp only [Nat.reduceMul, Nat.reduceSub, Nat.reducePow]; omega)
    exact this
  have hhe : (headOf file).height.natAbs = h := hC.height
  have hfits : w * 1 * h < 4294967296 := by rw [Nat.mul_one]; exact hC.fits.1
  have hhn : (headOf file).height ≠ -2147483648 := by
    intro e
    rw [e] at hhe
    have h2 : h = 2147483648 := hhe.symm
    have := hC.fits.2
    omega
  unfold iLoadBitmapInternal
  rw [head_at g rfl big junk h54, bind_ok]
  have gd : (open_ file file.length).data = file := rfl
  have hfour : decide ((headOf file).comp = 2) = four := by
    rw [hcm, hmet]
    cases four <;> decide
  dsimp only
  rw [gd, hc, if_neg (by decide), if_neg (by rw [hp]; decide), if_neg (by rw [hcm, hmet]; cases four <;> decide), hfour]
  unfold ilReadRleBmp
  rw [absHeight_ok hhn, bind_ok, hw0.2, hhe]
  obtain ⟨m, em, c, f1, f2, f3, f4, f5, f6, f7, f8, f9, f10⟩ := init8 junk 0 (w := w) (h := h) (bpp := 1) hw0.1 hh0 hfits
  rw [em, bind_ok]
  dsimp only
  have hcol0 : 0 < colours (if four then 4 else 8) (field file 46 4) := by
    rw [colours_eq _ (by cases four <;> decide)]
    by_cases hz : field file 46 4 = 0
    · rw [if_pos hz]; exact Nat.pow_pos (by decide)
    · rw [if_neg hz]; omega
  have hn : (if four = true then pure 64 else do
      let n ← palBytes (headOf file).used
      pure (if n = 0 then 1024 else n) : C Nat) = .ok (colours (if four then 4 else 8) (field file 46 4) * 4) := by
    cases four with
    | true =>
      rw [if_pos rfl, pure_eq_ok]
      rcases h4 rfl with e | e <;> rw [e] <;> rfl
    | false =>
      rw [if_neg (by decide)]
      have hu : field file 46 4 * 4 < 2147483648 := by
        have : field file 46 4 ≤ colours 8 (field file 46 4) := by rw [colours_eq _ (by decide)]; split <;> omega
        have h2 : 54 + colours 8 (field file 46 4) * 4 ≤ off := hpal
        omega
      have e : (headOf file).used = (field file 46 4 : Int) := sfield_of (o := 46) (n := 4) rfl (by simp only [Nat.reduceMul, Nat.reduceSub, Nat.reducePow]; omega)
      rw [e]
      unfold palBytes
      rw [if_neg (by omega), pure_eq_ok, bind_ok, pure_eq_ok]
      have e2 : ofInt ((field file 46 4 : Int) * 4) = field file 46 4 * 4 := by
        unfold ofInt
        omega
      rw [e2]
      congr 1
      show _ = colours 8 (field file 46 4) * 4
      rw [colours_eq _ (by decide)]
      by_cases hz : field file 46 4 = 0
      · rw [if_pos hz, if_pos (by omega)]; rfl
      · rw [if_neg hz, if_neg (by omega)]
  rw [hn, bind_ok]
  generalize hcol : colours (if four then 4 else 8) (field file 46 4) = n at *
  have e54 : seek (adv (open_ file file.length) 54) 54 SEEK_SET = .ok (true, { (adv (open_ file file.length) 54) with pos := 54 }) :=
    seek_off (l := adv (open_ file file.length) 54) (o := 54) hsmall h54
  rw [e54, bind_ok]
  dsimp only
  have g54 : Good { (adv (open_ file file.length) 54) with pos := 54 } := ⟨g.size, h54, g.lt, g.ne⟩
  have hpl : ((file.drop 54).take (n * 4)).length = n * 4 := by rw [List.length_take, List.length_drop]; omega
  have hat : At { (adv (open_ file file.length) 54) with pos := 54 } ((file.drop 54).take (n * 4) ++ (file.drop 54).drop (n * 4)) :=
    ⟨g54, (List.take_append_drop _ _).symm⟩
  rw [At.readAt hat (by omega) (by omega) (by rw [alloc_length]; omega), bind_ok]
  dsimp only
  rw [if_neg (by simp), ho, seek_off (o := off) (by exact hsmall) (by show off ≤ file.length; omega), bind_ok]
  dsimp only
  have hsz : m.size = h * w := by rw [f9, Nat.mul_one, Nat.mul_comm]
  obtain ⟨s, es, hs1, hs2, hs3⟩ := codes_spec (four := four) (w := w) (h := h) (by rw [Nat.mul_comm]; exact hC.fits.1) (rest := rest) cs ⟨0, 0, fun _ _ => none⟩
    ⟨0, w, m.data, { (adv { (adv (open_ file file.length) 54) with pos := 54 } (n * 4)) with pos := off }, false⟩ (file.length + 2)
    ⟨by simp, by simp, by rw [c.2.2.2, hsz], Nat.zero_le _, by simp, rfl⟩ hC.inside
    ⟨⟨g.size, by show off ≤ file.length; omega, g.lt, g.ne⟩, hC.codes⟩ (by omega)
  unfold Bmp.codes
  dsimp only
  rw [hsz, f1]
  erw [es]
  rw [bind_ok, hs1, pure_eq_ok]
  refine ⟨{ m with format := IL_COLOUR_INDEX, origin := originOf (headOf file), data := s.data }, s.inp, ?_, ?_⟩
  · have hq : ∀ pd, pd = (file.drop 54).take (n * 4) → some (⟨pd, n * 4, IL_PAL_BGR32⟩ : Pal) = paletteOf file n := by
      intro pd hpd
      unfold paletteOf
      rw [if_neg (by omega), hpd]
    have : (alloc junk (n * 4)).drop (0 + n * 4) = [] := by
      rw [Nat.zero_add, List.drop_eq_nil_iff, alloc_length]
    rw [hq _ (by rw [hpl, this, List.append_nil, List.take_zero, List.nil_append]), f1, hsz]
    rfl
  · refine ⟨⟨c.1, c.2.1, c.2.2.1, hs2.trans hsz.symm⟩, f1, f2, f3, f4, f5, f7, rfl, rfl, ?_⟩
    intro x y v hx hy hv
    rw [px_eq (m := { m with format := IL_COLOUR_INDEX, origin := originOf (headOf file), data := s.data }) f5]
    show s.data[(y * m.width + x) * m.bpp + 0]? = _
    rw [f4, f1, Nat.mul_one, Nat.add_zero]
    exact hs3 x y v hx hy hv

/-! ### Instances and violations -/

/-- Four columns, two lines: three literal pixels (padded), the end of the line, a step to the right, and a run of two. -/
abbrev codes8 : List Code := [.lit [7, 8, 9] 0xEE, .eol, .delta 1 0, .run 2 5]
abbrev rle8 : List UInt8 := bmp 58 4 2 8 1 1 ([1, 2, 3, 0] ++ (codes8.flatMap (Code.bytes false) ++ [0, 1]))

set_option maxRecDepth 20000 in
theorem rle8_coded : Coded rle8 false 4 2 58 codes8 [] :=
  ⟨⟨by decide, by decide, by decide, by decide, by decide, by decide, by decide, by decide⟩, by decide, by decide, by decide, by decide, by decide, by decide,
    by decide, by decide, ⟨by unfold Code.Ok; decide, by unfold Code.Fits; decide, trivial, trivial, trivial, by unfold Code.Fits; decide,
      by unfold Code.Ok; decide, by unfold Code.Fits; decide, trivial⟩, by decide⟩

set_option maxRecDepth 20000 in
example : ∃ m l, iLoadBitmapInternal true (fun _ => 9) (open_ rle8 rle8.length) = .ok (true, some (m, some ⟨[1, 2, 3, 0], 4, IL_PAL_BGR32⟩), l) ∧
    m.px 2 0 0 0 = some 9 ∧ m.px 1 1 0 0 = some 5 ∧ m.px 2 1 0 0 = some 5 := by
  obtain ⟨m, l, e, h⟩ := C91_decode_partial true (fun _ => 9) rle8 false 4 2 58 codes8 [] rle8_coded (by decide)
  exact ⟨m, l, e.trans (by rfl), h.pixels 2 0 9 (by decide) (by decide) (by decide), h.pixels 1 1 5 (by decide) (by decide) (by decide),
    h.pixels 2 1 5 (by decide) (by decide) (by decide)⟩

/-- Five columns, one line of four-bit pixels: a run of two, and three literal pixels. -/
abbrev codes4 : List Code := [.run 2 0x12, .lit [3, 4, 5] 0]
abbrev rle4 : List UInt8 := bmp 118 5 0xFFFFFFFF 4 2 16 (List.replicate 64 1 ++ (codes4.flatMap (Code.bytes true) ++ [0, 1]))

set_option maxRecDepth 20000 in
example : ∃ m p l, iLoadBitmapInternal true (fun _ => 9) (open_ rle4 rle4.length) = .ok (true, some (m, p), l) ∧ m.origin = IL_ORIGIN_UPPER_LEFT ∧
    m.px 0 0 0 0 = some 1 ∧ m.px 1 0 0 0 = some 2 ∧ m.px 2 0 0 0 = some 3 ∧ m.px 4 0 0 0 = some 5 := by
  obtain ⟨m, l, e, h⟩ := C91_decode_partial true (fun _ => 9) rle4 true 5 1 118 codes4 []
    ⟨⟨by decide, by decide, by decide, by decide, by decide, by decide, by decide, by decide⟩, by decide, by decide, by decide, by decide, by decide, by decide,
      by decide, by decide, ⟨by unfold Code.Ok; decide, by unfold Code.Fits; decide, by unfold Code.Ok; decide, by unfold Code.Fits; decide, trivial⟩, by decide⟩ (by decide)
  exact ⟨m, _, l, e, h.origin, h.pixels 0 0 1 (by decide) (by decide) (by decide), h.pixels 1 0 2 (by decide) (by decide) (by decide),
    h.pixels 2 0 3 (by decide) (by decide) (by decide), h.pixels 4 0 5 (by decide) (by decide) (by decide)⟩

set_option maxRecDepth 20000 in
/-- **C91 (violated).** A pixel that no code sets has whatever was in memory: the same file gives two images. -/
theorem C91_violated_skipped : ∃ cs, Coded rle8 false 4 2 58 cs [] ∧ picture false cs 3 0 = none ∧
    (∃ r l, iLoadBitmapInternal false (fun _ => 1) (open_ rle8 rle8.length) = .ok (true, some r, l) ∧ r.1.px 3 0 0 0 = some 1) ∧
    ∃ r l, iLoadBitmapInternal false (fun _ => 2) (open_ rle8 rle8.length) = .ok (true, some r, l) ∧ r.1.px 3 0 0 0 = some 2 :=
  ⟨codes8, rle8_coded, by decide, ⟨_, _, rfl, rfl⟩, _, _, rfl, rfl⟩

set_option maxRecDepth 20000 in
/-- **C91 (violated).** A complete file of four bits whose palette has one colour does not load: sixteen are read in any case. -/
theorem C91_violated_palette : ∃ file cs, Coded file true 1 1 58 cs [] ∧
    ∃ im l, iLoadBitmapInternal false (fun _ => 0) (open_ file file.length) = .ok (false, im, l) :=
  ⟨bmp 58 1 1 4 2 1 ([1, 2, 3, 0] ++ [1, 0x10, 0, 1]), [.run 1 0x10],
    ⟨⟨by decide, by decide, by decide, by decide, by decide, by decide, by decide, by decide⟩, by decide, by decide, by decide, by decide, by decide, by decide,
      by decide, by decide, ⟨by unfold Code.Ok; decide, by unfold Code.Fits; decide, trivial⟩, by decide⟩, _, _, rfl⟩

end DevIL.Bmp
