import Verif.Lemmas.SunB
import Verif.Props.Games
/-! Sun raster files: C163 (not compressed), C164 (colour maps), C165 (compressed), C166 (32 bits), C167 (any bytes), C168 (cut off), C169 (1 bit). -/
set_option autoImplicit false
namespace DevIL.Sun
open DevIL.Games DevIL.Detect DevIL.DetectSpec DevIL.GamesSpec DevIL.SunSpec

/-- A file of the format with these numbers in its header. -/
def sunFile (w h d t mt ml : UInt8) (rest : List UInt8) : List UInt8 :=
  [0x59, 0xA6, 0x6A, 0x95] ++ [0, 0, 0, w] ++ [0, 0, 0, h] ++ [0, 0, 0, d] ++ [0, 0, 0, 0] ++ [0, 0, 0, t] ++ [0, 0, 0, mt] ++ [0, 0, 0, ml] ++ rest

/-! ### C163 -/

/-- **C163**, greyscale: for every file of 8 bits per pixel that is not compressed and has no colour map, of any size below 4 GiB, with all its pixels there, from
a file or from memory, loading succeeds and every pixel is the byte of the file; rows take an even number of bytes in the file. -/
theorem C163_grey (junk : Nat → UInt8) (file : Bool) (fuel : Nat) (cur : Img × Option Pal) (bs : List UInt8) (hl : bs.length < 2147483648) {w h t : Nat}
    (H : Head bs w h 8 t 0 0) (ht : t ≠ 2) (hfit : w * h < 2 ^ 32) (hall : 32 + (h - 1) * even w + w ≤ bs.length) :
    Both (iLoadSunInternal fileOps junk file fuel cur) (iLoadSunInternal lumpOps junk file fuel cur) bs (fun ok r => ok = true ∧ r.2 = none ∧
      Shows r.1 w h 1 IL_LUMINANCE (fun x y _ => bs[32 + y * even w + x]?)) :=
  both (by have := H.len; omega) hl (fun _ a => raw8_spec fileLaws2 junk file fuel cur a H ht hfit hall) (fun _ a => raw8_spec lumpLaws2 junk file fuel cur a H ht hfit hall)

/-- **C163**, colours: likewise for 24 bits per pixel, with or without a colour map (which is passed over); the components are in the order the type of the file says. -/
theorem C163_colour (junk : Nat → UInt8) (file : Bool) (fuel : Nat) (cur : Img × Option Pal) (bs : List UInt8) (hl : bs.length < 2147483648) {w h t mt ml : Nat}
    (H : Head bs w h 24 t mt ml) (ht : t ≠ 2) (hfit : w * h * 3 < 2 ^ 32) (hall : 32 + ml + (h - 1) * even (w * 3) + w * 3 ≤ bs.length) :
    Both (iLoadSunInternal fileOps junk file fuel cur) (iLoadSunInternal lumpOps junk file fuel cur) bs (fun ok r => ok = true ∧ r.2 = none ∧
      Shows r.1 w h 3 (order t) (fun x y c => bs[32 + ml + y * even (w * 3) + (x * 3 + c)]?)) :=
  both (by have := H.len; omega) hl (fun _ a => raw24_spec fileLaws2 junk file fuel cur a H ht hfit hall) (fun _ a => raw24_spec lumpLaws2 junk file fuel cur a H ht hfit hall)

/-- Three by two pixels: each row has a byte of padding. -/
def greyFile : List UInt8 := sunFile 3 2 8 1 0 0 [10, 20, 30, 0, 40, 50, 60, 0]
theorem greyFile_head : Head greyFile 3 2 8 1 0 0 := by constructor <;> decide
example : 32 + (2 - 1) * even 3 + 3 ≤ greyFile.length := by decide
/-- The second row begins after the padding. -/
example : ∃ ok r s', ilLoadF (iLoadSunInternal fileOps (fun _ => 0) true 9 before) (opened greyFile 0) = .ok (ok, r, s') ∧ ok = true ∧ r.1.px 0 1 0 0 = some 40 := by
  obtain ⟨⟨ok, r, s', e, ⟨h1, -, h2⟩, -⟩, -⟩ := C163_grey (fun _ => 0) true 9 before greyFile (by decide) greyFile_head (by decide) (by decide) (by decide)
  exact ⟨ok, r, s', e, h1, (h2.px 0 1 0 (by decide) (by decide) (by decide)).1⟩
/-- One by two pixels with a map of three bytes to pass over, red first. -/
def colourFile : List UInt8 := sunFile 1 2 24 3 1 3 [7, 7, 7, 1, 2, 3, 0, 4, 5, 6]
theorem colourFile_head : Head colourFile 1 2 24 3 1 3 := by constructor <;> decide
example : 32 + 3 + (2 - 1) * even (1 * 3) + 1 * 3 ≤ colourFile.length := by decide
example : ∃ ok r, ilLoadL (iLoadSunInternal lumpOps (fun _ => 0) true 9 before) colourFile colourFile.length = .ok (ok, r) ∧ r.1.format = IL_RGB ∧ r.1.px 0 1 0 2 = some 6 := by
  obtain ⟨-, ok, r, e, -, -, h2⟩ := C163_colour (fun _ => 0) true 9 before colourFile (by decide) colourFile_head (by decide) (by decide) (by decide)
  exact ⟨ok, r, e, h2.format, (h2.px 0 1 2 (by decide) (by decide) (by decide)).1⟩

/-! ### C164 -/

/-- **C164** (partial): for every file of 8 bits per pixel with a colour map, not compressed, with all its pixels there, every pixel of the image has the number of
its colour, and the palette has the bytes of the map.  Missing: that the colours of the palette are those of the map, which is false (`C164_violated_map`): the map has all
the reds, then all the greens, then all the blues, but the palette is said to have the three components of a colour together. -/
theorem C164_index_partial (junk : Nat → UInt8) (file : Bool) (fuel : Nat) (cur : Img × Option Pal) (bs : List UInt8) (hl : bs.length < 2147483648) {w h t ml : Nat}
    (H : Head bs w h 8 t 1 ml) (ht : t ≠ 2) (hfit : w * h < 2 ^ 32) (hall : 32 + ml + (h - 1) * even w + w ≤ bs.length) :
    Both (iLoadSunInternal fileOps junk file fuel cur) (iLoadSunInternal lumpOps junk file fuel cur) bs (fun ok r => ok = true ∧ HasPal r.2 (at_ bs 32 ml) IL_PAL_RGB24 ∧
      Shows r.1 w h 1 IL_COLOUR_INDEX (fun x y _ => bs[32 + ml + y * even w + x]?)) :=
  both (by have := H.len; omega) hl (fun _ a => map8_spec fileLaws2 junk file fuel cur a H ht hfit hall) (fun _ a => map8_spec lumpLaws2 junk file fuel cur a H ht hfit hall)

/-- Two by one pixels, of the colours 1 and 0; the colours are (1, 3, 5) and (2, 4, 6). -/
def mapFile : List UInt8 := sunFile 2 1 8 1 1 6 [1, 2, 3, 4, 5, 6, 1, 0]
theorem mapFile_head : Head mapFile 2 1 8 1 1 6 := by constructor <;> decide
example : 32 + 6 + (1 - 1) * even 2 + 2 ≤ mapFile.length := by decide

/-- **C164** is false for every map of which the second byte is not that of the first green: the green of colour 0 in the palette is the red of colour 1 in the
file. -/
theorem C164_violated_map (junk : Nat → UInt8) (file : Bool) (fuel : Nat) (cur : Img × Option Pal) (bs : List UInt8) (hl : bs.length < 2147483648) {w h t n : Nat}
    (H : Head bs w h 8 t 1 (3 * n)) (ht : t ≠ 2) (hfit : w * h < 2 ^ 32) (hall : 32 + 3 * n + (h - 1) * even w + w ≤ bs.length) (hn : 2 ≤ n) :
    Both (iLoadSunInternal fileOps junk file fuel cur) (iLoadSunInternal lumpOps junk file fuel cur) bs (fun ok r => ok = true ∧ ∃ p, r.2 = some p ∧ p.type = IL_PAL_RGB24 ∧
      p.data[1]? = bs[32 + 1]? ∧ (bs[32 + 1]? ≠ bs[32 + n]? → p.data[1]? ≠ bs[32 + n]?)) := by
  obtain ⟨⟨ok, r, s', e, ⟨h1, h2, -⟩, h3⟩, ⟨ok', r', e', h1', h2', -⟩⟩ := C164_index_partial junk file fuel cur bs hl H ht hfit hall
  have key : (at_ bs 32 (3 * n))[1]? = bs[32 + 1]? := at_get _ _ _ _ (by omega)
  exact ⟨⟨ok, r, s', e, ⟨h1, _, h2, rfl, key, fun h => by rw [key]; exact h⟩, h3⟩, ⟨ok', r', e', h1', _, h2', rfl, key, fun h => by rw [key]; exact h⟩⟩
example : Head mapFile 2 1 8 1 1 (3 * 2) ∧ mapFile[32 + 1]? ≠ mapFile[32 + 2]? := ⟨mapFile_head, by decide⟩

/-! ### C165 -/

/-- **C165**, greyscale (partial): for every compressed file of 8 bits per pixel without a colour map, of which each row is compressed by itself (if it takes an odd
number of bytes, with a byte of padding that is not part of a run), every pixel is as stored.  Missing: runs that go on into the next row
(`C165_violated_across`). -/
theorem C165_grey_partial (junk : Nat → UInt8) (file : Bool) (fuel : Nat) (cur : Img × Option Pal) (bs : List UInt8) (hl : bs.length < 2147483648) {w h : Nat}
    (H : Head bs w h 8 2 0 0) (hfit : w * h < 2 ^ 32) (hf : w < fuel) (rs : List (List Part × UInt8)) (hlen : rs.length = h)
    (hok : ∀ r ∈ rs, ∀ k ∈ r.1, k.Ok) (hpx : ∀ r ∈ rs, (r.1.flatMap Part.pixels).length = w) (hn : StoredAt bs 32 (rs.flatMap (packed w))) :
    Both (iLoadSunInternal fileOps junk file fuel cur) (iLoadSunInternal lumpOps junk file fuel cur) bs (fun ok r => ok = true ∧ r.2 = none ∧
      Shows r.1 w h 1 IL_LUMINANCE (fun x y _ => rs[y]?.bind (fun r => (r.1.flatMap Part.pixels)[x]?))) :=
  both (by have := H.len; omega) hl (fun _ a => rle8_spec fileLaws2 junk file fuel cur a H hfit hf rs hlen hok hpx hn)
    (fun _ a => rle8_spec lumpLaws2 junk file fuel cur a H hfit hf rs hlen hok hpx hn)

/-- **C165**, colours (partial): likewise for 24 bits per pixel. -/
theorem C165_colour_partial (junk : Nat → UInt8) (file : Bool) (fuel : Nat) (cur : Img × Option Pal) (bs : List UInt8) (hl : bs.length < 2147483648) {w h mt ml : Nat}
    (H : Head bs w h 24 2 mt ml) (hfit : w * h * 3 < 2 ^ 32) (hf : w * 3 < fuel) (rs : List (List Part × UInt8)) (hlen : rs.length = h)
    (hok : ∀ r ∈ rs, ∀ k ∈ r.1, k.Ok) (hpx : ∀ r ∈ rs, (r.1.flatMap Part.pixels).length = w * 3) (hml : 32 + ml ≤ bs.length)
    (hn : StoredAt bs (32 + ml) (rs.flatMap (packed (w * 3)))) :
    Both (iLoadSunInternal fileOps junk file fuel cur) (iLoadSunInternal lumpOps junk file fuel cur) bs (fun ok r => ok = true ∧ r.2 = none ∧
      Shows r.1 w h 3 IL_BGR (fun x y c => rs[y]?.bind (fun r => (r.1.flatMap Part.pixels)[x * 3 + c]?))) :=
  both (by have := H.len; omega) hl (fun _ a => rle24_spec fileLaws2 junk file fuel cur a H hfit hf rs hlen hok hpx hml hn)
    (fun _ a => rle24_spec lumpLaws2 junk file fuel cur a H hfit hf rs hlen hok hpx hml hn)

/-- Three by two pixels: a run of three with padding; a byte, the byte 0x80, a byte, with padding. -/
def packedRows : List (List Part × UInt8) := [([.run 2 7], 0), ([.lit 5, .lit80, .lit 6], 1)]
def packedFile : List UInt8 := sunFile 3 2 8 2 0 0 [0x80, 2, 7, 0, 5, 0x80, 0, 6, 1]
theorem packedFile_head : Head packedFile 3 2 8 2 0 0 := by constructor <;> decide
example : (∀ r ∈ packedRows, ∀ k ∈ r.1, k.Ok) ∧ (∀ r ∈ packedRows, (r.1.flatMap Part.pixels).length = 3) ∧ StoredAt packedFile 32 (packedRows.flatMap (packed 3)) := by
  refine ⟨by simp [packedRows, Part.Ok], by simp [packedRows, Part.pixels], by unfold StoredAt; decide⟩
/-- One pixel of 24 bits, a run of three, with padding. -/
def packedColour : List UInt8 := sunFile 1 1 24 2 0 0 [0x80, 2, 7, 0]
theorem packedColour_head : Head packedColour 1 1 24 2 0 0 := by constructor <;> decide
example : (∀ r ∈ [([Part.run 2 7], (0 : UInt8))], (r.1.flatMap Part.pixels).length = 1 * 3) ∧ StoredAt packedColour (32 + 0) ([([Part.run 2 7], (0 : UInt8))].flatMap (packed (1 * 3))) := by
  refine ⟨by simp [Part.pixels], by unfold StoredAt; decide⟩

/-- **C165** is false in general: two by two pixels of the value 7, stored as one run of four.  The run ends with the first row; the second row is white, and
loading succeeds. -/
theorem C165_violated_across :
    (∃ r, ilLoadF (iLoadSunInternal fileOps (fun _ => 0) true 30 before) (opened (sunFile 2 2 8 2 0 0 [0x80, 3, 7]) 0) = .ok r ∧
      (r.1 && decide (r.2.1.1.px 1 0 0 0 = some 7 ∧ r.2.1.1.px 0 1 0 0 = some 255)) = true) ∧
    (Part.run 3 7).pixels = [7, 7, 7, 7] ∧ (Part.run 3 7).bytes = [0x80, 3, 7] :=
  ⟨ok_of (by decide +kernel), by decide, by decide⟩

/-! ### C166 -/

/-- **C166** (partial): a file of 32 bits per pixel with one pixel shows it.  Missing: every larger picture, for which it is false (`C166_violated_rest`). -/
theorem C166_one_partial (junk : Nat → UInt8) (file : Bool) (fuel : Nat) (cur : Img × Option Pal) (bs : List UInt8) (hl : bs.length < 2147483648) {t mt ml : Nat}
    (H : Head bs 1 1 32 t mt ml) (ht : t ≠ 2) (hall : 32 + ml + 4 ≤ bs.length) :
    Both (iLoadSunInternal fileOps junk file fuel cur) (iLoadSunInternal lumpOps junk file fuel cur) bs (fun ok r => ok = true ∧ r.2 = none ∧
      Shows r.1 1 1 3 (order t) (fun _ _ c => bs[32 + ml + 1 + c]?)) :=
  both (by have := H.len; omega) hl
    (fun _ a => load_spec fileLaws2 junk file fuel cur a H (by decide) (fun _ => ht) (fun _ b => load32_one fileLaws2 junk b hall))
    (fun _ a => load_spec lumpLaws2 junk file fuel cur a H (by decide) (fun _ => ht) (fun _ b => load32_one lumpLaws2 junk b hall))

/-- **C166** is false for every file of 32 bits per pixel: loading succeeds, but after the first pixel every byte of the image is what happened to be in the memory
(`junk`), whatever the file has. -/
theorem C166_violated_rest (junk : Nat → UInt8) (file : Bool) (fuel : Nat) (cur : Img × Option Pal) (bs : List UInt8) (hl : bs.length < 2147483648) {w h t mt ml : Nat}
    (H : Head bs w h 32 t mt ml) (ht : t ≠ 2) (hfit : w * h * 3 < 2 ^ 32) :
    Both (iLoadSunInternal fileOps junk file fuel cur) (iLoadSunInternal lumpOps junk file fuel cur) bs (fun ok r => ok = true ∧ r.1.data.length = w * h * 3 ∧
      ∀ i, 3 ≤ i → i < w * h * 3 → r.1.data[i]? = some (junk i)) :=
  both (by have := H.len; omega) hl
    (fun _ a => load_spec fileLaws2 junk file fuel cur a H (by decide) (fun _ => ht) (fun _ b => (load32_any fileLaws3 junk b H.w0 H.h0 hfit).mono (fun _ c => ⟨⟨c.1.1, c.1.2.2⟩, c.2⟩)))
    (fun _ a => load_spec lumpLaws2 junk file fuel cur a H (by decide) (fun _ => ht) (fun _ b => (load32_any lumpLaws3 junk b H.w0 H.h0 hfit).mono (fun _ c => ⟨⟨c.1.1, c.1.2.2⟩, c.2⟩)))

/-- Two pixels of 32 bits; one pixel. -/
def wideFile : List UInt8 := sunFile 2 1 32 3 0 0 [0, 1, 2, 3, 0, 4, 5, 6]
example : Head wideFile 2 1 32 3 0 0 := by constructor <;> decide
example : Head (sunFile 1 1 32 3 0 0 [0, 1, 2, 3]) 1 1 32 3 0 0 ∧ 32 + 0 + 4 ≤ (sunFile 1 1 32 3 0 0 [0, 1, 2, 3]).length := ⟨by constructor <;> decide, by decide⟩

/-! ### C167 -/

/-- **C167** (partial): for every sequence of bytes with a whole header of which three bytes for each pixel are below 4 GiB, loading ends without a fault, and the
pixel block and the palette have the sizes the image reports.  Missing: larger pictures, for which it is false (`C167_violated_size`), and input that ends in
the header. -/
theorem C167_any_partial (junk : Nat → UInt8) (file : Bool) (fuel : Nat) (cur : Img × Option Pal) (hcur : Sized cur) (bs : List UInt8) (hl : bs.length < 2147483648)
    (h32 : 32 ≤ bs.length) (hfit : beAt bs 4 4 * beAt bs 8 4 * 3 < 2 ^ 32) (hf : 2 * (beAt bs 4 4 * 3) + 1 < fuel) :
    Both (iLoadSunInternal fileOps junk file fuel cur) (iLoadSunInternal lumpOps junk file fuel cur) bs (fun _ r => r.1.data.length = r.1.size ∧
      ∀ p, r.2 = some p → p.type = IL_PAL_RGB24 → p.data.length = p.size) :=
  both (by omega) hl (fun _ a => sun_any fileLaws3 junk file fuel cur hcur a h32 hfit hf) (fun _ a => sun_any lumpLaws3 junk file fuel cur hcur a h32 hfit hf)

example : Sized before ∧ 32 ≤ packedFile.length ∧ beAt packedFile 4 4 * beAt packedFile 8 4 * 3 < 2 ^ 32 ∧ 2 * (beAt packedFile 4 4 * 3) + 1 < 30 :=
  ⟨⟨rfl, fun _ h => by cases h⟩, by decide, by decide, by decide⟩
/-- A compressed picture that ends with the mark of a run is within the theorem; the loop ends. -/
example : 32 ≤ (sunFile 2 2 8 2 0 0 [0x80]).length ∧ beAt (sunFile 2 2 8 2 0 0 [0x80]) 4 4 = 2 := ⟨by decide, by decide⟩

/-- **C167** is false in general: a header of 2^31 by 2 pixels of 8 bits and one more byte writes outside the block, which has no bytes. -/
theorem C167_violated_size :
    ilLoadF (iLoadSunInternal fileOps (fun _ => 0) true 30 before)
      (opened ([0x59, 0xA6, 0x6A, 0x95, 0x80, 0, 0, 0, 0, 0, 0, 2, 0, 0, 0, 8, 0, 0, 0, 0, 0, 0, 0, 1, 0, 0, 0, 0, 0, 0, 0, 0] ++ [1]) 0) = .error .oobWrite :=
  error_of (by decide +kernel)

/-! ### C168 -/

/-- **C168** (partial): a file of 8 bits per pixel that ends within its colour map is refused.  Missing: files that end within the pixels, for which it is false
(`C168_violated_cut`). -/
theorem C168_map_partial (junk : Nat → UInt8) (file : Bool) (fuel : Nat) (cur : Img × Option Pal) (bs : List UInt8) (hl : bs.length < 2147483648) {w h t ml : Nat}
    (H : Head bs w h 8 t 1 ml) (hcut : bs.length < 32 + ml) :
    Both (iLoadSunInternal fileOps junk file fuel cur) (iLoadSunInternal lumpOps junk file fuel cur) bs (fun ok _ => ok = false) := by
  have hml : ml < 4294967296 := by rw [← H.mapLen]; exact be_lt bs 28
  exact both (by have := H.len; omega) hl (fun _ a => map_cut fileLaws2 junk file fuel cur a H hcut hml) (fun _ a => map_cut lumpLaws2 junk file fuel cur a H hcut hml)
example : Head (sunFile 2 1 8 1 1 6 [1, 2]) 2 1 8 1 1 6 ∧ (sunFile 2 1 8 1 1 6 [1, 2]).length < 32 + 6 := ⟨by constructor <;> decide, by decide⟩

/-- **C168** is false for every file of 24 bits per pixel, compressed or not: wherever it ends after the header, it is reported as loaded. -/
theorem C168_violated_cut (junk : Nat → UInt8) (file : Bool) (fuel : Nat) (cur : Img × Option Pal) (bs : List UInt8) (hl : bs.length < 2147483648) {w h t mt ml : Nat}
    (H : Head bs w h 24 t mt ml) (hfit : w * h * 3 < 2 ^ 32) (hf : 2 * (w * 3) + 1 < fuel) :
    Both (iLoadSunInternal fileOps junk file fuel cur) (iLoadSunInternal lumpOps junk file fuel cur) bs (fun ok _ => ok = true) :=
  both (by have := H.len; omega) hl
    (fun _ a => load_spec fileLaws2 junk file fuel cur a H (by decide) (by omega) (fun _ b => (load24_any fileLaws3 junk (by have := H.len; omega) b H.w0 H.h0 hfit hf).mono (fun _ c => ⟨c.1, c.2.2⟩)))
    (fun _ a => load_spec lumpLaws2 junk file fuel cur a H (by decide) (by omega) (fun _ b => (load24_any lumpLaws3 junk (by have := H.len; omega) b H.w0 H.h0 hfit hf).mono (fun _ c => ⟨c.1, c.2.2⟩)))
/-- A header and nothing else. -/
example : Head (sunFile 9 9 24 1 0 0 []) 9 9 24 1 0 0 := by constructor <;> decide

/-! ### C169 -/

/-- **C169** (partial): for every file of 1 bit per pixel, without a colour map or with one of two colours, with all its rows there, loaded from a file, or from memory
while a file is set from before: every pixel is its bit, the first bit of a byte the most significant; rows take an even number of bytes.  Missing: loading from memory
when no file has been opened before (`C169_violated_memory`). -/
theorem C169_bits_partial (junk : Nat → UInt8) (fuel : Nat) (cur : Img × Option Pal) (bs : List UInt8) (hl : bs.length < 2147483648) {w h t mt ml : Nat}
    (H : Head bs w h 1 t mt ml) (ht : t ≠ 2) (hml : ml = 0 ∨ ml = 6) (hfit : w * h < 2 ^ 32) (hall : 32 + ml + h * SunSpec.bitRow w ≤ bs.length) :
    Both (iLoadSunInternal fileOps junk true fuel cur) (iLoadSunInternal lumpOps junk true fuel cur) bs (fun ok r => ok = true ∧
      HasPal r.2 (if ml = 0 then [0, 0, 0, 255, 255, 255] else at_ bs 32 6) IL_PAL_RGB24 ∧
      Shows r.1 w h 1 IL_COLOUR_INDEX (fun x y _ => bitAt bs (32 + ml + y * SunSpec.bitRow w) x)) :=
  both (by have := H.len; omega) hl (fun _ a => bits_spec fileLaws2 junk fuel cur a H ht hml hfit hall) (fun _ a => bits_spec lumpLaws2 junk fuel cur a H ht hml hfit hall)

/-- Ten by two pixels: two bytes for each row. -/
def bitFile : List UInt8 := sunFile 10 2 1 1 0 0 [0xA0, 0x40, 0x01, 0x80]
theorem bitFile_head : Head bitFile 10 2 1 1 0 0 := by constructor <;> decide
example : 32 + 0 + 2 * SunSpec.bitRow 10 ≤ bitFile.length ∧ bitAt bitFile (32 + 0 + 0 * SunSpec.bitRow 10) 2 = some 1 ∧ bitAt bitFile (32 + 0 + 1 * SunSpec.bitRow 10) 8 = some 1 ∧
    bitAt bitFile (32 + 0 + 1 * SunSpec.bitRow 10) 9 = some 0 := by decide

/-- **C169** is false from memory when no file has been opened before: every file of 1 bit per pixel is refused, and the image is as before. -/
theorem C169_violated_memory (junk : Nat → UInt8) (fuel : Nat) (cur : Img × Option Pal) (bs : List UInt8) (hl : bs.length < 2147483648) {w h t mt ml : Nat}
    (H : Head bs w h 1 t mt ml) (ht : t ≠ 2) : ∃ ok r, ilLoadL (iLoadSunInternal lumpOps junk false fuel cur) bs bs.length = .ok (ok, r) ∧ ok = false ∧ r = cur := by
  exact loadL (by have := H.len; omega) hl (P := fun ok r => ok = false ∧ r = cur)
    (fun _ a => load_spec lumpLaws2 junk false fuel cur a H (by decide) (fun _ => ht) (fun u b => Holds.pure ⟨⟨rfl, rfl⟩, _, b⟩))
example : Head bitFile 10 2 1 1 0 0 := bitFile_head

end DevIL.Sun
