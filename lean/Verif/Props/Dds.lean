import Verif.Lemmas.DdsE
import Verif.Props.Games
import Verif.Props.Dxt
/-! C142 to C147: DDS files. -/
set_option autoImplicit false
namespace DevIL.Dds

open DevIL.Detect DevIL.DetectSpec DevIL.DdsSpec DevIL.Image DevIL.Games DevIL.GamesSpec

/-! ### C142: pictures without compression -/

/-- **C142 (partial).** A DDS picture without compression whose channels are given by masks of one to eight bits, read from a file or from
memory, has the size its header declares, and every component of every pixel is the one the mask selects, on the scale from 0 to 255.
If pixels are missing, the loader fails and the bound image is what it was.  Missing: not every number of bytes for a pixel works - see
`Safe` and the violations below. -/
theorem C142_plain_partial (junk : Nat → UInt8) (cubeF : Hd → Cache.S → C (Bool × List Img × Cache.S)) (cubeL : Hd → Lump.R → C (Bool × List Img × Lump.R))
    (cur : Img) (bs : List UInt8) (hl : bs.length < 2147483648) (w h k : Nat) (lum alpha : Bool) (s n : Nat → Nat) (H : Header bs w h)
    (P : Plain bs lum alpha (8 * k)) (hk : Safe (components lum alpha) k) (hwh : w * h < 2 ^ 27) (M : Masks bs lum alpha k s n)
    (hsize : Declares bs (w * h * k) ∨ Pitch bs) :
    Both (iLoadDdsInternal fileOps junk cubeF cur) (iLoadDdsInternal lumpOps junk cubeL cur) bs (fun ok ms =>
      (128 + w * h * k ≤ bs.length → ok = true ∧ ∃ m, ∃ q : Nat → Nat → Nat → UInt8, ms = [m] ∧
        Shows m w h (components lum alpha) (fmt lum alpha) (fun x y c => some (q x y c)) ∧ ∀ x y c, x < w → y < h → c < components lum alpha →
          Scaled (n (chan lum c)) (leAt bs (128 + (y * w + x) * k) k / 2 ^ s (chan lum c) % 2 ^ n (chan lum c)) (q x y c).toNat) ∧
      (bs.length < 128 + w * h * k → ok = false ∧ ms = [cur])) :=
  both (by have := H.len; omega) hl (fun _ h' => plain_load fileLaws2 junk cubeF cur h' H P hk hwh M hsize)
    (fun _ h' => plain_load lumpLaws2 junk cubeL cur h' H P hk hwh M hsize)

/-- Channels of eight bits are exact. -/
theorem scaled_eight {v q : Nat} (h : Scaled 8 v q) : q = v := by
  unfold Scaled at h
  omega

/-- A header. -/
def hdr (flags1 h w linear flags2 : Nat) (cc : List UInt8) (bits rm gm bm am : Nat) : List UInt8 :=
  [68, 68, 83, 32] ++ bytes4 124 ++ bytes4 flags1 ++ bytes4 h ++ bytes4 w ++ bytes4 linear ++ bytes4 0 ++ bytes4 0 ++ List.replicate 44 0 ++ bytes4 32 ++
    bytes4 flags2 ++ cc ++ bytes4 bits ++ bytes4 rm ++ bytes4 gm ++ bytes4 bm ++ bytes4 am ++ bytes4 0x1000 ++ List.replicate 16 0

/-- What a cube map would do. -/
def noCube {σ : Type} (_ : Hd) (s : σ) : C (Bool × List Img × σ) := .ok (false, [], s)

/-- Loading from memory. -/
def loaded (cur : Img) (bs : List UInt8) : C (Bool × List Img) := ilLoadL (iLoadDdsInternal lumpOps (fun _ => 0xAA) noCube cur) bs bs.length

/-- An image of one black pixel. -/
def dot : Img := ⟨1, 1, 1, 1, 1, 1, 1, 1, IL_LUMINANCE, IL_UNSIGNED_BYTE, IL_ORIGIN_UPPER_LEFT, [0]⟩

/-- Two pixels of 32 bits: A8R8G8B8. -/
def argbFile : List UInt8 := hdr 0x81007 1 2 8 0x41 [0, 0, 0, 0] 32 0xFF0000 0xFF00 0xFF 0xFF000000 ++ [3, 2, 1, 4, 7, 6, 5, 8]

set_option maxRecDepth 20000 in
/-- They meet the assumptions of `C142_plain_partial`. -/
example : Header argbFile 2 1 ∧ Plain argbFile false true (8 * 4) ∧ Safe (components false true) 4 ∧
    Masks argbFile false true 4 (fun c => if c = 0 then 16 else if c = 1 then 8 else if c = 2 then 0 else 24) (fun _ => 8) ∧ Declares argbFile (2 * 1 * 4) ∧
    128 + 2 * 1 * 4 ≤ argbFile.length := by
  refine ⟨⟨by decide, by decide, by decide, by decide, by decide, by decide, by decide, by decide, by decide, by decide, by decide⟩,
    ⟨by decide, by decide, by decide, by decide⟩, by unfold Safe components; decide, ⟨?_, by decide, by decide, by decide, by decide⟩, .inr (.inr (by decide)), by decide⟩
  intro c hc
  have : c < 4 := hc
  unfold Selects
  obtain rfl | rfl | rfl | rfl : c = 0 ∨ c = 1 ∨ c = 2 ∨ c = 3 := by omega
  all_goals decide
/-- The pixels are those of the file. -/
example : ∃ r, loaded dot argbFile = .ok r ∧ (r.1 && decide (r.2.map (·.data) = [[1, 2, 3, 4, 5, 6, 7, 8]])) = true := ok_of (by decide +kernel)
/-- Without the last byte the bound image stays. -/
example : ∃ r, loaded dot (argbFile.take 135) = .ok r ∧ (!r.1 && decide (r.2 = [dot])) = true := ok_of (by decide +kernel)

/-- Two pixels of 32 bits without alpha: X8R8G8B8. -/
def xrgbFile : List UInt8 := hdr 0x81007 1 2 8 0x40 [0, 0, 0, 0] 32 0xFF0000 0xFF00 0xFF 0 ++ [3, 2, 1, 0, 7, 6, 5, 0]

/-- **C142, violated.** The last pixel of a picture of 32 bits a pixel without alpha is that of the pixel before: the file has the colour 5, 6, 7
there and the image 1, 2, 3. -/
theorem C142_violated_last :
    ∃ r, loaded dot xrgbFile = .ok r ∧ (r.1 && decide (r.2.map (·.data) = [[1, 2, 3, 1, 2, 3]])) = true := ok_of (by decide +kernel)

/-- One pixel of 16 bits with alpha: A1R5G5B5 and A4R4G4B4. -/
def argb16File (rm gm bm am : Nat) : List UInt8 := hdr 0x81007 1 1 2 0x41 [0, 0, 0, 0] 16 rm gm bm am ++ [0xFF, 0xFF]

/-- **C142, violated.** Complete pictures of 16 bits a pixel with alpha, of 8 bits a pixel with colours, and of 8 bits with luminance and alpha
make the loader read memory behind the pixels. -/
theorem C142_violated_16 :
    loaded dot (argb16File 0x7C00 0x3E0 0x1F 0x8000) = .error .oobRead ∧ loaded dot (argb16File 0xF00 0xF0 0xF 0xF000) = .error .oobRead ∧
    loaded dot (hdr 0x81007 1 2 2 0x40 [0, 0, 0, 0] 8 0xE0 0x1C 0x3 0 ++ [0xFF, 0xFF]) = .error .oobRead ∧
    loaded dot (hdr 0x81007 1 1 1 0x20001 [0, 0, 0, 0] 8 0xF 0 0 0xF0 ++ [0xFF]) = .error .oobRead :=
  ⟨error_of (by decide +kernel), error_of (by decide +kernel), error_of (by decide +kernel), error_of (by decide +kernel)⟩

/-- **C142, violated.** White of R5G6B5 is not white in the image: its components are 248, 252 and 248. -/
theorem C142_violated_white :
    ∃ r, loaded dot (hdr 0x81007 1 1 2 0x40 [0, 0, 0, 0] 16 0xF800 0x7E0 0x1F 0 ++ [0xFF, 0xFF]) = .ok r ∧
      (r.1 && decide (r.2.map (·.data) = [[248, 252, 248]])) = true := ok_of (by decide +kernel)

/-! ### C143: DXT pictures -/

/-- `m` is a picture of `w` by `h` pixels with red, green, blue and alpha of eight bits each, from the top down. -/
structure Picture (m : Img) (w h : Nat) : Prop where
  consistent : m.Consistent
  width : m.width = w
  height : m.height = h
  depth : m.depth = 1
  bpp : m.bpp = 4
  bpc : m.bpc = 1
  format : m.format = IL_RGBA
  type : m.type = IL_UNSIGNED_BYTE
  origin : m.origin = IL_ORIGIN_UPPER_LEFT

theorem picture_of {junk : Nat → UInt8} {bs : List UInt8} {w h fm size : Nat} {q : Img} (hw : 0 < w) (hh : 0 < h) (hwh : w * h < 2 ^ 27)
    (S : Dxt.Shown (surf junk bs w h fm size) q) : Picture q w h := by
  obtain ⟨f1, f2, -⟩ := texN_fields junk w h 4 IL_RGBA hw hh (by decide) (by omega)
  exact ⟨S.consistent, S.width.trans f1, S.height.trans f2, S.depth, S.bpp, S.bpc, S.format, S.type, S.origin⟩

theorem surf_size (junk : Nat → UInt8) (bs : List UInt8) {w h : Nat} (fm size : Nat) (hw : 0 < w) (hh : 0 < h) (hwh : w * h < 2 ^ 27) :
    (surf junk bs w h fm size).img.width = w ∧ (surf junk bs w h fm size).img.height = h ∧ (surf junk bs w h fm size).img.depth = 1 := by
  obtain ⟨f1, f2, -⟩ := texN_fields junk w h 4 IL_RGBA hw hh (by decide) (by omega)
  exact ⟨f1, f2, rfl⟩

/-- The picture a complete file of the given kind shows; a file that is not complete leaves the bound image. -/
def Loads (bs : List UInt8) (n : Nat) (cur : Img) (P : Img → Prop) (ok : Bool) (ms : List Img) : Prop :=
  (128 + n ≤ bs.length → ok = true ∧ ∃ m, ms = [m] ∧ P m) ∧ (bs.length < 128 + n → ok = false ∧ ms = [cur])

/-- What a pixel with the components `v` is in DXT1 data. -/
def Dxt1Pixel (data : List UInt8) (w h x y : Nat) (v : Nat → Option UInt8) : Prop :=
  let p := DxtSpec.block 8 w h x y 0
  let k := DxtSpec.code data (p + 4) x y
  let c0 := DxtSpec.word data p
  let c1 := DxtSpec.word data (p + 2)
  (c0 > c1 ∨ k ≠ 3 → ∀ c, c < 3 → ∃ u, v c = some u ∧ DxtSpec.Within (if c = 0 then 1 else if c = 1 then 5 else 8) u.toNat
    (if c0 > c1 then DxtSpec.four (DxtSpec.channel c0 c) (DxtSpec.channel c1 c) k else DxtSpec.three (DxtSpec.channel c0 c) (DxtSpec.channel c1 c) k)) ∧
  v 3 = some (if c0 > c1 ∨ k ≠ 3 then 255 else 0)

/-- The colours of a pixel with the components `v` in DXT3 and DXT5 data. -/
def Colours (data : List UInt8) (w h x y : Nat) (v : Nat → Option UInt8) : Prop :=
  let p := DxtSpec.block 16 w h x y 0
  ∀ c, c < 3 → ∃ u, v c = some u ∧ DxtSpec.Within (if c = 1 then 5 else 1) u.toNat
    (DxtSpec.four (DxtSpec.channel (DxtSpec.word data (p + 8)) c) (DxtSpec.channel (DxtSpec.word data (p + 10)) c) (DxtSpec.code data (p + 12) x y))

/-- The alpha of a pixel in DXT3 data. -/
def Alpha3 (data : List UInt8) (w h x y : Nat) (v : Option UInt8) : Prop :=
  ∃ a, v = some a ∧ a.toNat = 17 * (DxtSpec.byte data (DxtSpec.block 16 w h x y 0 + 2 * (y % 4) + x % 4 / 2) / 16 ^ (x % 2) % 16)

/-- The alpha of a pixel in DXT5 data. -/
def Alpha5 (data : List UInt8) (w h x y : Nat) (v : Option UInt8) : Prop :=
  let p := DxtSpec.block 16 w h x y 0
  ∃ a, v = some a ∧ DxtSpec.Within 1 a.toNat (DxtSpec.eight (DxtSpec.byte data p) (DxtSpec.byte data (p + 1)) (DxtSpec.code3 data p x y))

theorem unique_img {junk : Nat → UInt8} {s : Dxt.Surface} {q m : Img} (h1 : Dxt.ilDxtcDataToSurface junk s = .ok (true, { s with img := q }))
    (h2 : Dxt.ilDxtcDataToSurface junk s = .ok (true, { s with img := m })) : m = q := by
  have e := h2.symm.trans h1
  injection e with e
  have := congrArg (fun r => r.2.img) e
  exact this

/-- **C143, DXT1 (partial).** A DDS picture with DXT1 blocks is loaded with the size its header declares; every pixel has the colour its block
chooses, red exact, green within 5 and blue within 8, and the alpha.  If blocks are missing, the loader fails and the bound image is what it
was.  Missing: green and blue are not exact, and transparent pixels are not black (C94). -/
theorem C143_dxt1_partial (junk : Nat → UInt8) (cubeF : Hd → Cache.S → C (Bool × List Img × Cache.S)) (cubeL : Hd → Lump.R → C (Bool × List Img × Lump.R))
    (cur : Img) (bs : List UInt8) (hl : bs.length < 2147483648) (w h : Nat) (H : Header bs w h) (K : Code bs [68, 88, 84, 49]) (hwh : w * h < 2 ^ 27)
    (hsize : Declares bs (DxtSpec.bytes 8 w h 1)) :
    Both (iLoadDdsInternal fileOps junk cubeF cur) (iLoadDdsInternal lumpOps junk cubeL cur) bs (Loads bs (DxtSpec.bytes 8 w h 1) cur (fun m =>
      Picture m w h ∧ ∀ x y, x < w → y < h → Dxt1Pixel (at_ bs 128 (DxtSpec.bytes 8 w h 1)) w h x y (m.px x y 0))) := by
  have main : ∀ ok (ms : List Img), (128 + DxtSpec.bytes 8 w h 1 ≤ bs.length → ok = true ∧ ∃ m, ms = [m] ∧
      Dxt.ilDxtcDataToSurface junk (surf junk bs w h IL_DXT1 8) = .ok (true, { surf junk bs w h IL_DXT1 8 with img := m })) ∧
      (bs.length < 128 + DxtSpec.bytes 8 w h 1 → ok = false ∧ ms = [cur]) →
      Loads bs (DxtSpec.bytes 8 w h 1) cur (fun m =>
        Picture m w h ∧ ∀ x y, x < w → y < h → Dxt1Pixel (at_ bs 128 (DxtSpec.bytes 8 w h 1)) w h x y (m.px x y 0)) ok ms := by
    intro ok ms hr
    refine ⟨fun hl => ?_, hr.2⟩
    obtain ⟨h1, m, h2, h3⟩ := hr.1 hl
    obtain ⟨q, g, S, hp⟩ := Dxt.C94_dxt1_partial junk _ (surf_complete junk (fmt := IL_DXT1) H.w0 H.h0 hwh hl) rfl
    cases unique_img g h3
    obtain ⟨e1, e2, e3⟩ := surf_size junk bs IL_DXT1 8 H.w0 H.h0 hwh
    refine ⟨h1, m, h2, picture_of H.w0 H.h0 hwh S, fun x y hx hy => ?_⟩
    have := hp x y 0 ⟨by rw [e1]; exact hx, by rw [e2]; exact hy, by rw [e3]; decide⟩
    rw [e1, e2] at this
    exact this
  exact both (by have := H.len; omega) hl
    (fun _ h' => (dxt_load fileLaws2 junk cubeF cur h' H K hwh (.inl ⟨rfl, rfl⟩) hsize).mono (fun r hr => ⟨main _ _ hr.1, hr.2⟩))
    (fun _ h' => (dxt_load lumpLaws2 junk cubeL cur h' H K hwh (.inl ⟨rfl, rfl⟩) hsize).mono (fun r hr => ⟨main _ _ hr.1, hr.2⟩))

/-- **C143, DXT3 (partial).** The same for DXT3 blocks: alpha is exactly the one of four bits, red and blue are those of the chosen colour,
rounded up or down, green is within 5.  Missing: green is not exact (C94). -/
theorem C143_dxt3_partial (junk : Nat → UInt8) (cubeF : Hd → Cache.S → C (Bool × List Img × Cache.S)) (cubeL : Hd → Lump.R → C (Bool × List Img × Lump.R))
    (cur : Img) (bs : List UInt8) (hl : bs.length < 2147483648) (w h : Nat) (H : Header bs w h) (K : Code bs [68, 88, 84, 51]) (hwh : w * h < 2 ^ 27)
    (hsize : Declares bs (DxtSpec.bytes 16 w h 1)) :
    Both (iLoadDdsInternal fileOps junk cubeF cur) (iLoadDdsInternal lumpOps junk cubeL cur) bs (Loads bs (DxtSpec.bytes 16 w h 1) cur (fun m =>
      Picture m w h ∧ ∀ x y, x < w → y < h → Colours (at_ bs 128 (DxtSpec.bytes 16 w h 1)) w h x y (m.px x y 0) ∧
        Alpha3 (at_ bs 128 (DxtSpec.bytes 16 w h 1)) w h x y (m.px x y 0 3))) := by
  have main : ∀ ok (ms : List Img), (128 + DxtSpec.bytes 16 w h 1 ≤ bs.length → ok = true ∧ ∃ m, ms = [m] ∧
      Dxt.ilDxtcDataToSurface junk (surf junk bs w h IL_DXT3 16) = .ok (true, { surf junk bs w h IL_DXT3 16 with img := m })) ∧
      (bs.length < 128 + DxtSpec.bytes 16 w h 1 → ok = false ∧ ms = [cur]) →
      Loads bs (DxtSpec.bytes 16 w h 1) cur (fun m =>
        Picture m w h ∧ ∀ x y, x < w → y < h → Colours (at_ bs 128 (DxtSpec.bytes 16 w h 1)) w h x y (m.px x y 0) ∧
          Alpha3 (at_ bs 128 (DxtSpec.bytes 16 w h 1)) w h x y (m.px x y 0 3)) ok ms := by
    intro ok ms hr
    refine ⟨fun hl => ?_, hr.2⟩
    obtain ⟨h1, m, h2, h3⟩ := hr.1 hl
    obtain ⟨q, g, S, hp⟩ := Dxt.C94_dxt3_partial junk _ (surf_complete junk (fmt := IL_DXT3) H.w0 H.h0 hwh hl) rfl
    cases unique_img g h3
    obtain ⟨e1, e2, e3⟩ := surf_size junk bs IL_DXT3 16 H.w0 H.h0 hwh
    refine ⟨h1, m, h2, picture_of H.w0 H.h0 hwh S, fun x y hx hy => ?_⟩
    have := hp x y 0 ⟨by rw [e1]; exact hx, by rw [e2]; exact hy, by rw [e3]; decide⟩
    rw [e1, e2] at this
    exact this
  exact both (by have := H.len; omega) hl
    (fun _ h' => (dxt_load fileLaws2 junk cubeF cur h' H K hwh (.inr <| .inl ⟨rfl, rfl⟩) hsize).mono (fun r hr => ⟨main _ _ hr.1, hr.2⟩))
    (fun _ h' => (dxt_load lumpLaws2 junk cubeL cur h' H K hwh (.inr <| .inl ⟨rfl, rfl⟩) hsize).mono (fun r hr => ⟨main _ _ hr.1, hr.2⟩))

/-- **C143, DXT5 (partial).** The same for DXT5 blocks: alpha is the one its three bits choose, rounded up or down; the colours are as in DXT3.
Missing: green is not exact (C94). -/
theorem C143_dxt5_partial (junk : Nat → UInt8) (cubeF : Hd → Cache.S → C (Bool × List Img × Cache.S)) (cubeL : Hd → Lump.R → C (Bool × List Img × Lump.R))
    (cur : Img) (bs : List UInt8) (hl : bs.length < 2147483648) (w h : Nat) (H : Header bs w h) (K : Code bs [68, 88, 84, 53]) (hwh : w * h < 2 ^ 27)
    (hsize : Declares bs (DxtSpec.bytes 16 w h 1)) :
    Both (iLoadDdsInternal fileOps junk cubeF cur) (iLoadDdsInternal lumpOps junk cubeL cur) bs (Loads bs (DxtSpec.bytes 16 w h 1) cur (fun m =>
      Picture m w h ∧ ∀ x y, x < w → y < h → Colours (at_ bs 128 (DxtSpec.bytes 16 w h 1)) w h x y (m.px x y 0) ∧
        Alpha5 (at_ bs 128 (DxtSpec.bytes 16 w h 1)) w h x y (m.px x y 0 3))) := by
  have main : ∀ ok (ms : List Img), (128 + DxtSpec.bytes 16 w h 1 ≤ bs.length → ok = true ∧ ∃ m, ms = [m] ∧
      Dxt.ilDxtcDataToSurface junk (surf junk bs w h IL_DXT5 16) = .ok (true, { surf junk bs w h IL_DXT5 16 with img := m })) ∧
      (bs.length < 128 + DxtSpec.bytes 16 w h 1 → ok = false ∧ ms = [cur]) →
      Loads bs (DxtSpec.bytes 16 w h 1) cur (fun m =>
        Picture m w h ∧ ∀ x y, x < w → y < h → Colours (at_ bs 128 (DxtSpec.bytes 16 w h 1)) w h x y (m.px x y 0) ∧
          Alpha5 (at_ bs 128 (DxtSpec.bytes 16 w h 1)) w h x y (m.px x y 0 3)) ok ms := by
    intro ok ms hr
    refine ⟨fun hl => ?_, hr.2⟩
    obtain ⟨h1, m, h2, h3⟩ := hr.1 hl
    obtain ⟨q, g, S, hp⟩ := Dxt.C94_dxt5_partial junk _ (surf_complete junk (fmt := IL_DXT5) H.w0 H.h0 hwh hl) rfl
    cases unique_img g h3
    obtain ⟨e1, e2, e3⟩ := surf_size junk bs IL_DXT5 16 H.w0 H.h0 hwh
    refine ⟨h1, m, h2, picture_of H.w0 H.h0 hwh S, fun x y hx hy => ?_⟩
    have := hp x y 0 ⟨by rw [e1]; exact hx, by rw [e2]; exact hy, by rw [e3]; decide⟩
    rw [e1, e2] at this
    exact this
  exact both (by have := H.len; omega) hl
    (fun _ h' => (dxt_load fileLaws2 junk cubeF cur h' H K hwh (.inr <| .inr ⟨rfl, rfl⟩) hsize).mono (fun r hr => ⟨main _ _ hr.1, hr.2⟩))
    (fun _ h' => (dxt_load lumpLaws2 junk cubeL cur h' H K hwh (.inr <| .inr ⟨rfl, rfl⟩) hsize).mono (fun r hr => ⟨main _ _ hr.1, hr.2⟩))

/-- What a pixel of a file with premultiplied alpha becomes: `v` are the components stored, `u` those of the image. -/
def Unmultiplied (v u : Nat → Option UInt8) : Prop :=
  ∃ a, v 3 = some a ∧ u 3 = some a ∧ ∀ c, c < 3 → ∃ p r, v c = some p ∧ u c = some r ∧ (a = 0 → r = p) ∧
    (p < a → DxtSpec.Within 1 r.toNat ⟨255 * p.toNat, a.toNat⟩)

theorem unmul_within (c a : UInt8) : (a = 0 → unmul c a = c) ∧ (c < a → DxtSpec.Within 1 (unmul c a).toNat ⟨255 * c.toNat, a.toNat⟩) := by
  unfold unmul
  refine ⟨fun h => by rw [if_neg (by simpa using h)], fun h => ?_⟩
  have hca : c.toNat < a.toNat := UInt8.lt_iff_toNat_lt.mp h
  have ha := a.toNat_lt
  rw [if_pos (by rintro rfl; simp at hca)]
  unfold divide DxtSpec.Within
  rw [Nat.shiftLeft_eq]
  have hq : c.toNat * 2 ^ 8 / a.toNat < 256 := by
    rw [Nat.div_lt_iff_lt_mul (by omega)]
    omega
  have hd := Nat.div_add_mod (c.toNat * 2 ^ 8) a.toNat
  have hm := Nat.mod_lt (c.toNat * 2 ^ 8) (show 0 < a.toNat by omega)
  generalize c.toNat * 2 ^ 8 / a.toNat = q at *
  rw [show (UInt8.ofNat q).toNat = q by simp; omega]
  dsimp only
  omega

/-- **C143, DXT2 (partial).** A DDS picture with DXT2 blocks (the colours are stored multiplied by alpha): alpha is exactly the one stored, and
a colour stored as less than alpha is divided by it, rounded up or down.  Missing: a colour that is as great as alpha
(`C143_violated_opaque`). -/
theorem C143_dxt2_partial (junk : Nat → UInt8) (cubeF : Hd → Cache.S → C (Bool × List Img × Cache.S)) (cubeL : Hd → Lump.R → C (Bool × List Img × Lump.R))
    (cur : Img) (bs : List UInt8) (hl : bs.length < 2147483648) (w h : Nat) (H : Header bs w h) (K : Code bs [68, 88, 84, 50]) (hwh : w * h < 2 ^ 27)
    (hsize : Declares bs (DxtSpec.bytes 16 w h 1)) :
    Both (iLoadDdsInternal fileOps junk cubeF cur) (iLoadDdsInternal lumpOps junk cubeL cur) bs (Loads bs (DxtSpec.bytes 16 w h 1) cur (fun m =>
      ∃ v : Nat → Nat → Nat → Option UInt8, Shows m w h 4 IL_RGBA (fun x y => m.px x y 0) ∧ ∀ x y, x < w → y < h →
        Colours (at_ bs 128 (DxtSpec.bytes 16 w h 1)) w h x y (v x y) ∧ Alpha3 (at_ bs 128 (DxtSpec.bytes 16 w h 1)) w h x y (v x y 3) ∧
        Unmultiplied (v x y) (m.px x y 0))) := by
  have main : ∀ ok (ms : List Img), (128 + DxtSpec.bytes 16 w h 1 ≤ bs.length → ok = true ∧ ∃ m, ms = [m] ∧
        ∃ q, Dxt.ilDxtcDataToSurface junk (surf junk bs w h IL_DXT3 16) = .ok (true, { surf junk bs w h IL_DXT3 16 with img := q }) ∧
          Shows m w h 4 IL_RGBA (fun x y c => (q.px x y 0 c).bind fun v => if c = 3 then some v else (q.px x y 0 3).map (unmul v))) ∧
      (bs.length < 128 + DxtSpec.bytes 16 w h 1 → ok = false ∧ ms = [cur]) →
      Loads bs (DxtSpec.bytes 16 w h 1) cur (fun m =>
      ∃ v : Nat → Nat → Nat → Option UInt8, Shows m w h 4 IL_RGBA (fun x y => m.px x y 0) ∧ ∀ x y, x < w → y < h →
        Colours (at_ bs 128 (DxtSpec.bytes 16 w h 1)) w h x y (v x y) ∧ Alpha3 (at_ bs 128 (DxtSpec.bytes 16 w h 1)) w h x y (v x y 3) ∧
        Unmultiplied (v x y) (m.px x y 0)) ok ms := by
    intro ok ms hr
    refine ⟨fun hl => ?_, hr.2⟩
    obtain ⟨h1, m, h2, q', h3, h4⟩ := hr.1 hl
    obtain ⟨q, g, S, hp⟩ := Dxt.C94_dxt3_partial junk _ (surf_complete junk (fmt := IL_DXT3) H.w0 H.h0 hwh hl) rfl
    cases unique_img g h3
    obtain ⟨e1, e2, e3⟩ := surf_size junk bs IL_DXT3 16 H.w0 H.h0 hwh
    refine ⟨h1, m, h2, fun x y => q'.px x y 0, ?_, fun x y hx hy => ?_⟩
    · exact ⟨h4.width, h4.height, h4.depth, h4.bpp, h4.bpc, h4.format, h4.type, h4.origin, h4.cons,
        fun x y c hx hy hc => ⟨rfl, by rw [(h4.px x y c hx hy hc).1]; exact (h4.px x y c hx hy hc).2⟩⟩
    · have := hp x y 0 ⟨by rw [e1]; exact hx, by rw [e2]; exact hy, by rw [e3]; decide⟩
      rw [e1, e2] at this
      refine ⟨this.1, this.2, ?_⟩
      obtain ⟨hc, a, ha, -⟩ := this
      refine ⟨a, ha, ?_, fun c hc3 => ?_⟩
      · rw [(h4.px x y 3 hx hy (by decide)).1, ha]
        rfl
      · obtain ⟨p, hp, -⟩ := hc c hc3
        refine ⟨p, unmul p a, hp, ?_, unmul_within p a⟩
        rw [(h4.px x y c hx hy (by omega)).1, hp, ha]
        show (if c = 3 then some p else some (unmul p a)) = _
        rw [if_neg (by omega)]
  exact both (by have := H.len; omega) hl
    (fun _ h' => (premult_load fileLaws2 junk cubeF cur h' H K hwh (.inl ⟨rfl, rfl, rfl, rfl⟩) hsize).mono (fun r hr => ⟨main _ _ hr.1, hr.2⟩))
    (fun _ h' => (premult_load lumpLaws2 junk cubeL cur h' H K hwh (.inl ⟨rfl, rfl, rfl, rfl⟩) hsize).mono (fun r hr => ⟨main _ _ hr.1, hr.2⟩))

/-- **C143, violated.** No DXT4 picture is ever loaded: the loader says it failed, for every complete file. -/
theorem C143_violated_dxt4 (junk : Nat → UInt8) (cubeF : Hd → Cache.S → C (Bool × List Img × Cache.S)) (cubeL : Hd → Lump.R → C (Bool × List Img × Lump.R))
    (cur : Img) (bs : List UInt8) (hl : bs.length < 2147483648) (w h : Nat) (H : Header bs w h) (K : Code bs [68, 88, 84, 52]) (hwh : w * h < 2 ^ 27)
    (hsize : Declares bs (DxtSpec.bytes 16 w h 1)) :
    Both (iLoadDdsInternal fileOps junk cubeF cur) (iLoadDdsInternal lumpOps junk cubeL cur) bs (fun ok _ => ok = false) := by
  have main : ∀ ok (ms : List Img) {P : Img → Prop}, (128 + DxtSpec.bytes 16 w h 1 ≤ bs.length → ok = false ∧ ∃ m, ms = [m] ∧ P m) ∧
      (bs.length < 128 + DxtSpec.bytes 16 w h 1 → ok = false ∧ ms = [cur]) → ok = false := by
    intro ok ms P hr
    by_cases hl : 128 + DxtSpec.bytes 16 w h 1 ≤ bs.length
    · exact (hr.1 hl).1
    · exact (hr.2 (by omega)).1
  exact both (by have := H.len; omega) hl
    (fun _ h' => (premult_load fileLaws2 junk cubeF cur h' H K hwh (.inr ⟨rfl, rfl, rfl, rfl⟩) hsize).mono (fun r hr => ⟨main _ _ hr.1, hr.2⟩))
    (fun _ h' => (premult_load lumpLaws2 junk cubeL cur h' H K hwh (.inr ⟨rfl, rfl, rfl, rfl⟩) hsize).mono (fun r hr => ⟨main _ _ hr.1, hr.2⟩))

/-- A DXT picture of 4x4 white pixels that are opaque. -/
def dxtFile (digit : UInt8) : List UInt8 :=
  hdr 0x81007 4 4 16 4 [68, 88, 84, digit] 0 0 0 0 0 ++ List.replicate 8 255 ++ [255, 255, 255, 255, 0, 0, 0, 0]

set_option maxRecDepth 20000 in
/-- They meet the assumptions of the theorems. -/
example : (∀ d : UInt8, d = 50 ∨ d = 51 ∨ d = 52 ∨ d = 53 → Header (dxtFile d) 4 4 ∧ Code (dxtFile d) [68, 88, 84, d] ∧
    Declares (dxtFile d) (DxtSpec.bytes 16 4 4 1) ∧ 128 + DxtSpec.bytes 16 4 4 1 ≤ (dxtFile d).length) := by
  intro d hd
  rcases hd with rfl | rfl | rfl | rfl
  all_goals
    exact ⟨⟨by decide, by decide, by decide, by decide, by decide, by decide, by decide, by decide, by decide, by decide, by decide⟩, by unfold Code; decide,
      .inr (.inr (by decide)), by decide⟩

/-- As DXT3 they are white. -/
example : ∃ r, loaded dot (dxtFile 51) = .ok r ∧ (r.1 && decide (r.2.map (·.data) = [List.replicate 64 255])) = true := ok_of (by decide +kernel)

/-- **C143, violated.** As DXT2 the same opaque white pixels are black: 255 * 256 / 255 is 256, which is stored as 0. -/
theorem C143_violated_opaque : ∃ r, loaded dot (dxtFile 50) = .ok r ∧
    (r.1 && decide (r.2.map (·.data) = [(List.replicate 16 [0, 0, 0, 255]).flatten])) = true := ok_of (by decide +kernel)

/-! ### C144: ATI1N and 3Dc -/

theorem valA_within (comp : List UInt8) (x y p : Nat) :
    DxtSpec.Within 1 (valA comp p (y % 4) (x % 4)).toNat (DxtSpec.eight (DxtSpec.byte comp p) (DxtSpec.byte comp (p + 1)) (DxtSpec.code3 comp p x y)) := by
  rw [Dxt.code3_eq]
  exact level_within _ _ _ (Dxt.at_lt _ _ _) (Dxt.at_lt _ _ _) (Dxt.code5_lt _ _ _)

/-- **C144, ATI1N (partial).** A DDS picture with ATI1N blocks is loaded as luminance; every pixel has the value its three bits choose among the
eight values of its block, rounded up or down.  Missing: volumes (`C144_violated_volume`). -/
theorem C144_ati1n_partial (junk : Nat → UInt8) (cubeF : Hd → Cache.S → C (Bool × List Img × Cache.S)) (cubeL : Hd → Lump.R → C (Bool × List Img × Lump.R))
    (cur : Img) (bs : List UInt8) (hl : bs.length < 2147483648) (w h : Nat) (H : Header bs w h) (K : Code bs [65, 84, 73, 49]) (hwh : w * h < 2 ^ 27)
    (hsize : Declares bs (DxtSpec.bytes 8 w h 1)) :
    Both (iLoadDdsInternal fileOps junk cubeF cur) (iLoadDdsInternal lumpOps junk cubeL cur) bs (Loads bs (DxtSpec.bytes 8 w h 1) cur (fun m =>
      ∃ q : Nat → Nat → UInt8, Shows m w h 1 IL_LUMINANCE (fun x y _ => some (q x y)) ∧ ∀ x y, x < w → y < h →
        let data := at_ bs 128 (DxtSpec.bytes 8 w h 1)
        let p := DxtSpec.block 8 w h x y 0
        DxtSpec.Within 1 (q x y).toNat (DxtSpec.eight (DxtSpec.byte data p) (DxtSpec.byte data (p + 1)) (DxtSpec.code3 data p x y)))) := by
  have fin : ∀ {m : Img}, Shows m w h 1 IL_LUMINANCE (fun x y _ => some (valA (at_ bs 128 (DxtSpec.bytes 8 w h 1)) (DxtSpec.block 8 w h x y 0) (y % 4) (x % 4))) →
      ∃ q : Nat → Nat → UInt8, Shows m w h 1 IL_LUMINANCE (fun x y _ => some (q x y)) ∧ ∀ x y, x < w → y < h →
        let data := at_ bs 128 (DxtSpec.bytes 8 w h 1)
        let p := DxtSpec.block 8 w h x y 0
        DxtSpec.Within 1 (q x y).toNat (DxtSpec.eight (DxtSpec.byte data p) (DxtSpec.byte data (p + 1)) (DxtSpec.code3 data p x y)) :=
    fun S => ⟨_, S, fun x y _ _ => valA_within _ x y _⟩
  exact both (by have := H.len; omega) hl
    (fun _ h' => (ati_load fileLaws2 junk cubeF cur h' H K hwh (.inl ⟨rfl, rfl, rfl, rfl, rfl⟩) hsize).mono
      (fun r hr => ⟨⟨fun hc => let ⟨a, m, b, S⟩ := hr.1.1 hc; ⟨a, m, b, fin S⟩, hr.1.2⟩, hr.2⟩))
    (fun _ h' => (ati_load lumpLaws2 junk cubeL cur h' H K hwh (.inl ⟨rfl, rfl, rfl, rfl, rfl⟩) hsize).mono
      (fun r hr => ⟨⟨fun hc => let ⟨a, m, b, S⟩ := hr.1.1 hc; ⟨a, m, b, fin S⟩, hr.1.2⟩, hr.2⟩))

/-- **C144, 3Dc (partial).** A DDS picture with 3Dc blocks is loaded as a map of unit vectors: green is chosen by the first eight bytes of a block
and red by the second eight bytes, rounded up or down, and blue is the third component.  Missing: volumes (`C144_violated_volume`). -/
theorem C144_3dc_partial (junk : Nat → UInt8) (cubeF : Hd → Cache.S → C (Bool × List Img × Cache.S)) (cubeL : Hd → Lump.R → C (Bool × List Img × Lump.R))
    (cur : Img) (bs : List UInt8) (hl : bs.length < 2147483648) (w h : Nat) (H : Header bs w h) (K : Code bs [65, 84, 73, 50]) (hwh : w * h < 2 ^ 27)
    (hsize : Declares bs (DxtSpec.bytes 16 w h 1)) :
    Both (iLoadDdsInternal fileOps junk cubeF cur) (iLoadDdsInternal lumpOps junk cubeL cur) bs (Loads bs (DxtSpec.bytes 16 w h 1) cur (fun m =>
      ∃ q : Nat → Nat → Nat → UInt8, Shows m w h 3 IL_RGB (fun x y c => some (q x y c)) ∧ ∀ x y, x < w → y < h →
        let data := at_ bs 128 (DxtSpec.bytes 16 w h 1)
        let p := DxtSpec.block 16 w h x y 0
        DxtSpec.Within 1 (q x y 1).toNat (DxtSpec.eight (DxtSpec.byte data p) (DxtSpec.byte data (p + 1)) (DxtSpec.code3 data p x y)) ∧
        DxtSpec.Within 1 (q x y 0).toNat (DxtSpec.eight (DxtSpec.byte data (p + 8)) (DxtSpec.byte data (p + 9)) (DxtSpec.code3 data (p + 8) x y)) ∧
        Normal (q x y 0).toNat (q x y 1).toNat (q x y 2).toNat)) := by
  have fin : ∀ {m : Img}, Shows m w h 3 IL_RGB (fun x y c => some (valD (at_ bs 128 (DxtSpec.bytes 16 w h 1)) (DxtSpec.block 16 w h x y 0) (y % 4) (x % 4) c)) →
      ∃ q : Nat → Nat → Nat → UInt8, Shows m w h 3 IL_RGB (fun x y c => some (q x y c)) ∧ ∀ x y, x < w → y < h →
        let data := at_ bs 128 (DxtSpec.bytes 16 w h 1)
        let p := DxtSpec.block 16 w h x y 0
        DxtSpec.Within 1 (q x y 1).toNat (DxtSpec.eight (DxtSpec.byte data p) (DxtSpec.byte data (p + 1)) (DxtSpec.code3 data p x y)) ∧
        DxtSpec.Within 1 (q x y 0).toNat (DxtSpec.eight (DxtSpec.byte data (p + 8)) (DxtSpec.byte data (p + 9)) (DxtSpec.code3 data (p + 8) x y)) ∧
        Normal (q x y 0).toNat (q x y 1).toNat (q x y 2).toNat :=
    fun S => ⟨_, S, fun x y _ _ => ⟨valA_within _ x y _, valA_within _ x y _, third_normal _ _⟩⟩
  exact both (by have := H.len; omega) hl
    (fun _ h' => (ati_load fileLaws2 junk cubeF cur h' H K hwh (.inr ⟨rfl, rfl, rfl, rfl, rfl⟩) hsize).mono
      (fun r hr => ⟨⟨fun hc => let ⟨a, m, b, S⟩ := hr.1.1 hc; ⟨a, m, b, fin S⟩, hr.1.2⟩, hr.2⟩))
    (fun _ h' => (ati_load lumpLaws2 junk cubeL cur h' H K hwh (.inr ⟨rfl, rfl, rfl, rfl, rfl⟩) hsize).mono
      (fun r hr => ⟨⟨fun hc => let ⟨a, m, b, S⟩ := hr.1.1 hc; ⟨a, m, b, fin S⟩, hr.1.2⟩, hr.2⟩))

/-- A file of one block: 4 by 2 pixels. -/
def ati1File : List UInt8 := hdr 0x81007 2 4 8 4 [65, 84, 73, 49] 0 0 0 0 0 ++ [200, 60, 0x88, 0xC6, 0xFA, 0, 0, 0]
/-- The same for 3Dc: 2 by 2 pixels. -/
def dcFile : List UInt8 := hdr 0x81007 2 2 16 4 [65, 84, 73, 50] 0 0 0 0 0 ++ [200, 60, 8, 0, 1, 0, 0, 0] ++ [128, 255, 8, 0, 0, 0, 0, 0]

set_option maxRecDepth 20000 in
/-- They meet the assumptions. -/
example : (Header ati1File 4 2 ∧ Code ati1File [65, 84, 73, 49] ∧ Declares ati1File (DxtSpec.bytes 8 4 2 1) ∧ 128 + DxtSpec.bytes 8 4 2 1 ≤ ati1File.length) ∧
    Header dcFile 2 2 ∧ Code dcFile [65, 84, 73, 50] ∧ Declares dcFile (DxtSpec.bytes 16 2 2 1) ∧ 128 + DxtSpec.bytes 16 2 2 1 ≤ dcFile.length :=
  ⟨⟨⟨by decide, by decide, by decide, by decide, by decide, by decide, by decide, by decide, by decide, by decide, by decide⟩, by unfold Code; decide,
    .inr (.inr (by decide)), by decide⟩,
   ⟨by decide, by decide, by decide, by decide, by decide, by decide, by decide, by decide, by decide, by decide, by decide⟩, by unfold Code; decide,
    .inr (.inr (by decide)), by decide⟩

/-- The eight values from 200 to 60. -/
example : ∃ r, loaded dot ati1File = .ok r ∧ (r.1 && decide (r.2.map (·.data) = [[200, 60, 180, 160, 140, 120, 100, 80]])) = true := ok_of (by decide +kernel)
/-- Vectors. -/
example : ∃ r, loaded dot dcFile = .ok r ∧ (r.1 && decide (r.2.map (·.data) = [[128, 200, 232, 255, 60, 127, 128, 200, 232, 128, 180, 243]])) = true := ok_of (by decide +kernel)

/-- **C144, violated.** A volume of two slices of 4 by 1 pixels, with all its blocks, makes the loader write behind the image: after each slice it
goes on four rows below. -/
theorem C144_violated_volume :
    loaded dot ([68, 68, 83, 32] ++ bytes4 124 ++ bytes4 0x881007 ++ bytes4 1 ++ bytes4 4 ++ bytes4 16 ++ bytes4 2 ++ bytes4 0 ++ List.replicate 44 0 ++ bytes4 32 ++
      bytes4 4 ++ [65, 84, 73, 49] ++ List.replicate 20 0 ++ bytes4 0x1000 ++ bytes4 0x200000 ++ List.replicate 12 0 ++ List.replicate 16 0) = .error .oobWrite :=
  error_of (by decide +kernel)

/-- **C144, violated.** In RXGB pictures (DXT5 blocks with red in the place of alpha) white is not white: green is 252 and blue 248. -/
theorem C144_violated_rxgb : ∃ r, loaded dot (hdr 0x81007 1 1 16 4 [82, 88, 71, 66] 0 0 0 0 0 ++ [255, 255, 0, 0, 0, 0, 0, 0] ++ [255, 255, 255, 255, 0, 0, 0, 0]) = .ok r ∧
    (r.1 && decide (r.2.map (·.data) = [[255, 252, 248]])) = true := ok_of (by decide +kernel)

/-! ### C145: components of 16 and 32 bits -/

/-- **C145 (partial).** A DDS picture of four 16-bit numbers, four floats, two floats or one float for each pixel is loaded with the numbers of the
file, bit by bit; the components that the file does not have are 1.  If pixels are missing, the loader fails and the bound image is what it
was.  Missing: 16-bit floats, and the formats of ten bits (`C145_violated_ten`). -/
theorem C145_wide_partial (junk : Nat → UInt8) (cubeF : Hd → Cache.S → C (Bool × List Img × Cache.S)) (cubeL : Hd → Lump.R → C (Bool × List Img × Lump.R))
    (cur : Img) (bs : List UInt8) (hl : bs.length < 2147483648) (w h : Nat) (cc : List UInt8) (fb k s format type : Nat) (H : Header bs w h) (K : Code bs cc)
    (hwh : w * h < 2 ^ 27) (hcc : wideKind cc fb k s format type) (hsize : Declares bs (w * h * fb)) :
    Both (iLoadDdsInternal fileOps junk cubeF cur) (iLoadDdsInternal lumpOps junk cubeL cur) bs (Loads bs (w * h * fb) cur (fun m =>
      Wide m w h k s format type (fun x y c => if c * s < fb then at_ bs (128 + (y * w + x) * fb + c * s) s else one32))) :=
  both (by have := H.len; omega) hl (fun _ h' => wide_load fileLaws2 junk cubeF cur h' H K hwh hcc hsize)
    (fun _ h' => wide_load lumpLaws2 junk cubeL cur h' H K hwh hcc hsize)

/-- Two pixels with one float each: 2 and 3. -/
def floatFile : List UInt8 := hdr 0x81007 1 2 8 4 [114, 0, 0, 0] 0 0 0 0 0 ++ [0, 0, 0, 64, 0, 0, 64, 64]

set_option maxRecDepth 20000 in
/-- They meet the assumptions. -/
example : Header floatFile 2 1 ∧ Code floatFile [114, 0, 0, 0] ∧ wideKind [114, 0, 0, 0] 4 3 4 IL_RGB IL_FLOAT ∧ Declares floatFile (2 * 1 * 4) ∧
    128 + 2 * 1 * 4 ≤ floatFile.length :=
  ⟨⟨by decide, by decide, by decide, by decide, by decide, by decide, by decide, by decide, by decide, by decide, by decide⟩, by unfold Code; decide,
    by unfold wideKind; decide, .inr (.inr (by decide)), by decide⟩

/-- The image. -/
example : ∃ r, loaded dot floatFile = .ok r ∧ (r.1 && decide (r.2.map (·.data) = [[0, 0, 0, 64, 0, 0, 128, 63, 0, 0, 128, 63, 0, 0, 64, 64, 0, 0, 128, 63, 0, 0, 128, 63]])) = true :=
  ok_of (by decide +kernel)

/-- **C145, violated.** A pixel of A2B10G10R10 (red in the lowest ten bits) that is red and opaque becomes blue and transparent. -/
theorem C145_violated_ten : ∃ r, loaded dot (hdr 0x81007 1 1 4 0x41 [0, 0, 0, 0] 32 0x3FF 0xFFC00 0x3FF00000 0xC0000000 ++ [0xFF, 3, 0, 0xC0]) = .ok r ∧
    (r.1 && decide (r.2.map (fun m => (m.format, m.type, m.data)) = [(IL_RGBA, IL_UNSIGNED_SHORT, [0, 0, 0, 0, 0xC0, 0xFF, 0, 0])])) = true := ok_of (by decide +kernel)

/-- **C145, violated.** The same masks without the alpha flag make the loader write behind the image. -/
theorem C145_violated_ten_rgb : loaded dot (hdr 0x81007 1 1 4 0x40 [0, 0, 0, 0] 32 0x3FF 0xFFC00 0x3FF00000 0xC0000000 ++ [0xFF, 3, 0, 0xC0]) = .error .oobWrite :=
  error_of (by decide +kernel)

/-! ### C146: files that are refused -/

/-- **C146 (partial).** A file of 128 bytes or more whose header is not one of a DDS file, or declares an empty picture, is refused, and the bound
image is what it was.  Missing: shorter files, whose header is completed with whatever the memory holds; and files whose header is
right are not always safe (`C146_violated_declared`). -/
theorem C146_header_partial (junk : Nat → UInt8) (cubeF : Hd → Cache.S → C (Bool × List Img × Cache.S)) (cubeL : Hd → Lump.R → C (Bool × List Img × Lump.R))
    (cur : Img) (bs : List UInt8) (hl : bs.length < 2147483648) (hlen : 128 ≤ bs.length)
    (hbad : at_ bs 0 4 ≠ [68, 68, 83, 32] ∨ (leAt bs 4 4 ≠ 124 ∧ leAt bs 4 4 ≠ 0x20534444) ∨ leAt bs 76 4 ≠ 32 ∨ leAt bs 16 4 = 0 ∨ leAt bs 12 4 = 0) :
    Both (iLoadDdsInternal fileOps junk cubeF cur) (iLoadDdsInternal lumpOps junk cubeL cur) bs (fun ok ms => ok = false ∧ ms = [cur]) :=
  both (by omega) hl (fun _ h' => refused_header fileLaws2 junk cubeF cur h' hlen hbad) (fun _ h' => refused_header lumpLaws2 junk cubeL cur h' hlen hbad)

/-- The codes of the kinds of compression the library knows. -/
def known : List (List UInt8) :=
  [[68, 88, 84, 49], [68, 88, 84, 50], [68, 88, 84, 51], [68, 88, 84, 52], [68, 88, 84, 53], [68, 88, 49, 48], [65, 84, 73, 49], [65, 84, 73, 50], [82, 88, 71, 66],
    [36, 0, 0, 0], [111, 0, 0, 0], [112, 0, 0, 0], [113, 0, 0, 0], [114, 0, 0, 0], [115, 0, 0, 0], [116, 0, 0, 0]]

theorem known_length : ∀ k ∈ known, k.length = 4 := by decide

theorem le_inj4 {a b : List UInt8} (ha : a.length = 4) (hb : b.length = 4) (h : le a = le b) : a = b := by
  match a, b, ha, hb with
  | [a0, a1, a2, a3], [b0, b1, b2, b3], _, _ =>
    simp only [le] at h
    have := a0.toNat_lt; have := a1.toNat_lt; have := a2.toNat_lt; have := a3.toNat_lt
    have := b0.toNat_lt; have := b1.toNat_lt; have := b2.toNat_lt; have := b3.toNat_lt
    have e0 : a0 = b0 := UInt8.toNat_inj.mp (by omega)
    have e1 : a1 = b1 := UInt8.toNat_inj.mp (by omega)
    have e2 : a2 = b2 := UInt8.toNat_inj.mp (by omega)
    have e3 : a3 = b3 := UInt8.toNat_inj.mp (by omega)
    rw [e0, e1, e2, e3]

/-- **C146, unknown compression (partial).** A file with any other code for its compression is refused, and the bound image is what it was. -/
theorem C146_code_partial (junk : Nat → UInt8) (cubeF : Hd → Cache.S → C (Bool × List Img × Cache.S)) (cubeL : Hd → Lump.R → C (Bool × List Img × Lump.R))
    (cur : Img) (bs : List UInt8) (hl : bs.length < 2147483648) (hlen : 128 ≤ bs.length) (cc : List UInt8) (K : Code bs cc) (hcc : cc ∉ known) :
    Both (iLoadDdsInternal fileOps junk cubeF cur) (iLoadDdsInternal lumpOps junk cubeL cur) bs (fun ok ms => ok = false ∧ ms = [cur]) := by
  have h4 : cc.length = 4 := by rw [← K.2, at_length]; omega
  have hk : ∀ k ∈ known, le cc ≠ le k := fun k hk e => hcc (le_inj4 h4 (known_length k hk) e ▸ hk)
  have hu : ∀ area blocks, (fourCC (le cc) area blocks).1 = .unknown := unknown_code (by
    intro hm
    have : le cc ∈ known.map le := hm
    obtain ⟨k, hk1, hk2⟩ := List.mem_map.mp this
    exact hk k hk1 hk2.symm)
  exact both (by omega) hl (fun _ h' => refused_code fileLaws2 junk cubeF cur h' hlen K hu) (fun _ h' => refused_code lumpLaws2 junk cubeL cur h' hlen K hu)

set_option maxRecDepth 20000 in
/-- A header without its first letter, and the code DXT9. -/
example : (128 ≤ (dxtFile 51).length ∧ at_ (0 :: (dxtFile 51).tail) 0 4 ≠ [68, 68, 83, 32]) ∧ Code (dxtFile 57) [68, 88, 84, 57] ∧ [68, 88, 84, 57] ∉ known := by
  unfold Code known
  decide

/-- **C146, violated.** A DXT3 file that declares fewer bytes than its blocks have makes the loader read memory behind what it has read. -/
theorem C146_violated_declared :
    loaded dot (hdr 0x81007 4 4 15 4 [68, 88, 84, 51] 0 0 0 0 0 ++ List.replicate 16 255) = .error .oobRead := error_of (by decide +kernel)

end DevIL.Dds
