import Verif.Model.Dxt
import Verif.Model.Games
import Verif.Model.Half
/-! Model of the loader of DDS files, DevIL/src-IL/src/il_dds.cpp, for files that are no cube maps.
An image is bound; allocation succeeds; `ilFixImage`, `ilBindImage` and errors raised are left out (as in Model/Games.lean);
`IL_KEEP_DXTC_DATA` is disabled, as it is by default.  Numbers of pixels are 32-bit; the loop variables are taken not to wrap. -/
set_option autoImplicit false
namespace DevIL.Dds

open DevIL.Detect DevIL.Image DevIL.Games
open DevIL.Dxt (word16 word24 word32)

/-! ### The header -/

/-- The fields of `DDSHEAD` the loader uses.  include/il_dds.h:23-51. -/
structure Hd where
  flags1 : Nat
  height : Nat
  width : Nat
  linear : Nat
  depth : Nat
  mips : Nat
  flags2 : Nat
  fourCC : Nat
  bits : Nat
  rmask : Nat
  gmask : Nat
  bmask : Nat
  amask : Nat
  caps1 : Nat
  caps2 : Nat
  deriving DecidableEq

/-- What `iGetDdsHead` reads, il_dds.cpp:101-132.  The ten unused words are one field here. -/
def headFields : List Fld := [arr 4, u32f, u32f, u32f, u32f, u32f, u32f, u32f, u32f, .rd 40 1, u32f, u32f, u32f, u32f, u32f, u32f, u32f, u32f,
  u32f, u32f, u32f, u32f, u32f]

/-- The header, with the correction of the depth, il_dds.cpp:101-136. -/
def hd (h : List (List UInt8)) : Hd :=
  { flags1 := fle h 2, height := fle h 3, width := fle h 4, linear := fle h 5, depth := if fle h 6 = 0 then 1 else fle h 6, mips := fle h 7,
    flags2 := fle h 11, fourCC := fle h 12, bits := fle h 13, rmask := fle h 14, gmask := fle h 15, bmask := fle h 16, amask := fle h 17,
    caps1 := fle h 18, caps2 := fle h 19 }

/-- `enum PixFormat`, include/il_dds.h:163-186. -/
inductive PF where
  | argb | rgb | dxt1 | dxt2 | dxt3 | dxt4 | dxt5 | threeDc | ati1n | lum | lumA | rxgb | a16 | r16f | g16f | a16f | r32f | g32f | a32f | dx10 | unknown
  deriving DecidableEq

/-- The six formats of floats, il_dds.cpp:1142-1147. -/
def PF.isFloat (f : PF) : Bool := f = .r16f || f = .g16f || f = .a16f || f = .r32f || f = .g32f || f = .a32f
/-- The four formats without compression, il_dds.cpp:1157-1159. -/
def PF.isPlain (f : PF) : Bool := f = .rgb || f = .argb || f = .lum || f = .lumA

/-- `DDS_LINEARSIZE`, include/il_dds.h:141. -/
def LINEARSIZE : Nat := 0x80000
/-- `DDS_PITCH`, include/il_dds.h:136. -/
def PITCH : Nat := 8
/-- `DDS_MIPMAPCOUNT`, include/il_dds.h:140. -/
def MIPMAPCOUNT : Nat := 0x20000

/-- The switch of `DecodePixelFormat`, il_dds.cpp:521-603; the codes are four characters, the first in the lowest byte.  `area` is the
product of the dimensions, `blocks` the number of blocks. -/
def fourCC (cc area blocks : Nat) : PF × Nat :=
  if cc = 0x31545844 then (.dxt1, u32 (blocks * 8))
  else if cc = 0x32545844 then (.dxt2, u32 (blocks * 16))
  else if cc = 0x33545844 then (.dxt3, u32 (blocks * 16))
  else if cc = 0x34545844 then (.dxt4, u32 (blocks * 16))
  else if cc = 0x35545844 then (.dxt5, u32 (blocks * 16))
  else if cc = 0x30315844 then (.dx10, blocks)
  else if cc = 0x31495441 then (.ati1n, u32 (blocks * 8))
  else if cc = 0x32495441 then (.threeDc, u32 (blocks * 16))
  else if cc = 0x42475852 then (.rxgb, u32 (blocks * 16))
  else if cc = 36 then (.a16, u32 (area * 8))
  else if cc = 111 then (.r16f, u32 (area * 2))
  else if cc = 112 then (.g16f, u32 (area * 4))
  else if cc = 113 then (.a16f, u32 (area * 8))
  else if cc = 114 then (.r32f, u32 (area * 4))
  else if cc = 115 then (.g32f, u32 (area * 8))
  else if cc = 116 then (.a32f, u32 (area * 16))
  else (.unknown, u32 (blocks * 16))

/-- `DecodePixelFormat`, il_dds.cpp:515-625: the format and `BlockSize`. -/
def decodePixelFormat (h : Hd) : PF × Nat :=
  let area := u32 (u32 (h.width * h.height) * h.depth)
  if h.flags2 &&& 4 ≠ 0 then fourCC h.fourCC area (u32 (u32 ((u32 (h.width + 3) / 4) * (u32 (h.height + 3) / 4)) * h.depth))
  else (if h.flags2 &&& 0x20000 ≠ 0 then (if h.flags2 &&& 1 ≠ 0 then .lumA else .lum) else (if h.flags2 &&& 1 ≠ 0 then .argb else .rgb),
    u32 (area * (h.bits / 8)))

/-- `Check16BitComponents`, il_dds.cpp:240-255. -/
def has16 (h : Hd) : Bool :=
  (h.rmask = 0x3FF00000 && h.gmask = 0x000FFC00 && h.bmask = 0x000003FF && h.amask = 0xC0000000) ||
  (h.rmask = 0x000003FF && h.gmask = 0x000FFC00 && h.bmask = 0x3FF00000 && h.amask = 0xC0000000)

/-- `iCompFormatToBpp`, il_dds.cpp:258-278; an `ILubyte`. -/
def toBpp (h : Hd) (f : PF) : Nat :=
  if f = .lum ∨ f = .lumA ∨ f = .argb then h.bits / 8 % 256
  else if f = .rgb ∨ f = .threeDc ∨ f = .rxgb then 3
  else if f = .ati1n then 1
  else if f = .a16 ∨ f = .a16f ∨ f = .g32f then 8
  else if f = .a32f then 16
  else 4

/-- `iCompFormatToBpc`, il_dds.cpp:281-294. -/
def toBpc (h : Hd) (f : PF) : Nat :=
  if has16 h then 2 else if f.isFloat then 4 else if f = .a16 then 2 else 1

/-- `iCompFormatToChannelCount`, il_dds.cpp:297-309. -/
def toChannels (f : PF) : Nat :=
  if f = .rgb ∨ f = .threeDc ∨ f = .rxgb then 3
  else if f = .lum ∨ f = .ati1n then 1
  else if f = .lumA then 2
  else if f = .g16f ∨ f = .g32f ∨ f = .r32f ∨ f = .r16f then 3
  else 4

/-- The test marked as a hack: 16-bit luminance, il_dds.cpp:901, 1083, 1945. -/
def wideLum (h : Hd) : Bool := h.bits = 16 && h.rmask = 0xFFFF

/-- A 32-bit number read as the bound of a loop over `ILint`s, il_dds.cpp:870-871, 1487-1489. -/
def ints (n : Nat) : Nat := (Lump.toInt n).toNat

/-- `AdjustVolumeTexture`, il_dds.cpp:765-823: the new header and the global `Depth`. -/
def adjustVolume (h : Hd) (f : PF) (isDx10 : Bool) : Hd × Nat :=
  if h.depth ≤ 1 ∨ isDx10 then (h, h.depth)
  else
    let d := if h.caps2 &&& 0x200000 = 0 then 1 else h.depth
    let blocks := u32 ((u32 (h.width + 3) / 4) * (u32 (h.height + 3) / 4))
    let area := u32 (h.width * h.height)
    let linear :=
      if f.isPlain then u32 (area * (h.bits / 8))
      else if f = .dxt1 ∨ f = .ati1n then u32 (blocks * 8)
      else if f = .dxt2 ∨ f = .dxt3 ∨ f = .dxt4 ∨ f = .dxt5 ∨ f = .threeDc ∨ f = .rxgb then u32 (blocks * 16)
      else u32 (area * toBpp h f)
    ({ h with depth := d, flags1 := h.flags1 ||| LINEARSIZE, linear := u32 (linear * d) }, d)

/-! ### Reading the data -/

section
variable {σ : Type} (o : Ops σ) (junk : Nat → UInt8)

/-- The state of the loops of `ReadData`: `CompData`, `Temp`, the input, whether a read has failed.  il_dds.cpp:869-879. -/
structure Rows (σ : Type) where
  data : List UInt8
  t : Nat
  inp : σ
  failed : Bool

/-- One row, il_dds.cpp:872-877. -/
def readRow (bps : Nat) (r : Rows σ) : C (Rows σ) :=
  if r.failed then pure r
  else do
    let (g, n, s) ← o.read r.inp 1 bps
    let d ← memcpy r.data r.t g 0 g.length
    if n ≠ bps then pure ⟨d, r.t, s, true⟩ else pure ⟨d, r.t + bps, s, false⟩

/-- `ReadData`, il_dds.cpp:827-882; `none` is `IL_FALSE`.  `w`, `ht` and `d` are the globals `Width`, `Height` and `Depth`. -/
def readData (h : Hd) (isDx10 : Bool) (w ht d : Nat) (s : σ) : C (Option (List UInt8) × σ) :=
  if h.flags1 &&& LINEARSIZE ≠ 0 then do
    let (n, c, s) ← into o s (alloc junk h.linear) 1 h.linear
    if n ≠ h.linear then pure (none, s) else pure (some c, s)
  else
    let bps := if isDx10 then h.linear else u32 (w * h.bits) / 8
    let size := u32 (u32 (bps * ht) * d)
    if size = 0 then pure (none, s)
    else do
      let r ← loopN (ints d) (fun _ r => loopN (ints ht) (fun _ r => readRow o bps r) r) ⟨alloc junk size, 0, s, false⟩
      if r.failed then pure (none, r.inp) else pure (some r.data, r.inp)

/-! ### The image -/

/-- `ilTexImage(w, h, d, bpp, format, type, NULL)` and the origin, il_devil.cpp:126-165, 19-58, il_dds.cpp:992: it cannot fail here. -/
def texN (w h d bpp format type : Nat) : Img :=
  let g := geometry w h d bpp format type []
  { g with data := alloc junk g.size, origin := IL_ORIGIN_UPPER_LEFT }

/-- The kind of image `AllocImage` makes: components, format, type.  il_dds.cpp:885-995. -/
def imageKind (h : Hd) (f : PF) : Nat × Nat × Nat :=
  match f with
  | .rgb => (3, IL_RGB, IL_UNSIGNED_BYTE)
  | .argb => (4, IL_RGBA, if has16 h then IL_UNSIGNED_SHORT else IL_UNSIGNED_BYTE)
  | .lum => (1, IL_LUMINANCE, if wideLum h then IL_UNSIGNED_SHORT else IL_UNSIGNED_BYTE)
  | .lumA => (2, IL_LUMINANCE_ALPHA, IL_UNSIGNED_BYTE)
  | .ati1n => (1, IL_LUMINANCE, IL_UNSIGNED_BYTE)
  | .threeDc => (3, IL_RGB, IL_UNSIGNED_BYTE)
  | .a16 => (toChannels f, Utility.ilGetFormatBpp (toChannels f), IL_UNSIGNED_SHORT)
  | .r16f | .g16f | .a16f | .r32f | .g32f | .a32f => (toChannels f, Utility.ilGetFormatBpp (toChannels f), IL_FLOAT)
  | .rxgb => (3, IL_RGB, IL_UNSIGNED_BYTE)
  | _ => (4, IL_RGBA, IL_UNSIGNED_BYTE)

/-- The same for a DX10 header, by its format, il_dds.cpp:967-988; `none` is `IL_FALSE`. -/
def dx10Kind (h : Hd) (dxgi : Nat) : Option (Nat × Nat × Nat) :=
  if dxgi = 28 then some (4, IL_RGBA, if has16 h then IL_UNSIGNED_SHORT else IL_UNSIGNED_BYTE)
  else if dxgi = 87 ∨ dxgi = 91 then some (4, IL_BGRA, if has16 h then IL_UNSIGNED_SHORT else IL_UNSIGNED_BYTE)
  else none

end

/-! ### Pixels without compression -/

/-- `for (i = 0; i < 32; i++, Temp >>= 1) if (Temp & 1) break;`, il_dds.cpp:2126-2129: `Temp` and `i`. -/
def skipZeros : Nat → Nat → Nat → Nat × Nat
  | 0, t, i => (t, i)
  | n + 1, t, i => if t &&& 1 ≠ 0 then (t, i) else skipZeros n (t >>> 1) (i + 1)

/-- `for (i = 0; i < 8; i++, Temp >>= 1) if (!(Temp & 1)) break;`, il_dds.cpp:2133-2136: `i`. -/
def countOnes : Nat → Nat → Nat → Nat
  | 0, _, i => i
  | n + 1, t, i => if t &&& 1 = 0 then i else countOnes n (t >>> 1) (i + 1)

/-- `GetBitsFromMask`, il_dds.cpp:2116-2140: `ShiftLeft` and `ShiftRight`. -/
def getBits (mask : Nat) : Nat × Nat :=
  if mask = 0 then (0, 0)
  else
    let r := skipZeros 32 mask 0
    (8 - countOnes 8 r.1 0, r.2)

/-- The loop of `CountBitsFromMask`, il_dds.cpp:2016-2024. -/
def countRun : Nat → Nat → Nat → Nat → Nat
  | 0, _, _, count => count
  | n + 1, mask, bit, count =>
    if mask &&& bit ≠ 0 then countRun n mask (u32 (bit <<< 1)) (count + 1)
    else if count ≠ 0 then count else countRun n mask (u32 (bit <<< 1)) count

/-- `CountBitsFromMask`, il_dds.cpp:2011-2027. -/
def countBits (mask : Nat) : Nat := countRun 32 mask 1 0

/-- Reading a pixel, il_dds.cpp:1963-1979, 2065-2081: `left` bytes of the image are to be written, a pixel of the file has `k` bytes;
`old` is what was read before. -/
def readPixel (comp : List UInt8) (left k t old : Nat) : C Nat :=
  if left < 4 then
    if k = 3 then word24 comp t
    else if k = 1 then do let b ← rd comp t; pure b.toNat
    else if k = 2 then word16 comp t
    else pure old
  else word32 comp t

/-- `((ReadI & Mask) >> R) << L`, il_dds.cpp:1982; stored in a byte. -/
def channel (v mask : Nat) (s : Nat × Nat) : UInt8 := UInt8.ofNat (((v &&& mask) >>> s.2) <<< s.1)

/-- The correction of an alpha value, il_dds.cpp:1990-1995. -/
def fixAlpha (l : Nat) (v : UInt8) : UInt8 :=
  if l ≥ 7 then (if v ≠ 0 then 255 else 0) else if l ≥ 4 then UInt8.ofNat (v.toNat ||| v.toNat >>> 4) else v

/-- The second component of a pixel with two, il_dds.cpp:1998-2006: the correction looks two bytes further. -/
def putAlpha2 (h : Hd) (v i : Nat) (d : List UInt8) : C (List UInt8) := do
  let s := getBits h.amask
  let d ← wr d (i + 1) (channel v h.amask s)
  if s.1 ≥ 7 then do
    let a ← rd d (i + 1)
    wr d (i + 1) (if a ≠ 0 then 255 else 0)
  else if s.1 ≥ 4 then do
    let a ← rd d (i + 1)
    let b ← rd d (i + 3)
    wr d (i + 1) (UInt8.ofNat (a.toNat ||| b.toNat >>> 4))
  else pure d

/-- Storing a pixel, il_dds.cpp:1982-2006. -/
def putPixel (h : Hd) (bpp v i : Nat) (d : List UInt8) : C (List UInt8) := do
  let d ← wr d i (channel v h.rmask (getBits h.rmask))
  if bpp ≥ 3 then do
    let d ← wr d (i + 1) (channel v h.gmask (getBits h.gmask))
    let d ← wr d (i + 2) (channel v h.bmask (getBits h.bmask))
    if bpp = 4 then wr d (i + 3) (fixAlpha (getBits h.amask).1 (channel v h.amask (getBits h.amask))) else pure d
  else if bpp = 2 then putAlpha2 h v i d
  else pure d

/-- The loop of `DecompressARGB`, il_dds.cpp:1957-2008, with `Data`, `Temp` and `ReadI`. -/
def argbLoop (h : Hd) (m : Img) (comp : List UInt8) : C (List UInt8 × Nat × Nat) :=
  forStep 0 m.size m.bpp (fun i s => do
    let v ← readPixel comp (m.size - i) (h.bits / 8) s.2.1 s.2.2
    let d ← putPixel h m.bpp v i s.1
    pure (d, s.2.1 + h.bits / 8, v)) (m.data, 0, 0)

/-- Storing a 16-bit number, il_dds.cpp:2084. -/
def putShort (d : List UInt8) (i v : Nat) : C (List UInt8) := do
  let d ← wr d (2 * i) (UInt8.ofNat v)
  wr d (2 * i + 1) (UInt8.ofNat (v >>> 8))

/-- `((ReadI & Mask) >> R) << L` with the shift of `DecompressARGB16`, il_dds.cpp:2052-2058, 2084: the shifts are of 32-bit numbers. -/
def wide (v mask : Nat) : Nat :=
  let s := getBits mask
  u32 (((v &&& mask) >>> s.2) <<< (s.1 + (16 - countBits mask)))

/-- The correction of an alpha value in `DecompressARGB16`, il_dds.cpp:2092-2097, on 16-bit numbers; `l` is `AlphaL`. -/
def fixWide (l v : Nat) : Nat := if l ≥ 7 then (if v % 65536 ≠ 0 then 255 else 0) else if l ≥ 4 then v ||| (v % 65536) >>> 4 else v

/-- Storing a pixel in `DecompressARGB16`, il_dds.cpp:2084-2108.  `AlphaL` is 20 whenever the function is called (`has16`), so the test of
2105-2107 is left out. -/
def putWide (h : Hd) (bpp v i : Nat) (d : List UInt8) : C (List UInt8) := do
  let d ← putShort d (i + 2) (wide v h.rmask)
  let a := fixWide ((getBits h.amask).1 + (16 - countBits h.amask)) (wide v h.amask)
  if bpp ≥ 3 then do
    let d ← putShort d (i + 1) (wide v h.gmask)
    let d ← putShort d i (wide v h.bmask)
    if bpp = 4 then putShort d (i + 3) a else pure d
  else if bpp = 2 then putShort d (i + 1) a
  else pure d

/-- The loop of `DecompressARGB16`, il_dds.cpp:2030-2112, with `Data`, `Temp` and `ReadI`. -/
def argb16Loop (h : Hd) (m : Img) (comp : List UInt8) : C (List UInt8 × Nat × Nat) :=
  forStep 0 (m.size / 2) m.bpp (fun i s => do
    let v ← readPixel comp (m.size - i) (h.bits / 8) s.2.1 s.2.2
    let d ← putWide h m.bpp v i s.1
    pure (d, s.2.1 + h.bits / 8, v)) (m.data, 0, 0)

/-- `DecompressARGB`, il_dds.cpp:1930-2009. -/
def decompressARGB (h : Hd) (f : PF) (m : Img) (comp : List UInt8) : C (List UInt8) :=
  if has16 h then (·.1) <$> argb16Loop h m comp
  else if f = .lum ∧ wideLum h then memcpy m.data 0 comp 0 m.size
  else (·.1) <$> argbLoop h m comp

/-! ### Block formats -/

/-- The eight values of a block of 3Dc or ATI1N data, il_dds.cpp:1493-1503, 1588-1598.  The division of C rounds towards zero. -/
def levels (a b : Nat) : List UInt8 :=
  (if a > b then [a, b, a - (a - b) * 1 / 7, a - (a - b) * 2 / 7, a - (a - b) * 3 / 7, a - (a - b) * 4 / 7, a - (a - b) * 5 / 7, a - (a - b) * 6 / 7]
  else [a, b, a + (b - a) * 1 / 5, a + (b - a) * 2 / 5, a + (b - a) * 3 / 5, a + (b - a) * 4 / 5, 0, 255]).map UInt8.ofNat

/-- Four pixels of an ATI1N block, il_dds.cpp:1608-1615, with the remaining bits; `cur` is `CurrOffset`. -/
def ati1Row (w : Nat) (cols : List UInt8) (x cur : Nat) (s : List UInt8 × Nat) : C (List UInt8 × Nat) :=
  loopN 4 (fun i s => do
    let d ← (if x + i < w then do
        let c ← rd cols (s.2 &&& 7)
        wr s.1 (cur + (x + i)) c
      else pure s.1)
    pure (d, s.2 >>> 3)) s

/-- Two rows of an ATI1N block, il_dds.cpp:1603-1619: the state is `Data` and `CurrOffset`. -/
def ati1Half (w h bps : Nat) (comp : List UInt8) (cols : List UInt8) (t x y : Nat) (s : List UInt8 × Nat) : C (List UInt8 × Nat) := do
  let bits ← word24 comp t
  let r ← loopN 2 (fun j r => if y + j < h then do
      let q ← ati1Row w cols x r.2.2 (r.1, r.2.1)
      pure (q.1, q.2, r.2.2 + bps)
    else pure r) (s.1, bits, s.2)
  pure (r.1, r.2.2)

/-- One block of `DecompressAti1n`, il_dds.cpp:1585-1621. -/
def ati1Block (w h bps : Nat) (comp : List UInt8) (t off x y : Nat) (d : List UInt8) : C (List UInt8) := do
  let a ← rd comp t
  let b ← rd comp (t + 1)
  let cols := levels a.toNat b.toNat
  let s ← ati1Half w h bps comp cols (t + 2) x y (d, off)
  let s ← ati1Half w h bps comp cols (t + 5) x (y + 2) s
  pure s.1

/-- The loops of `DecompressAti1n` and `Decompress3Dc`, il_dds.cpp:1579-1625, 1485-1561: the state is `Data`, `Temp` and `Offset`. -/
def bandLoop (w h d bps size : Nat) (block : Nat → Nat → Nat → Nat → List UInt8 → C (List UInt8)) (data : List UInt8) :
    C (List UInt8 × Nat × Nat) :=
  loopN d (fun _ s => forStep 0 h 4 (fun y s => do
    let s ← forStep 0 w 4 (fun x s => do
      let d ← block s.2.1 s.2.2 x y s.1
      pure (d, s.2.1 + size, s.2.2)) s
    pure (s.1, s.2.1, s.2.2 + bps * 4)) s) (data, 0, 0)

/-- `DecompressAti1n`, il_dds.cpp:1568-1625; `w`, `h` and `d` are the globals `Width`, `Height` and `Depth`. -/
def decompressAti1n (w h d : Nat) (m : Img) (comp : List UInt8) : C (List UInt8) :=
  (·.1) <$> bandLoop (ints w) (ints h) (ints d) m.bps 8 (ati1Block (ints w) (ints h) m.bps comp) m.data

/-- The table of `iSqrt`, il_internal.cpp:205-225. -/
def sqrtTable : List Nat :=
  [0, 16, 22, 27, 32, 35, 39, 42, 45, 48, 50, 53, 55, 57, 59, 61, 64, 65, 67, 69, 71, 73, 75, 76,
  78, 80, 81, 83, 84, 86, 87, 89, 90, 91, 93, 94, 96, 97, 98, 99, 101, 102, 103, 104, 106, 107, 108, 109,
  110, 112, 113, 114, 115, 116, 117, 118, 119, 120, 121, 122, 123, 124, 125, 126, 128, 128, 129, 130, 131, 132, 133, 134,
  135, 136, 137, 138, 139, 140, 141, 142, 143, 144, 144, 145, 146, 147, 148, 149, 150, 150, 151, 152, 153, 154, 155, 155,
  156, 157, 158, 159, 160, 160, 161, 162, 163, 163, 164, 165, 166, 167, 167, 168, 169, 170, 170, 171, 172, 173, 173, 174,
  175, 176, 176, 177, 178, 178, 179, 180, 181, 181, 182, 183, 183, 184, 185, 185, 186, 187, 187, 188, 189, 189, 190, 191,
  192, 192, 193, 193, 194, 195, 195, 196, 197, 197, 198, 199, 199, 200, 201, 201, 202, 203, 203, 204, 204, 205, 206, 206,
  207, 208, 208, 209, 209, 210, 211, 211, 212, 212, 213, 214, 214, 215, 215, 216, 217, 217, 218, 218, 219, 219, 220, 221,
  221, 222, 222, 223, 224, 224, 225, 225, 226, 226, 227, 227, 228, 229, 229, 230, 230, 231, 231, 232, 232, 233, 234, 234,
  235, 235, 236, 236, 237, 237, 238, 238, 239, 240, 240, 241, 241, 242, 242, 243, 243, 244, 244, 245, 245, 246, 246, 247,
  247, 248, 248, 249, 249, 250, 250, 251, 251, 252, 252, 253, 253, 254, 254, 255]

/-- `iSqrt`, il_internal.cpp:227-270, of a number that is not negative and below 65536. -/
def iSqrt (x : Nat) : Nat :=
  if x ≥ 0x100 then
    if x ≥ 0x1000 then
      if x ≥ 0x4000 then sqrtTable.getD (x >>> 8) 0
      else sqrtTable.getD (x >>> 6) 0 >>> 1
    else if x ≥ 0x400 then sqrtTable.getD (x >>> 4) 0 >>> 2
    else sqrtTable.getD (x >>> 2) 0 >>> 3
  else sqrtTable.getD x 0 >>> 4

/-- The third component of a pixel of 3Dc data, il_dds.cpp:1540-1545; it is at most 16256 before the square root. -/
def third (x y : UInt8) : UInt8 :=
  let t : Int := 127 * 128 - ((x.toNat : Int) - 127) * ((x.toNat : Int) - 128) - ((y.toNat : Int) - 127) * ((y.toNat : Int) - 128)
  if t > 0 then UInt8.ofNat (iSqrt t.toNat + 128) else 0x7F

/-- Four pixels of a 3Dc block, il_dds.cpp:1530-1549, with the remaining bits of the two parts. -/
def dcRow (w : Nat) (ys xs : List UInt8) (x cur : Nat) (s : List UInt8 × Nat × Nat) : C (List UInt8 × Nat × Nat) :=
  loopN 4 (fun i s => do
    let d ← (if x + i < w then do
        let ty ← rd ys (s.2.1 &&& 7)
        let d ← wr s.1 (cur + (x + i) * 3 + 1) ty
        let tx ← rd xs (s.2.2 &&& 7)
        let d ← wr d (cur + (x + i) * 3) tx
        wr d (cur + (x + i) * 3 + 2) (third tx ty)
      else pure s.1)
    pure (d, s.2.1 >>> 3, s.2.2 >>> 3)) s

/-- Two rows of a 3Dc block, il_dds.cpp:1523-1554; `t` and `t + 8` point to the bits of the two parts. -/
def dcHalf (w h bps : Nat) (comp : List UInt8) (ys xs : List UInt8) (t x y : Nat) (s : List UInt8 × Nat) : C (List UInt8 × Nat) := do
  let b1 ← word24 comp t
  let b2 ← word24 comp (t + 8)
  let r ← loopN 2 (fun j r => if y + j < h then do
      let q ← dcRow w ys xs x r.2.2 (r.1, r.2.1)
      pure (q.1, q.2, r.2.2 + bps)
    else pure r) (s.1, (b1, b2), s.2)
  pure (r.1, r.2.2)

/-- One block of `Decompress3Dc`, il_dds.cpp:1490-1558. -/
def dcBlock (w h bps : Nat) (comp : List UInt8) (t off x y : Nat) (d : List UInt8) : C (List UInt8) := do
  let a ← rd comp t
  let b ← rd comp (t + 1)
  let a2 ← rd comp (t + 8)
  let b2 ← rd comp (t + 9)
  let ys := levels a.toNat b.toNat
  let xs := levels a2.toNat b2.toNat
  let s ← dcHalf w h bps comp ys xs (t + 2) x y (d, off)
  let s ← dcHalf w h bps comp ys xs (t + 5) x (y + 2) s
  pure s.1

/-- `Decompress3Dc`, il_dds.cpp:1477-1565. -/
def decompress3Dc (w h d : Nat) (m : Img) (comp : List UInt8) : C (List UInt8) :=
  (·.1) <$> bandLoop (ints w) (ints h) (ints d) m.bps 16 (dcBlock (ints w) (ints h) m.bps comp) m.data

/-- A colour of an RXGB block, il_dds.cpp:1661-1669: bit fields of 5, 6 and 5 bits, shifted only. -/
def rxColour (v : Nat) : Dxt.Col := ⟨(v >>> 11 &&& 31) <<< 3, (v >>> 5 &&& 63) <<< 2, (v &&& 31) <<< 3, 255⟩

/-- A pixel of two rows of red values, il_dds.cpp:1732-1738, with the remaining bits. -/
def rxStep (m : Img) (as : List Nat) (z y x i : Nat) (s : List UInt8 × Nat) : C (List UInt8 × Nat) := do
  let d ← (if x + i < m.width ∧ y < m.height then do
      let a ← rd as (s.2 &&& 7)
      Dxt.put m z y (x + i) 0 a s.1
    else pure s.1)
  pure (d, s.2 >>> 3)

/-- Two rows of red values, il_dds.cpp:1729-1740, 1743-1754. -/
def rxRows (m : Img) (as : List Nat) (bits z y x : Nat) (d : List UInt8) : C (List UInt8) := do
  let s ← loopN 2 (fun j s => loopN 4 (rxStep m as z (y + j) x) s) (d, bits)
  pure s.1

/-- One block of `DecompressRXGB`, il_dds.cpp:1648-1754. -/
def rxBlock (m : Img) (comp : List UInt8) (t z y x : Nat) (d : List UInt8) : C (List UInt8) := do
  let a0 ← rd comp t
  let a1 ← rd comp (t + 1)
  let c0 ← word16 comp (t + 8)
  let c1 ← word16 comp (t + 10)
  let bits ← word32 comp (t + 12)
  let a := rxColour c0
  let b := rxColour c1
  let d ← Dxt.putCols m false [a, b, Dxt.third a b, Dxt.fourth a b] bits z y x d
  let as := Dxt.alphas a0.toNat a1.toNat
  let lo ← word32 comp (t + 2)
  let d ← rxRows m as lo z y x d
  let hi ← word32 comp (t + 5)
  rxRows m as hi z (y + 2) x d

/-- `DecompressRXGB`, il_dds.cpp:1630-1758. -/
def decompressRXGB (m : Img) (comp : List UInt8) : C (List UInt8) := (·.1) <$> Dxt.eachBlock m 16 (rxBlock m comp)

/-- `CorrectPreMult` for one component, il_dds.cpp:1912-1914. -/
def divide (c a : UInt8) : UInt8 := UInt8.ofNat ((c.toNat <<< 8) / a.toNat)

/-- `CorrectPreMult`, il_dds.cpp:1906-1919. -/
def correctPreMult (size : Nat) (d : List UInt8) : C (List UInt8) :=
  forStep 0 size 4 (fun i d => do
    let a ← rd d (i + 3)
    if a ≠ 0 then do
      let r ← rd d i
      let d ← wr d i (divide r a)
      let g ← rd d (i + 1)
      let d ← wr d (i + 1) (divide g a)
      let b ← rd d (i + 2)
      wr d (i + 2) (divide b a)
    else pure d) d

/-! ### Wide components -/

/-- The bytes of `1.0f`.  il_dds.cpp:1874-1875. -/
def one : List UInt8 := [0, 0, 0x80, 0x3F]

/-- The bytes of a 32-bit number, il_dds.cpp:1824. -/
def bytes4 (v : Nat) : List UInt8 := [UInt8.ofNat v, UInt8.ofNat (v >>> 8), UInt8.ofNat (v >>> 16), UInt8.ofNat (v >>> 24)]

/-- `dest[i] = halfToFloat(src[j])`, il_dds.cpp:1757-1813, 1824 (`halfToFloat` is the same as `ilHalfToFloat`). -/
def putHalf (comp : List UInt8) (i j : Nat) (d : List UInt8) : C (List UInt8) := do
  let v ← word16 comp (2 * j)
  memcpy d (4 * i) (bytes4 (Half.ilHalfToFloat v)) 0 4

/-- `DecompressFloat`, il_dds.cpp:1866-1903, with the three conversions 1815-1863; `n` is the number of pixels. -/
def decompressFloat (f : PF) (n : Nat) (m : Img) (comp : List UInt8) : C (List UInt8) :=
  match f with
  | .r32f => loopN n (fun p d => do
      let d ← memcpy d (4 * (3 * p)) comp (4 * p) 4
      let d ← memcpy d (4 * (3 * p + 1)) one 0 4
      memcpy d (4 * (3 * p + 2)) one 0 4) m.data
  | .g32f => loopN n (fun p d => do
      let d ← memcpy d (4 * (3 * p)) comp (4 * (2 * p)) 4
      let d ← memcpy d (4 * (3 * p + 1)) comp (4 * (2 * p + 1)) 4
      memcpy d (4 * (3 * p + 2)) one 0 4) m.data
  | .r16f => loopN n (fun p d => do
      let d ← putHalf comp (3 * p) p d
      let d ← memcpy d (4 * (3 * p + 1)) one 0 4
      memcpy d (4 * (3 * p + 2)) one 0 4) m.data
  | .g16f => loopN n (fun p d => do
      let d ← putHalf comp (3 * p) (2 * p) d
      let d ← putHalf comp (3 * p + 1) (2 * p + 1) d
      memcpy d (4 * (3 * p + 2)) one 0 4) m.data
  | .a16f => loopN (4 * n) (fun p d => putHalf comp p p d) m.data
  | _ => memcpy m.data 0 comp 0 m.size

/-- `DdsDecompress`, il_dds.cpp:1011-1067: its result and the pixels.  `w`, `h` and `d` are the globals `Width`, `Height` and `Depth`. -/
def ddsDecompress (h : Hd) (f : PF) (w ht d : Nat) (m : Img) (comp : List UInt8) : C (Bool × List UInt8) :=
  match f with
  | .argb | .rgb | .lum | .lumA => do let p ← decompressARGB h f m comp; pure (true, p)
  | .dxt1 => do let p ← Dxt.DecompressDXT1 m comp; pure (true, p)
  | .dxt2 => do
    let p ← Dxt.DecompressDXT3 m comp
    let p ← correctPreMult m.size p
    pure (true, p)
  | .dxt3 => do let p ← Dxt.DecompressDXT3 m comp; pure (true, p)
  | .dxt4 => do
    let p ← Dxt.DecompressDXT5 m comp
    let p ← correctPreMult m.size p
    pure (false, p)
  | .dxt5 => do let p ← Dxt.DecompressDXT5 m comp; pure (true, p)
  | .ati1n => do let p ← decompressAti1n w ht d m comp; pure (true, p)
  | .threeDc => do let p ← decompress3Dc w ht d m comp; pure (true, p)
  | .rxgb => do let p ← decompressRXGB m comp; pure (true, p)
  | .a16 => do let p ← memcpy m.data 0 comp 0 m.size; pure (true, p)
  | .r16f | .g16f | .a16f | .r32f | .g32f | .a32f => do
    let p ← decompressFloat f (m.width * m.height * m.depth) m comp
    pure (true, p)
  | _ => pure (false, m.data)

/-! ### The loader -/

section
variable {σ : Type} (o : Ops σ) (junk : Nat → UInt8)

/-- `if (Depth == 0) Depth = 1`, il_dds.cpp:1125-1134. -/
def halve (n : Nat) : Nat := if n / 2 = 0 then 1 else n / 2

/-- The state of the loop of `ReadMipmaps`: `Width`, `Height`, `Depth`, `Head.LinearSize`, the mipmaps made so far, the input, whether
it has failed.  il_dds.cpp:1122-1188. -/
structure MipS (σ : Type) where
  w : Nat
  h : Nat
  d : Nat
  linear : Nat
  mips : List Img
  inp : σ
  failed : Bool

/-- `CompFactor`, il_dds.cpp:1092-1112. -/
def factor (f : PF) : Nat :=
  if f = .dxt1 then 8 else if f = .dxt2 ∨ f = .dxt3 ∨ f = .dxt4 ∨ f = .dxt5 then 4 else if f = .rxgb ∨ f = .threeDc then 3
  else if f = .ati1n then 2 else 1

/-- `Head.LinearSize` for the next mipmap, il_dds.cpp:1141-1175. -/
def mipLinear (h : Hd) (f : PF) (w ht d linear : Nat) : Nat :=
  let bpp := if f = .lum ∧ wideLum h then 2 else toBpp h f
  let area := u32 (u32 (w * ht) * d)
  if h.flags1 &&& LINEARSIZE ≠ 0 then
    if f.isFloat ∨ f = .a16 then u32 (area * bpp)
    else if f.isPlain then u32 (area * (h.bits >>> 3))
    else u32 (u32 (u32 ((u32 (w + 3) / 4 * 4) * (u32 (ht + 3) / 4 * 4)) * d) * bpp) / factor f
  else linear >>> 1

/-- The image of a mipmap, il_dds.cpp:1136-1152; `none` is a failure of `ilNewImage`. -/
def mipImage (h : Hd) (f : PF) (w ht d : Nat) : C (Option Img) := do
  let bpc := if f = .lum ∧ wideLum h then 2 else toBpc h f
  match ← ilNewImage junk w ht d (toChannels f) bpc with
  | none => pure none
  | some m =>
    let m := { m with origin := IL_ORIGIN_UPPER_LEFT }
    pure (some (if h.flags1 &&& LINEARSIZE ≠ 0 ∧ f.isFloat then { m with type := IL_FLOAT, bpp := toChannels f } else m))

/-- One mipmap, il_dds.cpp:1123-1187. -/
def mipStep (h : Hd) (f : PF) (r : MipS σ) : C (MipS σ) :=
  if r.failed then pure r
  else do
    let w := halve r.w
    let ht := halve r.h
    let d := halve r.d
    match ← mipImage junk h f w ht d with
    | none => pure { r with failed := true }
    | some m => do
      let linear := mipLinear h f w ht d r.linear
      let (c, s) ← readData o junk { h with linear := linear } false w ht d r.inp
      match c with
      | none => pure { r with inp := s, failed := true }
      | some c => do
        let (ok, p) ← ddsDecompress h f w ht d m c
        if ok then pure ⟨w, ht, d, linear, r.mips ++ [{ m with data := p }], s, false⟩ else pure { r with inp := s, failed := true }

/-- `ReadMipmaps`, il_dds.cpp:1070-1207, for a header that is not DX10: `none` is `IL_FALSE`, and the mipmaps made are freed. -/
def readMipmaps (h : Hd) (f : PF) (w ht d : Nat) (s : σ) : C (Option (List Img) × σ) := do
  let n := if h.flags1 &&& MIPMAPCOUNT = 0 ∨ h.mips = 0 then 1 else h.mips
  let r ← loopN (n - 1) (fun _ r => mipStep o junk h f r) ⟨w, ht, d, h.linear, [], s, false⟩
  if r.failed then pure (none, r.inp) else pure (some r.mips, r.inp)

/-- The correction of the size, il_dds.cpp:451-455. -/
def fixSize (h : Hd) (block : Nat) : Hd :=
  if h.flags1 &&& (LINEARSIZE ||| PITCH) = 0 ∨ h.linear = 0 then { h with flags1 := h.flags1 ||| LINEARSIZE, linear := block } else h

/-- A file with a DX10 header, il_dds.cpp:432-454, 467-512, 186-196; `cur` is the bound image.  There are no mipmaps. -/
def loadDx10 (h : Hd) (block : Nat) (cur : Img) (s : σ) : C (Bool × List Img × σ) := do
  let (e, s) ← head o junk [u32f, u32f, u32f, u32f, u32f] s
  let dxgi := fle e 0
  if dxgi > 132 ∨ fle e 3 > 1 then pure (false, [cur], s)
  else do
    let h := fixSize h block
    let (c, s) ← readData o junk h true h.width h.height h.depth s
    match c with
    | none => pure (false, [cur], s)
    | some c =>
      match dx10Kind h dxgi with
      | none => pure (false, [cur], s)
      | some (k, f, t) => do
        let m := texN junk h.width h.height h.depth k f t
        let p ← memcpy m.data 0 c 0 m.size
        pure (true, [{ m with data := p }], s)

/-- A file with another header, il_dds.cpp:447-512. -/
def loadSurface (h : Hd) (f : PF) (cur : Img) (s : σ) : C (Bool × List Img × σ) := do
  let w := h.width
  let ht := h.height
  let (h, d) := adjustVolume h f false
  let (c, s) ← readData o junk h false w ht d s
  match c with
  | none => pure (false, [cur], s)
  | some c => do
    let (k, fm, t) := imageKind h f
    let m := texN junk w ht d k fm t
    let (ok, p) ← ddsDecompress h f w ht d m c
    let m := { m with data := p }
    if ok then do
      let (ms, s) ← readMipmaps o junk h f w ht d s
      match ms with
      | none => pure (false, [m], s)
      | some ms => pure (true, m :: ms, s)
    else pure (false, [m], s)

/-- `iLoadDdsInternal`, il_dds.cpp:403-512: its result, the bound image followed by its mipmaps, and the input.  Cube maps
(`iLoadDdsCubemapInternal`, 312-400) are not modelled: `cube` stands for what is done with them. -/
def iLoadDdsInternal (cube : Hd → σ → C (Bool × List Img × σ)) (cur : Img) (s : σ) : C (Bool × List Img × σ) := do
  let (f, s) ← head o junk headFields s
  if !iCheckDds f then pure (false, [cur], s)
  else
    let h := hd f
    let (pf, block) := decodePixelFormat h
    if pf = .unknown then pure (false, [cur], s)
    else if h.caps1 &&& 8 ≠ 0 ∧ h.caps2 &&& 0x200 ≠ 0 then cube h s
    else if pf = .dx10 then loadDx10 o junk h block cur s
    else loadSurface o junk (fixSize h block) pf cur s

end

end DevIL.Dds
