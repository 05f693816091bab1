import Verif.Buf
import Verif.Model.Enums
import Verif.Model.Image
/-! Block-compressed (DXT) image data: decoding, flipping and inverting it (`il_dds.cpp`).  Block pointers are offsets into the compressed data. -/
set_option autoImplicit false
namespace DevIL.Dxt
open DevIL.Image

/-- `Color8888`, include/IL/il_dds.h; the components are numbers below 256.  il_dds.h:73-79. -/
structure Col where
  r : Nat
  g : Nat
  b : Nat
  a : Nat
  deriving DecidableEq

/-- `DxtcReadColor`, il_dds.cpp:1243-1254.  The blue component ends with bits of red. -/
def readColor (d : Nat) : Col :=
  let b := d &&& 0x1F
  let g := (d &&& 0x7E0) >>> 5
  let r := (d &&& 0xF800) >>> 11
  ⟨r <<< 3 ||| r >>> 2, g <<< 2 ||| g >>> 3, b <<< 3 ||| r >>> 2, 255⟩

/-- One colour of `DxtcReadColors`, il_dds.cpp:1221-1240, from its two bytes. -/
def readBytes (d0 d1 : Nat) : Col :=
  let b := d0 &&& 0x1F
  let g := (d0 &&& 0xE0) >>> 5 ||| (d1 &&& 7) <<< 3
  let r := (d1 &&& 0xF8) >>> 3
  ⟨r <<< 3 ||| r >>> 2, g <<< 2 ||| g >>> 3, b <<< 3 ||| b >>> 2, 255⟩

/-- `colours[2]`, `colours[3]` of a block with four colours, il_dds.cpp:2727-2738, 1301-1310. -/
def third (c0 c1 : Col) : Col := ⟨(2 * c0.r + c1.r + 1) / 3, (2 * c0.g + c1.g + 1) / 3, (2 * c0.b + c1.b + 1) / 3, 255⟩
/-- The same for `colours[3]`, il_dds.cpp:2733-2738, 1306-1310. -/
def fourth (c0 c1 : Col) : Col := ⟨(c0.r + 2 * c1.r + 1) / 3, (c0.g + 2 * c1.g + 1) / 3, (c0.b + 2 * c1.b + 1) / 3, 255⟩

/-- `colours[2]` of a block with three colours, il_dds.cpp:2746-2749. -/
def middle (c0 c1 : Col) : Col := ⟨(c0.r + c1.r) / 2, (c0.g + c1.g) / 2, (c0.b + c1.b) / 2, 255⟩

/-- A little-endian 16-bit number, il_dds.cpp:2715-2718: read as the host reads and swapped if the host is big-endian. -/
def word16 (comp : List UInt8) (t : Nat) : C Nat := do
  let a ← rd comp t
  let b ← rd comp (t + 1)
  pure (a.toNat + 256 * b.toNat)

/-- A little-endian 24-bit number, il_dds.cpp:1444. -/
def word24 (comp : List UInt8) (t : Nat) : C Nat := do
  let a ← rd comp t
  let b ← rd comp (t + 1)
  let c ← rd comp (t + 2)
  pure (a.toNat + 256 * b.toNat + 65536 * c.toNat)

/-- A little-endian 32-bit number, il_dds.cpp:2721-2722. -/
def word32 (comp : List UInt8) (t : Nat) : C Nat := do
  let a ← word16 comp t
  let b ← word16 comp (t + 2)
  pure (a + 65536 * b)

/-- `lImage->Data[z * SizeOfPlane + y * Bps + x * Bpp + c] = v`.  il_dds.cpp:2759-2763. -/
def put (m : Img) (z y x c v : Nat) (d : List UInt8) : C (List UInt8) :=
  wr d (u32 (z * m.plane + y * m.bps + x * m.bpp + c)) (UInt8.ofNat v)

/-- `Select`, il_dds.cpp:2755. -/
def select (bitmask k : Nat) : Nat := (bitmask &&& (3 <<< (k * 2))) >>> (k * 2)

/-- Storing a colour, il_dds.cpp:2760-2763, and 1325-1327, where the alpha is left alone. -/
def putCol (m : Img) (withA : Bool) (z y x : Nat) (c : Col) (d : List UInt8) : C (List UInt8) := do
  let d ← put m z y x 0 c.r d
  let d ← put m z y x 1 c.g d
  let d ← put m z y x 2 c.b d
  if withA then put m z y x 3 c.a d else pure d

/-- The colours of the pixels of a block, il_dds.cpp:2753-2766 and 1315-1330; `k` is `4 * j + i`. -/
def putCols (m : Img) (withA : Bool) (cols : List Col) (bitmask z y x : Nat) (d : List UInt8) : C (List UInt8) :=
  loopN 4 (fun j d => loopN 4 (fun i d => do
    let c ← rd cols (select bitmask (4 * j + i))
    if x + i < m.width ∧ y + j < m.height then putCol m withA z (y + j) (x + i) c d else pure d) d) d

/-- One block of `DecompressDXT1`, il_dds.cpp:2715-2769. -/
def block1 (m : Img) (comp : List UInt8) (t z y x : Nat) (d : List UInt8) : C (List UInt8) := do
  let c0 ← word16 comp t
  let c1 ← word16 comp (t + 2)
  let bits ← word32 comp (t + 4)
  let a := readColor c0
  let b := readColor c1
  putCols m true (if c0 > c1 then [a, b, third a b, fourth a b] else [a, b, middle a b, { fourth a b with a := 0 }]) bits z y x d

/-- The four colours of a DXT3 or DXT5 block, il_dds.cpp:1294-1330, 1381-1415; `t` points to the colours. -/
def colours (m : Img) (comp : List UInt8) (t z y x : Nat) (d : List UInt8) : C (List UInt8) := do
  let a0 ← rd comp t
  let a1 ← rd comp (t + 1)
  let b0 ← rd comp (t + 2)
  let b1 ← rd comp (t + 3)
  let bits ← word32 comp (t + 4)
  let a := readBytes a0.toNat a1.toNat
  let b := readBytes b0.toNat b1.toNat
  putCols m false [a, b, third a b, fourth a b] bits z y x d

/-- A pixel of a row of alphas, il_dds.cpp:1335-1340, with the remaining bits `word`. -/
def alpha3Step (m : Img) (z y x i : Nat) (s : List UInt8 × Nat) : C (List UInt8 × Nat) := do
  let d ← (if x + i < m.width ∧ y < m.height then do
      let d ← put m z y (x + i) 3 (s.2 &&& 15) s.1
      let v ← rd d (u32 (z * m.plane + y * m.bps + (x + i) * m.bpp + 3))
      put m z y (x + i) 3 (v.toNat ||| v.toNat <<< 4) d
    else pure s.1)
  pure (d, s.2 >>> 4)

/-- The alphas of a DXT3 block, il_dds.cpp:1332-1342. -/
def alpha3 (m : Img) (comp : List UInt8) (t z y x : Nat) (d : List UInt8) : C (List UInt8) :=
  loopN 4 (fun j d => do
    let w ← word16 comp (t + 2 * j)
    let s ← loopN 4 (alpha3Step m z (y + j) x) (d, w)
    pure s.1) d

/-- One block of `DecompressDXT3`, il_dds.cpp:1291-1342. -/
def block3 (m : Img) (comp : List UInt8) (t z y x : Nat) (d : List UInt8) : C (List UInt8) := do
  let d ← colours m comp (t + 8) z y x d
  alpha3 m comp t z y x d

/-- The eight alphas of a DXT5 block, il_dds.cpp:1418-1440. -/
def alphas (a0 a1 : Nat) : List Nat :=
  if a0 > a1 then [a0, a1, (6 * a0 + a1 + 3) / 7, (5 * a0 + 2 * a1 + 3) / 7, (4 * a0 + 3 * a1 + 3) / 7, (3 * a0 + 4 * a1 + 3) / 7,
    (2 * a0 + 5 * a1 + 3) / 7, (a0 + 6 * a1 + 3) / 7]
  else [a0, a1, (4 * a0 + a1 + 2) / 5, (3 * a0 + 2 * a1 + 2) / 5, (2 * a0 + 3 * a1 + 2) / 5, (a0 + 4 * a1 + 2) / 5, 0, 255]

/-- A pixel of two rows of alphas, il_dds.cpp:1447-1453, with the remaining bits. -/
def alpha5Step (m : Img) (as : List Nat) (z y x i : Nat) (s : List UInt8 × Nat) : C (List UInt8 × Nat) := do
  let d ← (if x + i < m.width ∧ y < m.height then do
      let a ← rd as (s.2 &&& 7)
      put m z y (x + i) 3 a s.1
    else pure s.1)
  pure (d, s.2 >>> 3)

/-- Two rows of alphas, il_dds.cpp:1445-1454, 1460-1469. -/
def alpha5Rows (m : Img) (as : List Nat) (bits z y x : Nat) (d : List UInt8) : C (List UInt8) := do
  let s ← loopN 2 (fun j s => loopN 4 (alpha5Step m as z (y + j) x) s) (d, bits)
  pure s.1

/-- One block of `DecompressDXT5`, il_dds.cpp:1375-1469.  (The tests of 1375-1376 are always false.) -/
def block5 (m : Img) (comp : List UInt8) (t z y x : Nat) (d : List UInt8) : C (List UInt8) := do
  let a0 ← rd comp t
  let a1 ← rd comp (t + 1)
  let d ← colours m comp (t + 8) z y x d
  let as := alphas a0.toNat a1.toNat
  let lo ← word24 comp (t + 2)
  let d ← alpha5Rows m as lo z y x d
  let hi ← word24 comp (t + 5)
  alpha5Rows m as hi z (y + 2) x d

/-- The loops over the blocks of an image, il_dds.cpp:2712-2714, 1287-1289, 1372-1374, with the pointer `Temp`.  The loop variables are taken
not to wrap. -/
def eachBlock (m : Img) (size : Nat) (f : Nat → Nat → Nat → Nat → List UInt8 → C (List UInt8)) : C (List UInt8 × Nat) :=
  loopN m.depth (fun z s => forStep 0 m.height 4 (fun y s => forStep 0 m.width 4 (fun x s => do
    let d ← f s.2 z y x s.1
    pure (d, s.2 + size)) s) s) (m.data, 0)

/-- `DecompressDXT1`, il_dds.cpp:2692-2774. -/
def DecompressDXT1 (m : Img) (comp : List UInt8) : C (List UInt8) := (·.1) <$> eachBlock m 8 (block1 m comp)
/-- `DecompressDXT3`, il_dds.cpp:1273-1343. -/
def DecompressDXT3 (m : Img) (comp : List UInt8) : C (List UInt8) := (·.1) <$> eachBlock m 16 (block3 m comp)
/-- `DecompressDXT5`, il_dds.cpp:1358-1474. -/
def DecompressDXT5 (m : Img) (comp : List UInt8) : C (List UInt8) := (·.1) <$> eachBlock m 16 (block5 m comp)

/-- An image with compressed data: `DxtcFormat` and `DxtcData`; `DxtcSize` is the length of that block.  devil_internal_exports.h:87-89. -/
structure Surface where
  img : Img
  fmt : Nat
  comp : List UInt8
  deriving DecidableEq

/-- `DdsDecompress` for the three formats, il_dds.cpp:1011-1041. -/
def DdsDecompress (m : Img) (fmt : Nat) (comp : List UInt8) : C (List UInt8) :=
  if fmt = IL_DXT1 then DecompressDXT1 m comp else if fmt = IL_DXT3 then DecompressDXT3 m comp else DecompressDXT5 m comp

/-- The image `ilDxtcDataToSurface` decodes into, il_dds.cpp:2210-2228: the block is kept if its size fits. -/
def target (junk : Nat → UInt8) (m : Img) : Img :=
  let bps := u32 (m.width * 4)
  let plane := u32 (m.height * bps)
  let size := u32 (plane * m.depth)
  let data := if m.size ≠ size ∨ m.data = [] then alloc junk size else m.data
  { m with bpp := 4, bpc := 1, bps := bps, plane := plane, size := size, format := IL_RGBA, type := IL_UNSIGNED_BYTE, data := data }

/-- `ilDxtcDataToSurface`, il_dds.cpp:2192-2244: `false` if there is no compressed data or its format is another.  `ilFixCur` is left out. -/
def ilDxtcDataToSurface (junk : Nat → UInt8) (s : Surface) : C (Bool × Surface) :=
  if s.comp = [] then pure (false, s)
  else if ¬ (s.fmt = IL_DXT1 ∨ s.fmt = IL_DXT3 ∨ s.fmt = IL_DXT5) then pure (false, s)
  else do
    let d ← DdsDecompress (target junk s.img) s.fmt s.comp
    pure (true, { s with img := { target junk s.img with data := d, origin := IL_ORIGIN_UPPER_LEFT } })

/-- `ilTexImageDxtc`, il_dds.cpp:2332-2400, for dimensions that are not negative and a block of data; `DataSize` is an `ILint`, and memory is
always available.  The image that was there before is freed; only the new one is modelled. -/
def ilTexImageDxtc (w h d fmt : Nat) (data : List UInt8) : C Surface :=
  let size := (h + 3) / 4 * ((w + 3) / 4 * (if fmt = IL_DXT1 then 8 else 16)) * d
  if w + 3 ≥ 2147483648 ∨ h + 3 ≥ 2147483648 ∨ size ≥ 2147483648 then .error .overflow
  else if data.length < size then .error .oobRead
  else pure ⟨⟨w, h, d, 0, 0, 0, 0, 0, 0, 0, IL_ORIGIN_LOWER_LEFT, []⟩, fmt, data.take size⟩

/-! ### Flipping -/

/-- `tmp = data[i]; data[i] = data[j]; data[j] = tmp`.  il_dds.cpp:2409-2415. -/
def swap2 (i j : Nat) (d : List UInt8) : C (List UInt8) := do
  let a ← rd d i
  let b ← rd d j
  let d ← wr d i b
  wr d j a

/-- `iFlipColorBlock`, il_dds.cpp:2405-2416. -/
def iFlipColorBlock (p : Nat) (d : List UInt8) : C (List UInt8) := do
  let d ← swap2 (p + 4) (p + 7) d
  swap2 (p + 5) (p + 6) d

/-- Exchanging two `ILushort`s.  il_dds.cpp:2422-2428. -/
def swapShort (i j : Nat) (d : List UInt8) : C (List UInt8) := do
  let d ← swap2 i j d
  swap2 (i + 1) (j + 1) d

/-- `iFlipSimpleAlphaBlock`, il_dds.cpp:2418-2429. -/
def iFlipSimpleAlphaBlock (p : Nat) (d : List UInt8) : C (List UInt8) := do
  let d ← swapShort p (p + 6) d
  swapShort (p + 2) (p + 4) d

/-- `iComplexAlphaHelper`, il_dds.cpp:2431-2443. -/
def iComplexAlphaHelper (p : Nat) (d : List UInt8) : C (List UInt8) := do
  let a ← rd d p
  let b ← rd d (p + 1)
  let c ← rd d (p + 2)
  let t0 := (a.toNat ||| b.toNat <<< 8) &&& 0xfff
  let t1 := (b.toNat >>> 4 ||| c.toNat <<< 4) &&& 0xfff
  let d ← wr d p (UInt8.ofNat t1)
  let d ← wr d (p + 1) (UInt8.ofNat (t1 >>> 8 ||| t0 <<< 4))
  wr d (p + 2) (UInt8.ofNat (t0 >>> 4))

/-- `iFlipComplexAlphaBlock`, il_dds.cpp:2445-2458; the three `memcpy`s exchange three bytes. -/
def iFlipComplexAlphaBlock (p : Nat) (d : List UInt8) : C (List UInt8) := do
  let d ← swap2 (p + 2) (p + 5) d
  let d ← swap2 (p + 3) (p + 6) d
  let d ← swap2 (p + 4) (p + 7) d
  let d ← iComplexAlphaHelper (p + 2) d
  iComplexAlphaHelper (p + 5) d

/-- One block of `iFlipDxt1`, `iFlipDxt3`, `iFlipDxt5`, il_dds.cpp:2460-2488. -/
def flipBlock (fmt p : Nat) (d : List UInt8) : C (List UInt8) :=
  if fmt = IL_DXT1 then iFlipColorBlock p d
  else if fmt = IL_DXT3 then do
    let d ← iFlipSimpleAlphaBlock p d
    iFlipColorBlock (p + 8) d
  else do
    let d ← iFlipComplexAlphaBlock p d
    iFlipColorBlock (p + 8) d

/-- `BlockSize`, il_dds.cpp:2519-2541. -/
def blockSize (fmt : Nat) : Nat := if fmt = IL_DXT1 then 8 else 16

/-- `FlipBlocks(data, count)`.  il_dds.cpp:2460-2488, 2561-2562. -/
def flipBlocks (fmt p n : Nat) (d : List UInt8) : C (List UInt8) := loopN n (fun i d => flipBlock fmt (p + i * blockSize fmt) d) d

/-- Exchanging two rows of blocks, il_dds.cpp:2556-2558. -/
def swapRows (junk : Nat → UInt8) (line top bottom : Nat) (d : List UInt8) : C (List UInt8) := do
  let t ← memcpy (alloc junk line) 0 d top line
  let d ← memcpy d top d bottom line
  memcpy d bottom t 0 line

/-- A slice, il_dds.cpp:2549-2572: `Top` is `r + y * LineSize` and `Bottom` is `r + (numYBlocks - 1 - y) * LineSize`. -/
def flipSlice (junk : Nat → UInt8) (fmt nx ny r : Nat) (d : List UInt8) : C (List UInt8) := do
  let line := nx * blockSize fmt
  let d ← loopN (ny / 2) (fun y d => do
    let top := r + y * line
    let bottom := r + (ny - 1 - y) * line
    let d ← swapRows junk line top bottom d
    let d ← flipBlocks fmt top nx d
    flipBlocks fmt bottom nx d) d
  if ny % 2 ≠ 0 then flipBlocks fmt (r + ny / 2 * line) nx d else pure d

/-- `ilFlipSurfaceDxtcData`, il_dds.cpp:2501-2576, for `IL_DXT1`, `IL_DXT3` and `IL_DXT5`; any other format is left alone here (the code also
knows four more). -/
def ilFlipSurfaceDxtcData (junk : Nat → UInt8) (s : Surface) : C Surface :=
  if s.comp = [] then pure s
  else if ¬ (s.fmt = IL_DXT1 ∨ s.fmt = IL_DXT3 ∨ s.fmt = IL_DXT5) then pure s
  else do
    let nx := (s.img.width + 3) / 4
    let ny := (s.img.height + 3) / 4
    let d ← loopN s.img.depth (fun z d => flipSlice junk s.fmt nx ny (z * (nx * blockSize s.fmt * ny)) d) s.comp
    pure { s with comp := d }

/-! ### Inverting -/

/-- `iInvertDxt3Alpha`, il_dds.cpp:2581-2600. -/
def iInvertDxt3Alpha (p : Nat) (d : List UInt8) : C (List UInt8) :=
  loopN 8 (fun i d => do
    let v ← rd d (p + i)
    wr d (p + i) (~~~ v)) d

/-- `map1`, `map2`, il_dds.cpp:2606-2607. -/
def map1 : List Nat := [1, 0, 7, 6, 5, 4, 3, 2]
/-- il_dds.cpp:2607. -/
def map2 : List Nat := [1, 0, 5, 4, 3, 2, 7, 6]

/-- `out` after the loop of il_dds.cpp:2628-2638; `j` is `3 * i`. -/
def newBits (more : Bool) (w : Nat) : C Nat :=
  loopN 8 (fun i out => do
    let b ← rd (if more then map1 else map2) ((w >>> (3 * i)) &&& 7)
    pure (out ||| b <<< (3 * i))) 0

/-- Three bytes of indices, il_dds.cpp:2624-2642. -/
def newIndices (more : Bool) (p : Nat) (d : List UInt8) : C (List UInt8) := do
  let w ← word24 d p
  let o ← newBits more w
  let d ← wr d p (UInt8.ofNat o)
  let d ← wr d (p + 1) (UInt8.ofNat (o >>> 8))
  wr d (p + 2) (UInt8.ofNat (o >>> 16))

/-- `iInvertDxt5Alpha`, il_dds.cpp:2602-2643. -/
def iInvertDxt5Alpha (p : Nat) (d : List UInt8) : C (List UInt8) := do
  let a0 ← rd d p
  let a1 ← rd d (p + 1)
  let d ← wr d p (255 - a1)
  let d ← wr d (p + 1) (255 - a0)
  let d ← newIndices (decide (a0 > a1)) (p + 2) d
  newIndices (decide (a0 > a1)) (p + 5) d

/-- `ilInvertSurfaceDxtcDataAlpha`, il_dds.cpp:2645-2688.  The number of blocks is taken to fit an `ILint`. -/
def ilInvertSurfaceDxtcDataAlpha (s : Surface) : C (Bool × Surface) :=
  if s.comp = [] then pure (false, s)
  else if ¬ (s.fmt = IL_DXT3 ∨ s.fmt = IL_DXT5) then pure (false, s)
  else do
    let n := (s.img.width + 3) / 4 * ((s.img.height + 3) / 4) * s.img.depth
    let d ← loopN n (fun i d => if s.fmt = IL_DXT3 then iInvertDxt3Alpha (i * 16) d else iInvertDxt5Alpha (i * 16) d) s.comp
    pure (true, { s with comp := d })

end DevIL.Dxt
