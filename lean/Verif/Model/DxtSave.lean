import Verif.Model.Dxt
import Verif.Model.ConvImage
import Verif.Model.Manip
import Verif.Model.Bmp
import Verif.Model.SaveL
/-! Compressing an image to DXT blocks (`il_dds-save.cpp`).  nVidia's and libsquish's compressors, which are optional, are not built in.  Modelled
for images of unsigned bytes that are not indexed: any other image is first converted by `iConvertImage` (il_dds-save.cpp:388-392, 481-485,
552-556), which is modelled in `Model/ConvImage.lean` and not composed here.  Memory is always available.  `big` tells a big-endian host. -/
set_option autoImplicit false
namespace DevIL.DxtSave
open DevIL.Image DevIL.Lump DevIL.Dxt DevIL.ConvImage DevIL.Manip DevIL.SaveL

/-- `Mul8Bit`, il_dds-save.cpp:370-374. -/
def Mul8Bit (a b : Nat) : Nat :=
  let t := a * b + 128
  (t + t >>> 8) >>> 8

/-- `As16Bit`, il_dds-save.cpp:376-379; the result is converted to an `ILushort`. -/
def As16Bit (r g b : Nat) : Nat := ((Mul8Bit r 31 <<< 11) + (Mul8Bit g 63 <<< 5) + Mul8Bit b 31) % 65536

/-- The step of the loops of `CompressTo565` and where they find red, green and blue, il_dds-save.cpp:406-466; `none` for `IL_ALPHA` and
anything else. -/
def layout (format : Nat) : Option (Nat × Nat × Nat × Nat) :=
  if format = IL_RGB then some (3, 0, 1, 2)
  else if format = IL_RGBA then some (4, 0, 1, 2)
  else if format = IL_BGR then some (3, 2, 1, 0)
  else if format = IL_BGRA then some (4, 2, 1, 0)
  else if format = IL_LUMINANCE then some (1, 0, 0, 0)
  else if format = IL_LUMINANCE_ALPHA then some (2, 0, 0, 0)
  else none

/-- `CompressTo565`, il_dds-save.cpp:382-472: `for (i = 0, j = 0; i < SizeOfData; i += k, j++)`.  The array has a value for each pixel. -/
def CompressTo565 (junk : Nat → Nat) (m : Img) : C (List Nat) :=
  let n := u32 (m.width * m.height * 2 * m.depth) / 2
  match layout m.format with
  | some (k, r, g, b) =>
    loopN ((m.size + (k - 1)) / k) (fun j d => do
      let r ← rd m.data (j * k + r)
      let g ← rd m.data (j * k + g)
      let b ← rd m.data (j * k + b)
      wr d j (As16Bit r.toNat g.toNat b.toNat)) (alloc junk n)
  | none => pure (if m.format = IL_ALPHA then List.replicate n 0 else alloc junk n)

/-- One pixel of `CompressToRXGB`, il_dds-save.cpp:577-579. -/
def xgb (g b : Nat) : Nat := g >>> 2 <<< 5 ||| b >>> 3

/-- `CompressToRXGB`, il_dds-save.cpp:542-626: the 16-bit values and the bytes for the alphas. -/
def CompressToRXGB (junk : Nat → Nat) (junk8 : Nat → UInt8) (m : Img) : C (List Nat × List UInt8) :=
  let n := u32 (m.width * m.height * 2 * m.depth) / 2
  let n8 := u32 (m.width * m.height * m.depth)
  match layout m.format with
  | some (k, r, g, b) =>
    loopN ((m.size + (k - 1)) / k) (fun j s => do
      let r ← rd m.data (j * k + r)
      let a ← wr s.2 j r
      let g ← rd m.data (j * k + g)
      let b ← rd m.data (j * k + b)
      let d ← wr s.1 j (xgb g.toNat b.toNat)
      pure (d, a)) (alloc junk n, alloc junk8 n8)
  | none => pure (alloc junk n, alloc junk8 n8)

/-- `CompressTo88`, il_dds-save.cpp:475-540: green and red of each pixel; the loop for luminance (528-533) runs over the bytes, not the pixels. -/
def CompressTo88 (junk : Nat → UInt8) (m : Img) : C (List UInt8) :=
  let d := alloc junk (u32 (m.width * m.height * 2 * m.depth))
  if m.format = IL_LUMINANCE ∨ m.format = IL_LUMINANCE_ALPHA then
    loopN m.size (fun i d => do
      let d ← wr d (2 * i + 1) 0
      wr d (2 * i) 0) d
  else match layout m.format with
  | some (k, r, g, _) =>
    loopN ((m.size + (k - 1)) / k) (fun j d => do
      let g ← rd m.data (j * k + g)
      let d ← wr d (2 * j) g
      let r ← rd m.data (j * k + r)
      wr d (2 * j + 1) r) d
  | none => pure d

/-- `GetBlock`, il_dds-save.cpp:919-938, and `GetAlphaBlock`, 941-960: `base` is where the slice starts in `data`. -/
def GetBlock {β : Type} (data : List β) (base w h xp yp : Nat) : C (List β) := do
  let s ← loopN 4 (fun y s => do
    let blk ← loopN 4 (fun x blk => do
      let v ← rd data (base + (if xp + x < w ∧ yp + y < h then s.2 + x else s.2))
      pure (blk ++ [v])) s.1
    pure (blk, if yp + y + 1 < h then s.2 + w else s.2)) (([] : List β), yp * w + xp)
  pure s.1

/-- `Get3DcBlock`, il_dds-save.cpp:962-977. -/
def Get3DcBlock (data : List UInt8) (base w h xp yp channel : Nat) : C (List UInt8) := do
  let s ← loopN 4 (fun y s => do
    let blk ← loopN 4 (fun x blk => do
      let v ← rd data (base + (if x < w ∧ y < h then s.2 + 2 * x else s.2))
      pure (blk ++ [v])) s.1
    pure (blk, s.2 + 2 * w)) (([] : List UInt8), 2 * (yp * w + xp) + channel)
  pure s.1

/-- `Color888`, include/il_dds.h:82-87. -/
structure C888 where
  r : Nat
  g : Nat
  b : Nat
  deriving DecidableEq

/-- `ShortToColor888`, il_dds-save.cpp:989-995. -/
def ShortToColor888 (p : Nat) : C888 := ⟨(p &&& 0xF800) >>> 11 <<< 3, (p &&& 0x07E0) >>> 5 <<< 2, (p &&& 0x001F) <<< 3⟩

/-- The square of the difference of two bytes, as the `int` arithmetic of il_dds-save.cpp:1154-1156 gives it. -/
def sq (a b : Nat) : Nat := (a - b + (b - a)) * (a - b + (b - a))

/-- `Distance`, il_dds-save.cpp:1152-1157. -/
def Distance (c d : C888) : Nat := sq c.r d.r + sq c.g d.g + sq c.b d.b

/-- The loop that finds the closest entry, il_dds-save.cpp:1049-1062, 1104-1111: the first `j < n` at which `d` is least.  The distances are
below `UINT_MAX`. -/
def closest (n : Nat) (d : Nat → Nat) : Nat :=
  ((List.range n).foldl (fun s j => if d j < s.1 then (d j, j) else s) (4294967295, 0)).2

/-- `Colours`, il_dds-save.cpp:1016-1034. -/
def palette (ex0 ex1 cols : Nat) : List C888 :=
  let a := ShortToColor888 ex0
  let b := ShortToColor888 ex1
  if cols = 3 then
    let c : C888 := ⟨(a.r + b.r) / 2, (a.g + b.g) / 2, (a.b + b.b) / 2⟩
    [a, b, c, c]
  else [a, b, ⟨(2 * a.r + b.r + 1) / 3, (2 * a.g + b.g + 1) / 3, (2 * a.b + b.b + 1) / 3⟩,
    ⟨(a.r + 2 * b.r + 1) / 3, (a.g + 2 * b.g + 1) / 3, (a.b + 2 * b.b + 1) / 3⟩]

/-- `Mask[i]`, il_dds-save.cpp:1036-1063; `alpha` is given for a block with transparent pixels. -/
def maskOf (ex0 ex1 cols v : Nat) (alpha : Option UInt8) : Nat :=
  match alpha with
  | some a => if a < 128 then 3 else closest cols (fun j => Distance (ShortToColor888 v) ((palette ex0 ex1 cols).getD j ⟨0, 0, 0⟩))
  | none => closest cols (fun j => Distance (ShortToColor888 v) ((palette ex0 ex1 cols).getD j ⟨0, 0, 0⟩))

/-- `GenBitMask`, il_dds-save.cpp:1010-1070, without the output array, which is never asked for.  `Mask[i] << (i*2)` is an `int` and the last
may set the sign bit; the bits are those of the `ILuint`. -/
def GenBitMask (ex0 ex1 cols : Nat) (blk : List Nat) (alpha : Option (List UInt8)) : Nat :=
  (List.range 16).foldl (fun bits i => bits ||| maskOf ex0 ex1 cols (blk.getD i 0) (alpha.map (·.getD i 0)) <<< (i * 2)) 0

/-- `M[i]`, il_dds-save.cpp:1103-1112: the alphas are computed as in the decoder. -/
def alphaMask (a0 a1 : Nat) (v : UInt8) : Nat :=
  closest 8 (fun j => v.toNat - (alphas a0 a1).getD j 0 + ((alphas a0 a1).getD j 0 - v.toNat))

/-- `Mask` of `GenAlphaBitMask`, il_dds-save.cpp:1073-1133. -/
def GenAlphaBitMask (a0 a1 : Nat) (blk : List UInt8) : List UInt8 :=
  let M := fun i => alphaMask a0 a1 (blk.getD i 0)
  [ M 0 ||| M 1 <<< 3 ||| (M 2 &&& 3) <<< 6,
    (M 2 &&& 4) >>> 2 ||| M 3 <<< 1 ||| M 4 <<< 4 ||| (M 5 &&& 1) <<< 7,
    (M 5 &&& 6) >>> 1 ||| M 6 <<< 2 ||| M 7 <<< 5,
    M 8 ||| M 9 <<< 3 ||| (M 10 &&& 3) <<< 6,
    (M 10 &&& 4) >>> 2 ||| M 11 <<< 1 ||| M 12 <<< 4 ||| (M 13 &&& 1) <<< 7,
    (M 13 &&& 6) >>> 1 ||| M 14 <<< 2 ||| M 15 <<< 5 ].map UInt8.ofNat

/-- `NormSquared`, il_dds-save.cpp:1160. -/
def NormSquared (c : C888) : Nat := c.r * c.r + c.g * c.g + c.b * c.b

/-- `ChooseEndpoints`, il_dds-save.cpp:1162-1178: `ex0`, the colour of the highest norm, and `ex1`, that of the lowest. -/
def ChooseEndpoints (blk : List Nat) : Nat × Nat :=
  let norm := fun i => NormSquared (ShortToColor888 (blk.getD i 0))
  let s := (List.range 16).foldl (fun s i => (if norm i > norm s.1 then i else s.1, if norm i < norm s.2 then i else s.2)) (0, 0)
  (blk.getD s.1 0, blk.getD s.2 0)

/-- `ChooseAlphaEndpoints`, il_dds-save.cpp:1184-1197: the lowest and the highest. -/
def ChooseAlphaEndpoints (blk : List UInt8) : UInt8 × UInt8 :=
  (List.range 16).foldl (fun s i => (if blk.getD i 0 < s.1 then blk.getD i 0 else s.1, if blk.getD i 0 > s.2 then blk.getD i 0 else s.2)) (255, 0)

/-- `CorrectEndDXT1`, il_dds-save.cpp:1200-1220. -/
def CorrectEndDXT1 (e : Nat × Nat) (hasAlpha : Bool) : Nat × Nat :=
  if hasAlpha then (if e.1 > e.2 then (e.2, e.1) else e) else (if e.1 < e.2 then (e.2, e.1) else e)

/-- What is written for the alphas of a block, il_dds-save.cpp:649-653, 689-693, 876-889. -/
def alphaOps (blk : List UInt8) : List WOp :=
  let e := ChooseAlphaEndpoints blk
  [.putc e.1, .putc e.2, .write (GenAlphaBitMask e.1.toNat e.2.toNat blk) 1 6]

/-- What is written for the colours of a block, e.g. il_dds-save.cpp:857-860. -/
def colourOps (big : Bool) (e : Nat × Nat) (bits : Nat) : List WOp := [Bmp.short big e.1, Bmp.short big e.2, Bmp.int big bits]

/-- A block of `IL_DXT1`, il_dds-save.cpp:796-814. -/
def ops1 (big : Bool) (blk : List Nat) (al : List UInt8) : List WOp :=
  let hasAlpha := (List.range 16).any (fun i => decide (al.getD i 0 < 128))
  let e := CorrectEndDXT1 (ChooseEndpoints blk) hasAlpha
  colourOps big e (if hasAlpha then GenBitMask e.1 e.2 3 blk (some al) else GenBitMask e.1 e.2 4 blk none)

/-- The colours of a block of `IL_DXT3`, `IL_DXT5` and `IL_RXGB`, il_dds-save.cpp:852-860, 891-899. -/
def opsC (big : Bool) (blk : List Nat) : List WOp :=
  let t := ChooseEndpoints blk
  let e := CorrectEndDXT1 (max t.1 t.2, min t.1 t.2) false
  colourOps big e (GenBitMask e.1 e.2 4 blk none)

/-- A block of `IL_DXT3`, il_dds-save.cpp:847-860. -/
def ops3 (big : Bool) (blk : List Nat) (al : List UInt8) : List WOp :=
  (List.range 8).map (fun i => WOp.putc (UInt8.ofNat ((al.getD (2 * i + 1) 0).toNat >>> 4 <<< 4 ||| (al.getD (2 * i) 0).toNat >>> 4))) ++ opsC big blk

/-- A block of `IL_DXT5` and `IL_RXGB`, il_dds-save.cpp:875-899. -/
def ops5 (big : Bool) (blk : List Nat) (al : List UInt8) : List WOp := alphaOps al ++ opsC big blk

/-- The loops over the blocks of `Compress`, e.g. il_dds-save.cpp:844-846; `f z y x` is what is written for one block.  The loop variables are
taken not to wrap. -/
def eachBlk (m : Img) (f : Nat → Nat → Nat → C (List WOp)) : C (List WOp) :=
  loopN m.depth (fun z s => forStep 0 m.height 4 (fun y s => forStep 0 m.width 4 (fun x s => do
    let o ← f z y x
    pure (s ++ o)) s) s) []

/-- `Count`: the number of blocks times the bytes of one, e.g. il_dds-save.cpp:861. -/
def count (m : Img) (n : Nat) : Nat := u32 (m.depth * ((m.height + 3) / 4) * ((m.width + 3) / 4) * n)

/-- Everything `Compress` needs of memory that has not been set: for the 16-bit values and for bytes.  il_dds-save.cpp:398, 562-563. -/
structure Mem where
  words : Nat → Nat
  bytes : Nat → UInt8

/-- A block of 16-bit values and one of bytes at a position of slice `z`, il_dds-save.cpp:796, 805, 819-820. -/
def both (data : List Nat) (al : List UInt8) (m : Img) (z y x : Nat) : C (List UInt8 × List Nat) := do
  let a ← GetBlock al (z * (m.width * m.height)) m.width m.height x y
  let b ← GetBlock data (z * (m.width * m.height)) m.width m.height x y
  pure (a, b)

/-- `Compress`, il_dds-save.cpp:629-915: what it writes, and the result.  `m` is the current image.  `none` stands for `IL_ATI1N` of an image
that has to be converted to luminance, which is not modelled. -/
def Compress (big : Bool) (k : Mem) (m : Img) (fmt : Nat) : C (Option (List WOp × Nat)) :=
  if fmt = IL_3DC then do
    let d ← CompressTo88 k.bytes m
    let o ← eachBlk m (fun z y x => do
      let a ← Get3DcBlock d (z * (m.width * m.height * 2)) m.width m.height x y 0
      let b ← Get3DcBlock d (z * (m.width * m.height * 2)) m.width m.height x y 1
      pure (alphaOps a ++ alphaOps b))
    pure (some (o, count m 16))
  else if fmt = IL_ATI1N then
    if m.bpp ≠ 1 then pure none
    else do
      let o ← eachBlk m (fun z y x => do
        let a ← GetBlock m.data (z * (m.width * m.height)) m.width m.height x y
        pure (alphaOps a))
      pure (some (o, count m 8))
  else if fmt = IL_RXGB then do
    let (d, al) ← CompressToRXGB k.words k.bytes m
    let o ← eachBlk m (fun z y x => do let (a, b) ← both d al m z y x; pure (ops5 big b a))
    pure (some (o, count m 16))
  else do
    let d ← CompressTo565 k.words m
    match ← ilGetAlpha k.bytes m IL_UNSIGNED_BYTE with
    | none => pure (some ([], 0))
    | some al =>
      if fmt = IL_DXT1 ∨ fmt = IL_DXT1A then do
        let o ← eachBlk m (fun z y x => do let (a, b) ← both d al m z y x; pure (ops1 big b a))
        pure (some (o, count m 8))
      else if fmt = IL_DXT3 then do
        let o ← eachBlk m (fun z y x => do let (a, b) ← both d al m z y x; pure (ops3 big b a))
        pure (some (o, count m 16))
      else if fmt = IL_DXT5 then do
        let o ← eachBlk m (fun z y x => do let (a, b) ← both d al m z y x; pure (ops5 big b a))
        pure (some (o, count m 16))
      else pure (some ([], 0))

/-- `ilGetDXTCData(NULL, ...)`, il_dds-save.cpp:318-337. -/
def dxtcSize (m : Img) (fmt : Nat) : Nat :=
  let n := u32 ((m.width + 3) / 4 * ((m.height + 3) / 4) * m.depth)
  if fmt = IL_DXT1 ∨ fmt = IL_DXT1A ∨ fmt = IL_ATI1N then u32 (n * 8)
  else if fmt = IL_DXT3 ∨ fmt = IL_DXT5 ∨ fmt = IL_3DC ∨ fmt = IL_RXGB then u32 (n * 16)
  else 0

/-- `ilGetDXTCData(Buffer, BufferSize, DXTCFormat)` with a buffer, il_dds-save.cpp:339-363: the result and the buffer.  `BufferSize` is the size of
the buffer.  The image keeps its data: that of `m` is replaced only while it is compressed. -/
def ilGetDXTCData (big : Bool) (k : Mem) (s : Surface) (buf : List UInt8) (fmt : Nat) : C (Option (Nat × List UInt8)) :=
  if fmt = s.fmt ∧ s.comp ≠ [] then do
    let b ← memcpy buf 0 s.comp 0 (min buf.length s.comp.length)
    pure (some (min buf.length s.comp.length, b))
  else do
    let d ← (if s.img.origin ≠ IL_ORIGIN_UPPER_LEFT then iGetFlipped k.bytes s.img else pure s.img.data)
    match ← Compress big k { s.img with data := d } fmt with
    | none => pure none
    | some (ops, n) => do
      let w ← wrun (openW buf buf.length) ops
      pure (some (n, w.data))

/-- `ilSurfaceToDxtcData`, il_dds.cpp:2275-2299. -/
def ilSurfaceToDxtcData (big : Bool) (k : Mem) (s : Surface) (fmt : Nat) : C (Option (Bool × Surface)) :=
  let s' : Surface := if s.comp ≠ [] then ⟨s.img, IL_DXT_NO_COMP, []⟩ else s
  if dxtcSize s.img fmt = 0 then pure (some (false, s'))
  else do
    match ← ilGetDXTCData big k s' (alloc k.bytes (dxtcSize s.img fmt)) fmt with
    | none => pure none
    | some (_, d) => pure (some (true, ⟨s.img, fmt, d⟩))

/-- `ilCompressDXT`, il_dds-save.cpp:1248-1313, where `cur` is the current image: the new image with `Data` is made, and never made the current
one.  `none` is NULL. -/
def ilCompressDXT (big : Bool) (k : Mem) (cur : Surface) (_data : List UInt8) (w h d fmt : Nat) : C (Option (List UInt8)) :=
  if (fmt ≠ IL_DXT1 ∧ fmt ≠ IL_DXT1A ∧ fmt ≠ IL_DXT3 ∧ fmt ≠ IL_DXT5) ∨ w = 0 ∨ h = 0 ∨ d = 0 then pure none
  else if dxtcSize cur.img fmt = 0 then pure none
  else do
    match ← ilGetDXTCData big k cur (alloc k.bytes (dxtcSize cur.img fmt)) fmt with
    | none => pure none
    | some (n, b) => pure (if n ≠ dxtcSize cur.img fmt then none else some b)

end DevIL.DxtSave
