import Verif.Model.Games
/-! Model of the Sun raster loader, il_sun.cpp, and of the reading of bits, il_bits.cpp.  As in Model/Games.lean an image is bound, allocation succeeds and
`ilFixImage` is left out. -/
set_option autoImplicit false
namespace DevIL.Sun
open DevIL.Games DevIL.Detect DevIL.Image
open DevIL.Lump (SEEK_CUR)

section
variable {σ : Type} (o : Ops σ) (junk : Nat → UInt8)

/-- `iread(dst + off, 1, n)`, il_sun.cpp:282, 312. -/
def intoAt (s : σ) (dst : List UInt8) (off n : Nat) : C (List UInt8 × σ) := do
  let (g, _, s) ← o.read s 1 n
  let d ← memcpy dst off g 0 g.length
  pure (d, s)

/-- A row that is not compressed and its padding, il_sun.cpp:280-284, 310-314; `w` is the width in bytes as the offset is computed, `bps` that of the image. -/
def rawRow (w bps i : Nat) (t : List UInt8 × σ) : C (List UInt8 × σ) := do
  let (d, s) ← intoAt o t.2 t.1 (u32 (i * w)) bps
  if (2 - bps % 2) % 2 ≠ 0 then do
    let (_, s) ← o.getc s
    pure (d, s)
  else pure (d, s)

/-- The state of `iSunGetRle`: `i`, `Data` as an offset, the block, the input.  il_sun.cpp:364-366. -/
structure Rle (σ : Type) where
  i : Nat
  off : Nat
  data : List UInt8
  inp : σ

/-- One round of `iSunGetRle`, il_sun.cpp:369-390.  `Count` is 2^32 - 1 when the input has ended.  Simplified: `i + j` and `i + Count` could only wrap around in a row of
nearly 2^32 bytes. -/
def rleStep (length : Nat) (t : Rle σ) : C (Rle σ) := do
  let (flag, s) ← getb o t.inp
  if flag = 0x80 then do
    let (c, s) ← o.getc s
    let count := match c with | some b => b.toNat | none => 4294967295
    if count = 0 then do
      let d ← wr t.data t.off 0x80
      pure ⟨t.i + 1, t.off + 1, d, s⟩
    else do
      let (value, s) ← getb o s
      let count := u32 (count + 1)
      let n := min count (length - t.i)
      let d ← loopN n (fun j d => wr d (t.off + j) value) t.data
      pure ⟨t.i + count, t.off + n, d, s⟩
  else do
    let d ← wr t.data t.off flag
    pure ⟨t.i + 1, t.off + 1, d, s⟩

/-- `iSunGetRle`, il_sun.cpp:362-394, and the padding after it, 289-291, 319-321. -/
def rleRow (fuel bps i : Nat) (t : List UInt8 × σ) : C (List UInt8 × σ) := do
  let r ← whileF (fun r : Rle σ => decide (r.i < bps)) (rleStep o bps) fuel ⟨0, u32 (bps * i), t.1, t.2⟩
  if r.i % 2 ≠ 0 then do
    let (_, s) ← o.getc r.inp
    pure (r.data, s)
  else pure (r.data, r.inp)

/-- The rows of a picture of 8 or 24 bits, il_sun.cpp:279-293, 309-323. -/
def rows (fuel type w : Nat) (m : Img) (s : σ) : C (List UInt8 × σ) :=
  if type ≠ 2 then loopN m.height (fun i t => rawRow o w m.bps i t) (m.data, s)
  else loopN m.height (fun i t => rleRow o fuel m.bps i t) (m.data, s)

/-- `BITFILE` without the position, il_bits.h:21-27: the byte and the number of the next bit. -/
structure Bits (σ : Type) where
  buff : UInt8
  bit : Int
  inp : σ

/-- The state of `bread`: whether the input has ended, the block, the bits.  il_bits.cpp:130-132. -/
structure Bread (σ : Type) where
  ended : Bool
  data : List UInt8
  bits : Bits σ

/-- One bit, il_bits.cpp:132-143; after the end of the input nothing happens. -/
def breadStep (off k : Nat) (t : Bread σ) : C (Bread σ) :=
  if t.ended then pure t
  else do
    let (ended, b) ← (if t.bits.bit < 0 ∨ 7 < t.bits.bit then do
        let (g, _, s) ← o.read t.bits.inp 1 1
        match g with
        | [] => pure (true, ({ t.bits with bit := 7, inp := s } : Bits σ))
        | v :: _ => pure (false, (⟨v, 7, s⟩ : Bits σ))
      else pure (false, t.bits) : C (Bool × Bits σ))
    if ended then pure { t with ended := true, bits := b }
    else do
      let d ← wr t.data (off + k) (if b.buff.toNat.testBit b.bit.toNat then 1 else 0)
      pure ⟨false, d, { b with bit := b.bit - 1 }⟩

/-- `bread(Data + off, 1, n, File)`, il_bits.cpp:123-146. -/
def bread (dst : List UInt8) (off n : Nat) (b : Bits σ) : C (List UInt8 × Bits σ) := do
  let r ← loopN n (breadStep o off) ⟨false, dst, b⟩
  pure (r.data, r.bits)

/-- A row of bits and its padding, il_sun.cpp:252-254. -/
def bitRow (w i : Nat) (t : List UInt8 × Bits σ) : C (List UInt8 × Bits σ) := do
  let (d, b) ← bread o t.1 (u32 (w * i)) w t.2
  let (_, b) ← bread o (alloc junk 16) 0 ((16 - w % 16) % 16) b
  pure (d, b)

/-- A picture of 1 bit, il_sun.cpp:219-256; `file` is whether there is an open file (a lump leaves the file of an earlier call in place).  `bfile` is
il_bits.cpp:36-54. -/
def load1 (file : Bool) (w h mapLen : Nat) (cur : Loaded) (s : σ) : C (Bool × Loaded × σ) :=
  if !file then pure (false, cur, s)
  else do
    let m := tex junk w h 1 IL_COLOUR_INDEX
    if mapLen ≠ 0 ∧ mapLen ≠ 6 then pure (false, (m, none), s)
    else do
      let (p, s) ← (if mapLen = 0 then pure ([0, 0, 0, 255, 255, 255], s) else do
        let (_, p, s) ← into o s (alloc junk 6) 1 6
        pure (p, s) : C (List UInt8 × σ))
      let (d, b) ← loopN m.height (bitRow o junk m.width) (m.data, ⟨0, 8, s⟩)
      pure (true, ({ m with data := d, origin := IL_ORIGIN_UPPER_LEFT }, some ⟨p, 6, IL_PAL_RGB24⟩), b.inp)

/-- A picture of 8 bits, il_sun.cpp:259-294. -/
def load8 (fuel w h type mapType mapLen : Nat) (s : σ) : C (Bool × Loaded × σ) :=
  if mapType = 0 then do
    let m := tex junk w h 1 IL_LUMINANCE
    let (d, s) ← rows o fuel type w m s
    pure (true, ({ m with data := d, origin := IL_ORIGIN_UPPER_LEFT }, none), s)
  else do
    let m := tex junk w h 1 IL_COLOUR_INDEX
    let (n, p, s) ← into o s (alloc junk mapLen) 1 mapLen
    if n ≠ mapLen then pure (false, (m, some ⟨p, 0, IL_PAL_NONE⟩), s)
    else do
      let (d, s) ← rows o fuel type w m s
      pure (true, ({ m with data := d, origin := IL_ORIGIN_UPPER_LEFT }, some ⟨p, mapLen, IL_PAL_RGB24⟩), s)

/-- Skipping the colour map, il_sun.cpp:297-298, 328-329. -/
def skipMap (mapLen : Nat) (s : σ) : C σ :=
  if mapLen > 0 then do
    let (_, s) ← o.seek s (Lump.toInt mapLen) SEEK_CUR
    pure s
  else pure s

/-- `IL_SUN_RGB` or not, il_sun.cpp:300-307, 331-338. -/
def rgbOf (type : Nat) : Nat := if type = 3 then IL_RGB else IL_BGR

/-- A picture of 24 bits, il_sun.cpp:296-324. -/
def load24 (fuel w h type mapLen : Nat) (s : σ) : C (Bool × Loaded × σ) := do
  let s ← skipMap o mapLen s
  let m := tex junk w h 3 (rgbOf type)
  let (d, s) ← rows o fuel type (w * 3) m s
  pure (true, ({ m with data := d, origin := IL_ORIGIN_UPPER_LEFT }, none), s)

/-- A picture of 32 bits, il_sun.cpp:327-350: `Offset` stays 0. -/
def load32 (w h type mapLen : Nat) (s : σ) : C (Bool × Loaded × σ) := do
  let s ← skipMap o mapLen s
  let m := tex junk w h 3 (rgbOf type)
  let (d, s) ← loopN h (fun _ t => loopN w (fun _ (t : List UInt8 × σ) => do
    let (_, s) ← o.getc t.2
    let (a, s) ← getb o s
    let d ← wr t.1 0 a
    let (b, s) ← getb o s
    let d ← wr d 1 b
    let (c, s) ← getb o s
    let d ← wr d 2 c
    pure (d, s)) t) (m.data, s)
  pure (true, ({ m with data := d, origin := IL_ORIGIN_UPPER_LEFT }, none), s)

/-- `iLoadSunInternal`, il_sun.cpp:199-359.  `fuel` bounds the rounds of `iSunGetRle`. -/
def iLoadSunInternal (file : Bool) (fuel : Nat) (cur : Loaded) (s : σ) : C (Bool × Loaded × σ) := do
  let (h, s) ← head o junk [u32f, u32f, u32f, u32f, u32f, u32f, u32f, u32f] s
  if !iCheckSun h then pure (false, cur, s)
  else if fbe h 3 = 1 then load1 o junk file (fbe h 1) (fbe h 2) (fbe h 7) cur s
  else if fbe h 3 = 8 then load8 o junk fuel (fbe h 1) (fbe h 2) (fbe h 5) (fbe h 6) (fbe h 7) s
  else if fbe h 3 = 24 then load24 o junk fuel (fbe h 1) (fbe h 2) (fbe h 5) (fbe h 7) s
  else load32 o junk (fbe h 1) (fbe h 2) (fbe h 5) (fbe h 7) s

end
end DevIL.Sun
