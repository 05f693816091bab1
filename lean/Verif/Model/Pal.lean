import Verif.Model.Image
/-! Model of palettes: DevIL/src-IL/src/il_pal.cpp:586-873 and `iConvertPalette`, il_convert.cpp:18-266. -/
set_option autoImplicit false
namespace DevIL

/-- A non-empty palette: `Palette`, `PalSize` and `PalType` of `ILpal` (include/IL/devil_internal_exports.h:50-56). -/
structure Pal where
  data : List UInt8
  size : Nat
  type : Nat
  deriving DecidableEq

namespace Palette
open Utility

/-- The nearest number with a 24-bit significand, ties to even: conversion of an integer to `ILfloat`, and the rounding of
a product of two such numbers.  For il_pal.cpp:656, 679. -/
def roundF (n : Nat) : Nat :=
  if n < 16777216 then n
  else
    let s := 2 ^ (Nat.log2 n - 23)
    let q := n / s
    let r := n % s
    if 2 * r < s then q * s else if 2 * r > s then (q + 1) * s else if q % 2 = 0 then q * s else (q + 1) * s

/-- `(ILuint)((ILfloat)Pal->PalSize * 3.0f / 4.0f)`, il_pal.cpp:656, 679: division by 4 is exact in the range. -/
def threeQuarters (n : Nat) : Nat := roundF (roundF n * 3) / 4

/-- What an arm of `iConvertPal` puts into the fourth byte of an entry.  il_pal.cpp:587-840. -/
inductive Fourth where
  | no | opaque_ | copy
  deriving DecidableEq

/-- The body of the entry loops of `iConvertPal` (e.g. il_pal.cpp:661-665): entry `k` of stride `s` is read, entry `k` of
stride `d` written. -/
def entry (src : List UInt8) (s d : Nat) (swap : Bool) (four : Fourth) (k : Nat) (b : List UInt8) : C (List UInt8) := do
  let v ← rd src (k * s + if swap then 2 else 0)
  let b ← wr b (k * d) v
  let v ← rd src (k * s + 1)
  let b ← wr b (k * d + 1) v
  let v ← rd src (k * s + if swap then 0 else 2)
  let b ← wr b (k * d + 2) v
  match four with
  | .no => pure b
  | .opaque_ => wr b (k * d + 3) 255
  | .copy => do
    let v ← rd src (k * s + 3)
    wr b (k * d + 3) v

/-- `for (i = 0, j = 0; i < Pal->PalSize; i += s, j += d)` around `entry`.  il_pal.cpp:587-840. -/
def entries (p : Pal) (s d : Nat) (swap : Bool) (four : Fourth) (dst : List UInt8) : C (List UInt8) :=
  loopN ((p.size + (s - 1)) / s) (entry p.data s d swap four) dst

/-- `iConvertPal` on a non-empty palette, il_pal.cpp:587-840; `none` is NULL.  Allocation succeeds. -/
def iConvertPal (junk : Nat → UInt8) (p : Pal) (dest : Nat) : C (Option Pal) :=
  let same := alloc junk p.size
  if dest = IL_PAL_RGB24 ∨ dest = IL_PAL_BGR24 then
    if p.type = IL_PAL_RGB24 then do
      let d ← if dest = IL_PAL_BGR24 then entries p 3 3 true .no same else memcpy same 0 p.data 0 p.size
      pure (some ⟨d, p.size, dest⟩)
    else if p.type = IL_PAL_BGR24 then do
      let d ← if dest = IL_PAL_RGB24 then entries p 3 3 true .no same else memcpy same 0 p.data 0 p.size
      pure (some ⟨d, p.size, dest⟩)
    else if p.type = IL_PAL_BGR32 ∨ p.type = IL_PAL_BGRA32 then do
      let n := threeQuarters p.size
      let d ← entries p 4 3 (dest = IL_PAL_RGB24) .no (alloc junk n)
      pure (some ⟨d, n, dest⟩)
    else if p.type = IL_PAL_RGB32 ∨ p.type = IL_PAL_RGBA32 then do
      let n := threeQuarters p.size
      let d ← entries p 4 3 (dest ≠ IL_PAL_RGB24) .no (alloc junk n)
      pure (some ⟨d, n, dest⟩)
    else pure none
  else if dest = IL_PAL_RGB32 ∨ dest = IL_PAL_RGBA32 ∨ dest = IL_PAL_BGR32 ∨ dest = IL_PAL_BGRA32 then
    if p.type = IL_PAL_RGB24 ∨ p.type = IL_PAL_BGR24 then do
      let n := u32 (p.size * 4) / 3
      let d ← entries p 3 4 ((p.type = IL_PAL_BGR24 ∧ (dest = IL_PAL_RGB32 ∨ dest = IL_PAL_RGBA32)) ∨
        (p.type = IL_PAL_RGB24 ∧ (dest = IL_PAL_BGR32 ∨ dest = IL_PAL_BGRA32))) .opaque_ (alloc junk n)
      pure (some ⟨d, n, dest⟩)
    else if p.type = IL_PAL_RGB32 then do
      let d ← entries p 4 4 (dest = IL_PAL_BGR32 ∨ dest = IL_PAL_BGRA32) .opaque_ same
      pure (some ⟨d, p.size, dest⟩)
    else if p.type = IL_PAL_RGBA32 then do
      let d ← if dest = IL_PAL_BGR32 ∨ dest = IL_PAL_BGRA32 then entries p 4 4 true .copy same
              else memcpy same 0 p.data 0 p.size
      pure (some ⟨d, p.size, dest⟩)
    else if p.type = IL_PAL_BGR32 then do
      let d ← entries p 4 4 (dest = IL_PAL_RGB32 ∨ dest = IL_PAL_RGBA32) .opaque_ same
      pure (some ⟨d, p.size, dest⟩)
    else if p.type = IL_PAL_BGRA32 then do
      let d ← if dest = IL_PAL_RGB32 ∨ dest = IL_PAL_RGBA32 then entries p 4 4 true .copy same
              else memcpy same 0 p.data 0 p.size
      pure (some ⟨d, p.size, dest⟩)
    else pure none
  else pure none

/-- `ilConvertPal` on the palette of the current image, il_pal.cpp:844-873: the new palette, or `none` for `IL_FALSE`. -/
def ilConvertPal (junk : Nat → UInt8) (p : Pal) (dest : Nat) : C (Option Pal) := do
  match ← iConvertPal junk p dest with
  | none => pure none
  | some q => do
    let d ← memcpy (alloc junk q.size) 0 q.data 0 q.size
    pure (some ⟨d, q.size, q.type⟩)

/-- `LumFactor`, il_convert.cpp:20: an array of three; only the access is modelled, not the value. -/
def lumFactor (c : Nat) : C Unit := if c < 3 then pure () else .error .oobRead

/-- The grey table of `iConvertPalette`, il_convert.cpp:48-94.  `swapped` is the arm of the BGR layouts, whose factor index
counts down from 2 (unsigned); the value `(ILubyte)Resultf` of the three colours is the parameter `lum`. -/
def greyTable (junk : Nat → UInt8) (lum : UInt8 → UInt8 → UInt8 → UInt8) (p : Pal) (curType lumBpp : Nat) (swapped : Bool) :
    C (List UInt8) :=
  let size := ilGetBppPal p.type
  let n := u32 (lumBpp * p.size) / size
  loopN ((p.size + (size - 1)) / size) (fun e b => do
    let i := e * size
    let _ ← loopN size (fun c _ => do
      let _ ← rd p.data (i + c)
      lumFactor (if swapped then u32 (2 + 4294967296 - c) else c)) ()
    let x ← rd p.data i
    let y ← rd p.data (i + 1)
    let z ← rd p.data (i + 2)
    let b ← wr b (e * lumBpp) (if swapped then lum z y x else lum x y z)
    if lumBpp = 2 then
      if curType = IL_PAL_RGBA32 then do
        let a ← rd p.data (i + 3)
        wr b (e * lumBpp + 1) a
      else wr b (e * lumBpp + 1) 255
    else pure b) (alloc junk n)

/-- The `switch` on the palette type, il_convert.cpp:45-95; without a case the table stays NULL and is then read. -/
def greyTableOf (junk : Nat → UInt8) (lum : UInt8 → UInt8 → UInt8 → UInt8) (p : Pal) (curType lumBpp : Nat) : C (List UInt8) :=
  if curType = IL_PAL_RGB24 ∨ curType = IL_PAL_RGB32 ∨ curType = IL_PAL_RGBA32 then
    greyTable junk lum p curType lumBpp false
  else if curType = IL_PAL_BGR24 ∨ curType = IL_PAL_BGR32 ∨ curType = IL_PAL_BGRA32 then
    greyTable junk lum p curType lumBpp true
  else .error .nullDeref

/-- The new image's fields in the grey and alpha arms, il_convert.cpp:96-106 and 155-164: `Depth` is not used. -/
def flatAttr (m : Img) (fmt bpp lumBpp : Nat) (data : List UInt8) : Img :=
  let bps := u32 (m.width * bpp)
  let n := u32 (bps * m.height)
  { m with format := fmt, bpp := lumBpp, bps := bps, plane := n, size := n, data := data }

/-- `iConvertPalette`, il_convert.cpp:18-266, of an image with palette `pal` (`none`: no palette); `none` is NULL.
`curType` is the palette type of `iCurImage`, which the code consults in place of the image's.  The result is the new image
with its palette.  Allocation succeeds. -/
def iConvertPalette (junk : Nat → UInt8) (lum : UInt8 → UInt8 → UInt8 → UInt8) (curType : Nat) (m : Img) (pal : Option Pal)
    (dest : Nat) : C (Option (Img × Option Pal)) :=
  match pal with
  | none => pure none
  | some p =>
    if p.size = 0 ∨ p.type = IL_PAL_NONE ∨ m.bpp ≠ 1 then pure none
    else if dest = IL_LUMINANCE ∨ dest = IL_LUMINANCE_ALPHA then do
      let lumBpp := if dest = IL_LUMINANCE_ALPHA then 2 else 1
      let temp ← greyTableOf junk lum p curType lumBpp
      let g := flatAttr m dest lumBpp lumBpp []
      let data ← loopN m.size (fun i b => do
        let v ← rd m.data i
        if lumBpp = 2 then do
          let x ← rd temp (v.toNat * 2)
          let b ← wr b (i * 2) x
          let x ← rd temp (v.toNat * 2 + 1)
          wr b (i * 2 + 1) x
        else do
          let x ← rd temp v.toNat
          wr b i x) (alloc junk g.size)
      pure (some ({ g with data := data }, none))
    else if dest = IL_ALPHA then do
      let g := flatAttr m dest 1 1 []
      let data ←
        if curType = IL_PAL_BGRA32 ∨ curType = IL_PAL_RGBA32 then do
          let size := ilGetBppPal p.type
          let temp ← loopN ((p.size + (size - 1)) / size) (fun k b => do
            let a ← rd p.data (k * size + 3)
            wr b k a) (alloc junk (p.size / size))
          loopN m.size (fun i b => do
            let v ← rd m.data i
            let x ← rd temp (v.toNat * 2)
            let b ← wr b (i * 2) x
            let x ← rd temp (v.toNat * 2 + 1)
            wr b (i * 2 + 1) x) (alloc junk g.size)
        else loopN m.size (fun i b => wr b i 255) (alloc junk g.size)
      pure (some ({ g with data := data }, none))
    else if ilGetBppFormat dest = 0 then pure none
    else if dest = IL_COLOUR_INDEX then do
      let data ← memcpy (alloc junk m.size) 0 m.data 0 m.size
      let pd ← memcpy (alloc junk p.size) 0 p.data 0 p.size
      pure (some ({ m with format := dest, data := data }, some ⟨pd, p.size, p.type⟩))
    else
      let palType := if dest = IL_RGB then some IL_PAL_RGB24 else if dest = IL_BGR then some IL_PAL_BGR24
        else if dest = IL_RGBA then some IL_PAL_RGB32 else if dest = IL_BGRA then some IL_PAL_BGR32 else none
      match palType with
      | none => pure none
      | some t => do
        match ← ilConvertPal junk p t with
        | none => pure none
        | some q => do
          let g := Image.ilResizeImage junk { m with format := dest } m.width m.height m.depth (ilGetBppFormat dest) 1
          let size := ilGetBppPal q.type
          let data ← loopN m.size (fun i b => loopN g.bpp (fun c b => do
            let v ← rd m.data i
            let x ← rd q.data (v.toNat * size + c)
            wr b (i * g.bpp + c) x) b) g.data
          pure (some ({ g with data := data }, none))

/-- The arm `DestFormat == IL_COLOUR_INDEX && Image->Format == IL_LUMINANCE` of `iConvertImage`, il_convert.cpp:338-361, with
the test of lines 289-292 (`DestType >= IL_SHORT` refused: `none`) and the fields the caller sets (420-426). -/
def luminanceToIndex (junk : Nat → UInt8) (m : Img) (dt : Nat) : C (Option (Img × Pal)) :=
  if dt ≥ IL_SHORT then pure none
  else do
    let pd ← loopN 256 (fun i b => do
      let b ← wr b (i * 3) (UInt8.ofNat i)
      let b ← wr b (i * 3 + 1) (UInt8.ofNat i)
      wr b (i * 3 + 2) (UInt8.ofNat i)) (alloc junk 768)
    let data ← memcpy (alloc junk m.size) 0 m.data 0 m.size
    let bpc := ilGetBpcType dt
    let bps := u32 (m.width * bpc * 1)
    let plane := u32 (bps * m.height)
    pure (some ({ m with format := IL_COLOUR_INDEX, type := dt, bpc := bpc, bpp := 1, bps := bps, plane := plane,
                         size := u32 (m.depth * plane), data := data }, ⟨pd, 768, IL_PAL_RGB24⟩))

end Palette
end DevIL
