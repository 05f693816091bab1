import Verif.Buf
import Verif.Model.Utility
/-! Model of image objects and their creation: DevIL/src-IL/src/il_devil.cpp:19-165, 1118-1143. -/
set_option autoImplicit false
namespace DevIL

/-- The fields of `ILimage` (include/IL/devil_internal_exports.h:60-90) that describe the pixels; `data` is the
block `Data` points to. -/
structure Img where
  width : Nat
  height : Nat
  depth : Nat
  bpp : Nat
  bpc : Nat
  bps : Nat
  plane : Nat
  size : Nat
  format : Nat
  type : Nat
  origin : Nat
  data : List UInt8
  deriving DecidableEq

namespace Image
open Utility

/-- Where `Image->Data` points: nowhere, to a live block, or to a block that has been freed.  devil_internal_exports.h:68. -/
inductive Ptr where
  | null
  | block (d : List UInt8)
  | dangling
  deriving DecidableEq

/-- `if (Width == 0) Width = 1`, il_devil.cpp:30-32. -/
def atLeast1 (n : Nat) : Nat := if n = 0 then 1 else n

/-- The geometry stored by `ilInitImage`, il_devil.cpp:33-48 (32-bit unsigned products; `Bpp` and `Bpc` are
8-bit). -/
def geometry (w h d bpp format type : Nat) (data : List UInt8) : Img :=
  let w := atLeast1 w
  let h := atLeast1 h
  let d := atLeast1 d
  let bpc := ilGetBpcType type
  let bps := u32 (u32 (w * bpp) * bpc)
  let plane := u32 (bps * h)
  let size := u32 (plane * d)
  { width := w, height := h, depth := d, bpp := bpp, bpc := bpc, bps := bps, plane := plane, size := size,
    format := format, type := type, origin := IL_ORIGIN_LOWER_LEFT, data := data }

/-- `ilInitImage`, il_devil.cpp:19-58.  `none` is `IL_FALSE` with `IL_INVALID_PARAM`.  `src` is the caller's
`Data` (`none` for NULL); without it the new block keeps the unknown bytes `junk`.  Allocation succeeds. -/
def ilInitImage (junk : Nat → UInt8) (w h d bpp format type : Nat) (src : Option (List UInt8)) : C (Option Img) :=
  if ilGetBpcType type = 0 then pure none
  else
    let g := geometry w h d bpp format type []
    let block := alloc junk g.size
    match src with
    | none => pure (some { g with data := block })
    | some s => do
        let block ← memcpy block 0 s 0 g.size
        pure (some { g with data := block })

/-- `ilNewImage`, il_devil.cpp:63-86; `none` is NULL. -/
def ilNewImage (junk : Nat → UInt8) (w h d bpp bpc : Nat) : C (Option Img) :=
  if bpp = 0 ∨ bpp > 4 then pure none
  else ilInitImage junk w h d bpp (ilGetFormatBpp bpp) (ilGetTypeBpc bpc) none

/-- `ilResizeImage`, il_devil.cpp:1118-1143; allocation succeeds. -/
def ilResizeImage (junk : Nat → UInt8) (m : Img) (w h d bpp bpc : Nat) : Img :=
  let bps := u32 (u32 (bpp * bpc) * w)
  let plane := u32 (bps * h)
  let size := u32 (plane * d)
  { m with width := w, height := h, depth := d, bpp := bpp, bpc := bpc, bps := bps, plane := plane, size := size,
           data := alloc junk size }

/-- `ilTexImage_` followed on the life of `Image->Data`, il_devil.cpp:132-165 and `ilInitImage` 19-58: the block
is freed first, then `ilInitImage` may refuse the type (and leave `Data` as it is) or allocate (`allocOk`). -/
def texImagePtr (p : Ptr) (allocOk : Bool) (junk : Nat → UInt8) (w h d bpp format type : Nat) : C (Bool × Ptr) :=
  match p with
  | .dangling => .error .doubleFree
  | .null =>
    if ilGetBpcType type = 0 then .ok (false, .null)
    else if allocOk then .ok (true, .block (alloc junk (geometry w h d bpp format type []).size))
    else .ok (false, .null)
  | .block _ =>
    if ilGetBpcType type = 0 then .ok (false, .dangling)
    else if allocOk then .ok (true, .block (alloc junk (geometry w h d bpp format type []).size))
    else .ok (false, .null)

end Image
end DevIL
