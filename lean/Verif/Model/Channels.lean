import Verif.Model.Image
/-! Model of channel swaps and of adding and removing alpha: DevIL/src-IL/src/il_fastconv.cpp,
il_convert.cpp:442-661, 888-983. -/
set_option autoImplicit false
namespace DevIL.Channels
open Utility

/-! A component of `k` bytes at index `i` of a buffer is its bytes `i*k ... i*k+k-1`; the C code's typed reads and writes
move them together, the model one by one.  (Simplification: moving a `float` or `double` keeps its bits.) -/

/-- `T = p[i]; p[i] = p[j]; p[j] = T` on components of `k` bytes, e.g. il_fastconv.cpp:65-67. -/
def swapComp (k i j : Nat) (b : List UInt8) : C (List UInt8) :=
  loopN k (fun c b => do
    let x ← rd b (i * k + c)
    let y ← rd b (j * k + c)
    let b ← wr b (i * k + c) y
    wr b (j * k + c) x) b

/-- `dst[j] = src[i]` on components of `k` bytes, e.g. il_convert.cpp:593. -/
def copyComp (k : Nat) (src : List UInt8) (i j : Nat) (dst : List UInt8) : C (List UInt8) :=
  loopN k (fun c b => do
    let v ← rd src (i * k + c)
    wr b (j * k + c) v) dst

/-- `dst[j] = constant` on components of `k` bytes, e.g. il_convert.cpp:596. -/
def putComp (k : Nat) (word : Nat → UInt8) (j : Nat) (dst : List UInt8) : C (List UInt8) :=
  loopN k (fun c b => wr b (j * k + c) (word c)) dst

/-- The size of a component in the cases of the `switch (iCurImage->Type)` of il_fastconv.cpp:42-158, 167-282, of
`ilAddAlpha` (il_convert.cpp:587-635) and of `ilRemoveAlpha` (il_convert.cpp:914-957): there is no case for `IL_HALF`. -/
def caseBpc (type : Nat) : Option Nat :=
  if type = IL_BYTE ∨ type = IL_UNSIGNED_BYTE then some 1
  else if type = IL_SHORT ∨ type = IL_UNSIGNED_SHORT then some 2
  else if type = IL_INT ∨ type = IL_UNSIGNED_INT ∨ type = IL_FLOAT then some 4
  else if type = IL_DOUBLE then some 8
  else none

/-- The loops of `iFastConvert` for `n` components per pixel, il_fastconv.cpp:52-68 and its variants. -/
def fastSwap (m : Img) (n : Nat) : C (Option Img) :=
  match caseBpc m.type with
  | none => pure none
  | some k => do
      let data ← loopN (m.size / (n * k)) (fun p b => swapComp k (p * n) (p * n + 2) b) m.data
      pure (some { m with data := data })

/-- `iFastConvert`, il_fastconv.cpp:19-289 (the portable arms); `none` is `IL_FALSE`. -/
def iFastConvert (m : Img) (dest : Nat) : C (Option Img) :=
  if dest = IL_RGB ∨ dest = IL_BGR then
    if m.format = IL_RGB ∨ m.format = IL_BGR then fastSwap m 3 else pure none
  else if dest = IL_RGBA ∨ dest = IL_BGRA then
    if m.format = IL_RGBA ∨ m.format = IL_BGRA then fastSwap m 4 else pure none
  else pure none

/-- The new format of `ilSwapColours`, il_convert.cpp:467-483 (`none`: every other format). -/
def swapFormat (f : Nat) : Option Nat :=
  if f = IL_RGB then some IL_BGR else if f = IL_RGBA then some IL_BGRA
  else if f = IL_BGR then some IL_RGB else if f = IL_BGRA then some IL_RGBA else none

/-- `ilSwapColours` on an image that is not colour-indexed, il_convert.cpp:444-559; `none` is `IL_FALSE`. -/
def ilSwapColours (m : Img) : C (Option Img) :=
  if m.bpp ≠ 1 ∧ m.bpp ≠ 3 ∧ m.bpp ≠ 4 then pure none
  else match swapFormat m.format with
    | none =>
      if m.format = IL_ALPHA ∨ m.format = IL_LUMINANCE ∨ m.format = IL_LUMINANCE_ALPHA then pure (some m) else pure none
    | some f =>
      if m.bpc = 1 ∨ m.bpc = 2 ∨ m.bpc = 4 ∨ m.bpc = 8 then do
        let data ← forStep 0 (u32 (m.bpp * m.width * m.height)) m.bpp (fun i b => swapComp m.bpc i (i + 2) b) m.data
        pure (some { m with format := f, data := data })
      else pure (some { m with format := f })

/-- The bytes of the alpha `ilAddAlpha` writes: `UCHAR_MAX`, `USHRT_MAX`, `UINT_MAX`, `1.0f`, `1.0`,
il_convert.cpp:596-633, little-endian. -/
def alphaWord (type : Nat) (c : Nat) : UInt8 :=
  if type = IL_FLOAT then (if c = 2 then 0x80 else if c = 3 then 0x3F else 0)
  else if type = IL_DOUBLE then (if c = 6 then 0xF0 else if c = 7 then 0x3F else 0)
  else 0xFF

/-- The fields `ilAddAlpha` and `ilRemoveAlpha` set at their end, il_convert.cpp:638-643, 960-965. -/
def withBpp (m : Img) (n format : Nat) (data : List UInt8) : Img :=
  let bps := u32 (m.width * m.bpc * n)
  let plane := u32 (bps * m.height)
  { m with bpp := n, bps := bps, plane := plane, size := u32 (plane * m.depth), format := format, data := data }

/-- `ilAddAlpha`, il_convert.cpp:563-661.  `i` counts up by 3 below `Size` while `j` counts up by 4: round `p` has
`i = 3p` and `j = 4p`.  `none` is `IL_FALSE`; allocation succeeds. -/
def ilAddAlpha (junk : Nat → UInt8) (m : Img) : C (Option Img) :=
  if m.bpp ≠ 3 then pure none
  else
    let size := u32 (m.bps * m.height) / m.bpc
    let new := alloc junk (u32 (4 * m.bpc * m.width * m.height))
    match caseBpc m.type with
    | none => pure none
    | some k => do
        let data ← loopN ((size + 2) / 3) (fun p b => do
          let b ← copyComp k m.data (p * 3) (p * 4) b
          let b ← copyComp k m.data (p * 3 + 1) (p * 4 + 1) b
          let b ← copyComp k m.data (p * 3 + 2) (p * 4 + 2) b
          putComp k (alphaWord m.type) (p * 4 + 3) b) new
        pure (some (withBpp m 4
          (if m.format = IL_RGB then IL_RGBA else if m.format = IL_BGR then IL_BGRA else m.format) data))

/-- `ilRemoveAlpha`, il_convert.cpp:890-983; `Size` is a number of bytes here, but counts components. -/
def ilRemoveAlpha (junk : Nat → UInt8) (m : Img) : C (Option Img) :=
  if m.bpp ≠ 4 then pure none
  else
    let size := u32 (m.bps * m.height)
    let new := alloc junk (u32 (3 * m.bpc * m.width * m.height))
    match caseBpc m.type with
    | none => pure none
    | some k => do
        let data ← loopN ((size + 3) / 4) (fun p b => do
          let b ← copyComp k m.data (p * 4) (p * 3) b
          let b ← copyComp k m.data (p * 4 + 1) (p * 3 + 1) b
          copyComp k m.data (p * 4 + 2) (p * 3 + 2) b) new
        pure (some (withBpp m 3
          (if m.format = IL_RGBA then IL_RGB else if m.format = IL_BGRA then IL_BGR else m.format) data))

end DevIL.Channels
