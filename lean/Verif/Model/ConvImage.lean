import Verif.Model.ConvBuff
import Verif.Model.Channels
import Verif.Comp
/-! Model of image conversion and of the alpha functions built on it: DevIL/src-IL/src/il_convert.cpp:276-439,
il_manip.cpp:866-1042. -/
set_option autoImplicit false
namespace DevIL.ConvImage
open Utility Conv Channels

/-- The unknown contents of the two blocks a buffer conversion allocates.  il_convbuff.cpp:63, 123, 1976. -/
structure Junk where
  a : Nat → Nat
  b : Nat → Nat

/-- The fields `ilConvertImage` sets, il_convert.cpp:420-426 (and `iConvertImage`, 338-344). -/
def setFormat (m : Img) (df dt : Nat) (data : List UInt8) : Img :=
  let bps := u32 (u32 (m.width * ilGetBpcType dt) * ilGetBppFormat df)
  let plane := u32 (bps * m.height)
  { m with format := df, type := dt, bpc := ilGetBpcType dt, bpp := ilGetBppFormat df, bps := bps, plane := plane,
           size := u32 (m.depth * plane), data := data }

/-- `iConvertImage`, il_convert.cpp:276-373, for a source and a destination that are not colour-indexed; `none` is
NULL.  The result is the current image with the fields the caller sets (420-435).  `ilConvertBuffer` is given
`SizeOfData` bytes. -/
def iConvertImage (fl : FloatOps) (j : Junk) (m : Img) (df dt : Nat) : C (Option Img) :=
  if ilGetBppFormat df = 0 then pure none
  else if m.data.length < m.size then .error .oobRead
  else do
    let r ← ilConvertBuffer fl j.a j.b m.format df m.type dt (comps (ilGetBpcType m.type) (m.data.take m.size))
    match r with
    | none => pure none
    | some cs => pure (some (setFormat m df dt (bytesOf (ilGetBpcType dt) cs)))

/-- The loop over the `Next` chain, il_convert.cpp:408-436: stops at the first failure. -/
def convertChain (fl : FloatOps) (j : Junk) (df dt : Nat) : List Img → C (Bool × List Img)
  | [] => pure (true, [])
  | m :: rest => do
      let r ← iConvertImage fl j m df dt
      match r with
      | none => pure (false, m :: rest)
      | some m' => do
          let q ← convertChain fl j df dt rest
          pure (q.1, m' :: q.2)

/-- `if (DestType == iCurImage->Type) { if (iFastConvert(DestFormat)) ...`, il_convert.cpp:395-400. -/
def tryFast (m : Img) (df dt : Nat) : C (Option Img) := if dt = m.type then iFastConvert m df else pure none

/-- `ilConvertImage`, il_convert.cpp:383-439, on the current image and the images that follow it in its `Next` chain, with
`IL_USE_KEY_COLOUR` disabled (the default).  Returns the result and the chain. -/
def ilConvertImage (fl : FloatOps) (j : Junk) (df dt : Nat) : List Img → C (Bool × List Img)
  | [] => pure (false, [])
  | m :: rest =>
      if df = m.format ∧ dt = m.type then pure (true, m :: rest)
      else do
        let r ← tryFast m df dt
        match r with
        | some m' => pure (true, { m' with format := df } :: rest)
        | none => convertChain fl j df dt (m :: rest)

/-! ## Alpha -/

/-- What `ilSetAlpha` computes from its floating-point argument, clamped to 0..1: `(AlphaValue * max + .5)` rounded
down, for the three integer scales, and the bytes of the argument as a `float` and as a `double`.  The
floating-point arithmetic itself is not modelled.  il_manip.cpp:1004-1040. -/
structure AlphaVal where
  scaled : Nat → Nat
  f32 : Nat → UInt8
  f64 : Nat → UInt8

/-- The component size and bytes written by `ilSetAlpha`, il_manip.cpp:1004-1039; `none`: no case (`IL_HALF`).  The
constant of `IL_INT` and `IL_UNSIGNED_INT` is an `ILushort`, and converting a larger number to it is undefined. -/
def setWord (a : AlphaVal) (type : Nat) : C (Option (Nat × (Nat → UInt8))) :=
  if type = IL_BYTE ∨ type = IL_UNSIGNED_BYTE then pure (some (1, fun b => UInt8.ofNat (a.scaled 255 / 256 ^ b)))
  else if type = IL_SHORT ∨ type = IL_UNSIGNED_SHORT then pure (some (2, fun b => UInt8.ofNat (a.scaled 65535 / 256 ^ b)))
  else if type = IL_INT ∨ type = IL_UNSIGNED_INT then
    if a.scaled 4294967295 < 65536 then pure (some (4, fun b => UInt8.ofNat (a.scaled 4294967295 / 256 ^ b)))
    else .error .overflow
  else if type = IL_FLOAT then pure (some (4, a.f32))
  else if type = IL_DOUBLE then pure (some (8, a.f64))
  else pure none

/-- The format `ilSetAlpha` converts to first, il_manip.cpp:977-1000, or `none`. -/
def alphaTarget (f : Nat) : Option Nat :=
  if f = IL_RGB then some IL_RGBA else if f = IL_BGR then some IL_BGRA
  else if f = IL_LUMINANCE then some IL_LUMINANCE_ALPHA else if f = IL_ALPHA then some IL_RGBA else none

/-- The loops of `ilSetAlpha`, il_manip.cpp:1001-1040; `off` is `AlphaOff`. -/
def setAlphaLoop (a : AlphaVal) (m : Img) (off : Nat) : C Img := do
  let w ← setWord a m.type
  match w with
  | none => pure m
  | some (k, word) => do
      let data ← forStep (off - 1) (u32 (m.width * m.height * m.depth * m.bpp)) off (fun i b => putComp k word i b) m.data
      pure { m with data := data }

/-- `AlphaOff` after the `switch`, from the format the image has then.  il_manip.cpp:977-1000. -/
def alphaOff (f : Nat) : Nat := if f = IL_LUMINANCE_ALPHA then 2 else 4

/-- `ilSetAlpha`, il_manip.cpp:962-1042, on an image without successors that is not colour-indexed; `none` is `IL_FALSE`. -/
def ilSetAlpha (fl : FloatOps) (j : Junk) (a : AlphaVal) (m : Img) : C (Option Img) :=
  match alphaTarget m.format with
  | none => do
      let m ← setAlphaLoop a m (alphaOff m.format)
      pure (some m)
  | some f => do
      let r ← ilConvertImage fl j f m.type [m]
      match r with
      | (true, [m']) => do
          let m' ← setAlphaLoop a m' (alphaOff f)
          pure (some m')
      | _ => pure none

/-- The loop of `ilGetAlpha`, il_manip.cpp:917-951, for components of `k` bytes: `i = AlphaOff-1, j = 0; i < Size;
i += AlphaOff, j++`. -/
def getAlphaLoop (k off size : Nat) (src out : List UInt8) : C (List UInt8) :=
  loopN ((size - (off - 1) + (off - 1)) / off) (fun j b => copyComp k src (off - 1 + j * off) j b) out

/-- `ilGetAlpha`, il_manip.cpp:866-958, asked for the image's own type (no conversion); `none` is NULL. -/
def ilGetAlpha (junk : Nat → UInt8) (m : Img) (type : Nat) : C (Option (List UInt8)) :=
  if ilGetBpcType type = 0 then pure none
  else
    let bpc := ilGetBpcType type
    let size := u32 (m.width * m.height * m.depth * m.bpp)
    let n := u32 (size / m.bpp * bpc)
    let out := alloc junk n
    if m.format = IL_RGB ∨ m.format = IL_BGR ∨ m.format = IL_LUMINANCE ∨ m.format = IL_COLOUR_INDEX then
      pure (some (List.replicate n 0xFF))
    else if m.format = IL_ALPHA then do
      let out ← memcpy out 0 m.data 0 m.size
      pure (some out)
    else match caseBpc m.type with
      | none => pure (some out)
      | some k => do
          let out ← getAlphaLoop k (alphaOff m.format) size m.data out
          pure (some out)

end DevIL.ConvImage
