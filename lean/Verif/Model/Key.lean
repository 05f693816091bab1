import Verif.Model.ConvImage
import Verif.Model.Pal
/-! Model of the key colour, of `ilModAlpha`, `ilApplyPal`, `ilSetPal` and `iluSwapColours`:
DevIL/src-IL/src/il_convert.cpp:383-439, 666-885, il_manip.cpp:1046-1123, il_pal.cpp:876-897, 914-927,
DevIL/src-ILU/src/ilu_manip.cpp:480-528. -/
set_option autoImplicit false
namespace DevIL.Key
open Utility Conv Channels ConvImage

/-! ## Key colour -/

/-- What a program that converts images with a key colour has set up: the images (the current one and its `Next` chain)
and whether `IL_USE_KEY_COLOUR` is enabled.  There is no key colour in it: no variable of the library holds one,
il_convert.cpp:664 (commented out). -/
structure St where
  useKey : Bool
  chain : List Img
  deriving DecidableEq

/-- The arguments of `ilKeyColour`, as the bits of the four floats. -/
structure Colour where
  red : UInt32
  green : UInt32
  blue : UInt32
  alpha : UInt32

/-- `ilKeyColour`, il_convert.cpp:666-674: stores its arguments in four local variables and returns. -/
def ilKeyColour (_ : Colour) (s : St) : St := s

/-- Reading the component of `k` bytes at index `i`, e.g. `((ILushort*)Image->Data)[i+c]`, il_convert.cpp:747; the value of a
`float` or `double` is its bits. -/
def readComp (k : Nat) (src : List UInt8) (i : Nat) : C Nat :=
  if i * k + k ≤ src.length then pure (leVal ((src.drop (i * k)).take k)) else .error .oobRead

/-- `Data[i] != KeyColour[c] * max` is false, il_convert.cpp:728, 747, 766, 784, 802, for a component `v`: the key is 0 (681),
so the component is zero; a floating-point zero may have its sign bit set. -/
def zeroVal (type v : Nat) : Bool :=
  v == 0 || (type == IL_FLOAT && v == 0x80000000) || (type == IL_DOUBLE && v == 0x8000000000000000)

/-- `Same`, il_convert.cpp:726-730 and its variants: every component of the pixel at index `i` is that of the key. -/
def same (type k : Nat) (src : List UInt8) (i : Nat) : C Bool :=
  loopN 3 (fun c s => do
    let v ← readComp k src (i + c)
    pure (s && zeroVal type v)) true

/-- One round of the loops of `ilAddAlphaKey`, il_convert.cpp:722-736 and its variants. -/
def keyRound (type k : Nat) (src : List UInt8) (p : Nat) (b : List UInt8) : C (List UInt8) := do
  let b ← copyComp k src (p * 3) (p * 4) b
  let b ← copyComp k src (p * 3 + 1) (p * 4 + 1) b
  let b ← copyComp k src (p * 3 + 2) (p * 4 + 2) b
  let s ← same type k src (p * 3)
  putComp k (if s then fun _ => 0 else alphaWord type) (p * 4 + 3) b

/-- `ilAddAlphaKey`, il_convert.cpp:679-837, on an image that is not colour-indexed; `none` is `IL_FALSE`; allocation
succeeds. -/
def ilAddAlphaKey (junk : Nat → UInt8) (m : Img) : C (Option Img) :=
  if m.bpp ≠ 3 then pure none
  else
    let size := u32 (m.bps * m.height) / m.bpc
    let new := alloc junk (u32 (4 * m.bpc * m.width * m.height))
    match caseBpc m.type with
    | none => pure none
    | some k => do
        let data ← loopN ((size + 2) / 3) (keyRound m.type k m.data) new
        pure (some (withBpp m 4
          (if m.format = IL_RGB then IL_RGBA else if m.format = IL_BGR then IL_BGRA else m.format) data))

/-- `if (ilIsEnabled(IL_USE_KEY_COLOUR)) ilAddAlphaKey(iCurImage);`, il_convert.cpp:402-404: the result is ignored. -/
def keyed (junk : Nat → UInt8) (use : Bool) (m : Img) : C Img :=
  if use then do
    let r ← ilAddAlphaKey junk m
    pure (r.getD m)
  else pure m

/-- `ilConvertImage`, il_convert.cpp:383-439, on images that are not colour-indexed, with the key colour. -/
def ilConvertImage (fl : FloatOps) (j : Junk) (junk : Nat → UInt8) (df dt : Nat) (s : St) : C (Bool × St) :=
  match s.chain with
  | [] => pure (false, s)
  | m :: rest =>
      if df = m.format ∧ dt = m.type then pure (true, s)
      else do
        let r ← tryFast m df dt
        match r with
        | some m' => pure (true, { s with chain := { m' with format := df } :: rest })
        | none => do
            let m ← keyed junk s.useKey m
            let q ← convertChain fl j df dt (m :: rest)
            pure (q.1, { s with chain := q.2 })

/-! ## ilModAlpha -/

/-- The format `ilModAlpha` converts to first, il_manip.cpp:1067-1084 (not colour-indexed), or `none`: `ret` stays
`IL_FALSE`. -/
def modTarget (f : Nat) : Option Nat :=
  if f = IL_RGB then some IL_RGBA else if f = IL_BGR then some IL_BGRA
  else if f = IL_LUMINANCE then some IL_LUMINANCE_ALPHA else none

/-- The component size and bytes written by `ilModAlpha`, il_manip.cpp:1090-1120; `none`: no case (`IL_HALF`). -/
def modWord (a : AlphaVal) (type : Nat) : Option (Nat × (Nat → UInt8)) :=
  if type = IL_BYTE ∨ type = IL_UNSIGNED_BYTE then some (1, fun b => UInt8.ofNat (a.scaled 255 / 256 ^ b))
  else if type = IL_SHORT ∨ type = IL_UNSIGNED_SHORT then some (2, fun b => UInt8.ofNat (a.scaled 65535 / 256 ^ b))
  else if type = IL_INT ∨ type = IL_UNSIGNED_INT then some (4, fun b => UInt8.ofNat (a.scaled 4294967295 / 256 ^ b))
  else if type = IL_FLOAT then some (4, a.f32)
  else if type = IL_DOUBLE then some (8, a.f64)
  else none

/-- The loops of `ilModAlpha`, il_manip.cpp:1085, 1090-1120; `off` is `AlphaOff`. -/
def modLoop (a : AlphaVal) (m : Img) (off : Nat) : C Img :=
  match modWord a m.type with
  | none => pure m
  | some (k, word) => do
      let data ← forStep (off - 1) (u32 (m.width * m.height * m.depth * m.bpp)) off (fun i b => putComp k word i b) m.data
      pure { m with data := data }

/-- `ilModAlpha`, il_manip.cpp:1046-1123, on an image without successors that is not colour-indexed, for an argument from 0
to 1, with `IL_USE_KEY_COLOUR` disabled; the image afterwards.  (There is no return value.) -/
def ilModAlpha (fl : FloatOps) (j : Junk) (a : AlphaVal) (m : Img) : C Img :=
  match modTarget m.format with
  | none => pure m
  | some f => do
      let r ← ConvImage.ilConvertImage fl j f m.type [m]
      match r with
      | (true, [m']) => modLoop a m' (if m.format = IL_LUMINANCE then 2 else 4)
      | _ => pure m

/-! ## Palettes -/

/-- The guard of `ilApplyPal`, il_pal.cpp:924: `Format != IL_BYTE || Format != IL_UNSIGNED_BYTE`. -/
def applyGuard (m : Img) : Bool := m.format != IL_BYTE || m.format != IL_UNSIGNED_BYTE

/-- `ilApplyPal`, il_pal.cpp:914-927.  `rest` is everything after the guard (929-1111), whatever it does. -/
def ilApplyPal {φ : Type} (rest : φ → Img → C (Bool × Option Img)) (file : φ) (cur : Option Img) : C (Bool × Option Img) :=
  match cur with
  | none => pure (false, none)
  | some m => if applyGuard m then pure (false, some m) else rest file m

/-- The argument of `ilSetPal`: NULL, a pointer to a palette of the caller, or a pointer to the palette of the current image
(`&ilGetCurImage()->Pal`). -/
inductive PalArg where
  | null
  | caller (p : Pal)
  | own

/-- A palette is present: `Palette && PalSize && PalType != IL_PAL_NONE`, il_pal.cpp:878, 882; an empty buffer stands for a
NULL pointer. -/
def present (p : Pal) : Bool := p.data ≠ [] && p.size != 0 && p.type != IL_PAL_NONE

/-- `ilSetPal`, il_pal.cpp:876-897; allocation succeeds.  The palette of the current image is freed first, so a copy
from it reads freed memory. -/
def ilSetPal (junk : Nat → UInt8) (arg : PalArg) (cur : Option Pal) : C Pal :=
  match cur with
  | none => .error .nullDeref
  | some old =>
      match arg with
      | .null => .error .nullDeref
      | .own => if present old then .error .useAfterFree else pure ⟨[], 0, IL_PAL_NONE⟩
      | .caller p =>
          if present p then do
            let d ← memcpy (alloc junk p.size) 0 p.data 0 p.size
            pure ⟨d, p.size, p.type⟩
          else pure ⟨[], 0, IL_PAL_NONE⟩

/-! ## iluSwapColours -/

/-- Where the toolkit's own pointer to the current image points: set by the last toolkit call that sets it, ilu_internal.cpp:8,
e.g. ilu_manip.cpp:13. -/
inductive Last where
  | null
  | freed
  | image (m : Img)

/-- `iluSwapColours`, ilu_manip.cpp:480-528, on a current image that is not colour-indexed, without successors.  The test
of 490 looks at the toolkit's own pointer, the rest at the current image. -/
def iluSwapColours (fl : FloatOps) (j : Junk) (last : Last) (m : Img) : C (Bool × Img) :=
  match last with
  | .null => .error .nullDeref
  | .freed => .error .useAfterFree
  | .image l =>
      if l.bpp = 1 ∧ l.format ≠ IL_COLOUR_INDEX then pure (false, m)
      else match swapFormat m.format with
        | none => pure (false, m)
        | some f => do
            let r ← ConvImage.ilConvertImage fl j f m.type [m]
            match r with
            | (ok, [m']) => pure (ok, m')
            | (ok, _) => pure (ok, m)

end DevIL.Key
