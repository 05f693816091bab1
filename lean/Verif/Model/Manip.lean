import Verif.Model.Image
/-! Model of DevIL/src-IL/src/il_manip.cpp: flip, mirror, block reads and writes, alpha, NTSC clamp. -/
set_option autoImplicit false
namespace DevIL.Manip
open Utility

/-- `iMemSwap(buff + a, buff + c, n)` (il_utility.cpp:148-171) on two regions of the same block, which must lie in
the block and not overlap (otherwise its `memcpy`s are undefined). -/
def swapRegions (b : List UInt8) (a c n : Nat) : C (List UInt8) :=
  if a + n ≤ b.length ∧ c + n ≤ b.length ∧ (a + n ≤ c ∨ c + n ≤ a) then do
    let (s1, s2) ← iMemSwap ((b.drop a).take n) ((b.drop c).take n) n
    let b ← memcpy b a s1 0 n
    memcpy b c s2 0 n
  else .error .oobWrite

/-- `iFlipBuffer`, il_manip.cpp:223-239.  `EndPtr` starts one past the slice and is decremented before each swap,
`StartPtr` incremented after it. -/
def iFlipBuffer (buff : List UInt8) (depth lineSize lineNum : Nat) : C (List UInt8) :=
  let size := u32 (lineNum * lineSize)
  loopN depth (fun d b =>
    loopN (lineNum / 2) (fun y b =>
      swapRegions b (u32 (d * size) + y * lineSize) (u32 (d * size) + size - (y + 1) * lineSize) lineSize) b) buff

/-- `iFlipNewBuffer`, il_manip.cpp:242-264. -/
def iFlipNewBuffer (junk : Nat → UInt8) (buff : List UInt8) (depth lineSize lineNum : Nat) : C (List UInt8) :=
  let size := u32 (lineNum * lineSize)
  loopN depth (fun d b =>
    loopN lineNum (fun y b =>
      memcpy b (u32 (d * size) + size - (y + 1) * lineSize) buff (u32 (d * size) + y * lineSize) lineSize) b)
    (alloc junk (u32 (depth * size)))

/-- `ilFlipImage`, il_manip.cpp:268-281. -/
def ilFlipImage (m : Img) : C Img := do
  let data ← iFlipBuffer m.data m.depth m.bps m.height
  pure { m with data := data,
                origin := if m.origin = IL_ORIGIN_LOWER_LEFT then IL_ORIGIN_UPPER_LEFT else IL_ORIGIN_LOWER_LEFT }

/-- `iGetFlipped`, il_manip.cpp:284-291. -/
def iGetFlipped (junk : Nat → UInt8) (m : Img) : C (List UInt8) :=
  iFlipNewBuffer junk m.data m.depth m.bps m.height

/-- `iMirror`, il_manip.cpp:296-376.  The four arms differ in the element type, of `Bpc` bytes; an element is
copied as `Bpc` bytes.  `Temp` advances by one element per copy: its position is written as a function of the
loop counters (`x` counts down from `Width - 1`, here `x = Width - 1 - k`).  Simplification: `x * Bpp` is an
`int` in the code; the model is the code for rows of fewer than 2^31 components.  Any other `Bpc` copies nothing. -/
def iMirror (junk : Nat → UInt8) (m : Img) : C Img := do
  let pixLine := m.bps / m.bpc
  let data ←
    if m.bpc = 1 ∨ m.bpc = 2 ∨ m.bpc = 4 ∨ m.bpc = 8 then
      loopN m.depth (fun d b => loopN m.height (fun y b => loopN m.width (fun k b => loopN m.bpp (fun c b =>
        memcpy b (u32 (d * m.plane) + u32 (y * pixLine + (m.width - 1 - k) * m.bpp + c) * m.bpc)
          m.data ((((d * m.height + y) * m.width + k) * m.bpp + c) * m.bpc) m.bpc) b) b) b) (alloc junk m.size)
    else .ok (alloc junk m.size)
  pure { m with data := data }

/-- Two's complement value of a 32-bit word.  il_manip.cpp:587-748. -/
def i32 (n : Nat) : Int := if u32 n < 2147483648 then (u32 n : Int) else (u32 n : Int) - 4294967296

/-- The 32-bit word of an integer (conversion of `ILint` to `ILuint`).  il_manip.cpp:587-748. -/
def toU32 (i : Int) : Nat := (i % 4294967296).toNat

/-- `iCurImage->Width < XOff + Width ? iCurImage->Width - XOff : Width` (e.g. il_manip.cpp:395-400, unsigned). -/
def clip (img off n : Nat) : Nat := if img < u32 (off + n) then toU32 ((img : Int) - off) else n

/-- The loops of `ilCopyPixels1D`, il_manip.cpp:393-406; `out` is the caller's buffer, `src` the image data. -/
def copyPixels1D (m : Img) (src : List UInt8) (xoff w : Nat) (out : List UInt8) : C (List UInt8) :=
  let pix := u32 (m.bpp * m.bpc)
  let newBps := u32 (clip m.width xoff w * pix)
  let newOff := u32 (xoff * pix)
  forStep 0 newBps pix (fun x b => loopN pix (fun c b => do
    let v ← rd src (u32 (x + newOff + c))
    wr b (u32 (x + c)) v) b) out

/-- The loops of `ilCopyPixels2D`, il_manip.cpp:430-455. -/
def copyPixels2D (m : Img) (src : List UInt8) (xoff yoff w h : Nat) (out : List UInt8) : C (List UInt8) :=
  let pix := u32 (m.bpp * m.bpc)
  let newBps := u32 (clip m.width xoff w * pix)
  let newH := clip m.height yoff h
  let dataBps := u32 (w * pix)
  let newXOff := u32 (xoff * pix)
  loopN newH (fun y b => forStep 0 newBps pix (fun x b => loopN pix (fun c b => do
    let v ← rd src (u32 ((y + yoff) * m.bps + x + newXOff + c))
    wr b (u32 (y * dataBps + x + c)) v) b) b) out

/-- The loops of `ilCopyPixels3D`, il_manip.cpp:475-509. -/
def copyPixels3D (m : Img) (src : List UInt8) (xoff yoff zoff w h d : Nat) (out : List UInt8) : C (List UInt8) :=
  let pix := u32 (m.bpp * m.bpc)
  let newBps := u32 (clip m.width xoff w * pix)
  let newH := clip m.height yoff h
  let newD := clip m.depth zoff d
  let dataBps := u32 (w * pix)
  let newPlane := u32 (newBps * newH)
  let newXOff := u32 (xoff * pix)
  loopN newD (fun z b => loopN newH (fun y b => forStep 0 newBps pix (fun x b => loopN pix (fun c b => do
    let v ← rd src (u32 ((z + zoff) * m.plane + (y + yoff) * m.bps + x + newXOff + c))
    wr b (u32 (z * newPlane + y * dataBps + x + c)) v) b) b) b) out

/-- `TempData = iGetFlipped(iCurImage)` when `IL_ORIGIN_SET` is enabled and `IL_ORIGIN_MODE` differs from the
image's origin (e.g. il_manip.cpp:385-391); `mode` is the mode when enabled. -/
def oriented (junk : Nat → UInt8) (m : Img) (mode : Option Nat) : C (List UInt8) :=
  match mode with
  | none => pure m.data
  | some o => if o = m.origin then pure m.data else iGetFlipped junk m

/-- The choice between the three copies, il_manip.cpp:545-559 (unsigned sums). -/
def copyDispatch (m : Img) (src : List UInt8) (xoff yoff zoff w h d : Nat) (out : List UInt8) : C (List UInt8) :=
  if u32 (yoff + h) ≤ 1 then copyPixels1D m src xoff w out
  else if u32 (zoff + d) ≤ 1 then copyPixels2D m src xoff yoff w h out
  else copyPixels3D m src xoff yoff zoff w h d out

/-- `ilCopyPixels`, il_manip.cpp:518-584, for a `Format` and `Type` equal to the image's (no conversion): the
returned size and the caller's buffer. -/
def ilCopyPixels (junk : Nat → UInt8) (m : Img) (mode : Option Nat) (xoff yoff zoff w h d : Nat) (out : List UInt8) :
    C (Nat × List UInt8) :=
  let destSize := u32 (w * h * d * ilGetBppFormat m.format * ilGetBpcType m.type)
  if destSize = 0 then pure (0, out)
  else if m.format = IL_COLOUR_INDEX then pure (0, out)
  else do
    let src ← oriented junk m mode
    let out ← copyDispatch m src xoff yoff zoff w h d out
    pure (destSize, out)

/-- The skipped amount and the offset after `if (XOff < 0) { SkipX = abs(XOff); XOff = 0; }`
(il_manip.cpp:600-603). -/
def skip (off : Int) : Nat × Nat := if off < 0 then (off.natAbs, 0) else (0, off.toNat)

/-- `NewWidth` of il_manip.cpp:605-612: the clipped extent less the skipped part, an `ILint`. -/
def extent (img off n skipped : Nat) : Int := i32 (toU32 ((clip img off n : Int) - skipped))

/-- The loops of `ilSetPixels1D`, il_manip.cpp:600-622. -/
def setPixels1D (m : Img) (dst : List UInt8) (xoff : Int) (w : Nat) (src : List UInt8) : C (List UInt8) :=
  let pix := u32 (m.bpp * m.bpc)
  let (skipX, x0) := skip xoff
  let nw := extent m.width x0 w skipX
  loopN nw.toNat (fun x b => loopN pix (fun c b => do
    let v ← rd src (u32 ((x + skipX) * pix + c))
    wr b (u32 ((x + x0) * pix + c)) v) b) dst

/-- The loops of `ilSetPixels2D`, il_manip.cpp:645-677. -/
def setPixels2D (m : Img) (dst : List UInt8) (xoff yoff : Int) (w h : Nat) (src : List UInt8) : C (List UInt8) :=
  let pix := u32 (m.bpp * m.bpc)
  let (skipX, x0) := skip xoff
  let (skipY, y0) := skip yoff
  let nw := extent m.width x0 w skipX
  let nh := extent m.height y0 h skipY
  let newBps := u32 (w * pix)
  loopN nh.toNat (fun y b => loopN nw.toNat (fun x b => loopN pix (fun c b => do
    let v ← rd src (u32 ((y + skipY) * newBps + (x + skipX) * pix + c))
    wr b (u32 ((y + y0) * m.bps + (x + x0) * pix + c)) v) b) b) dst

/-- The loops of `ilSetPixels3D`, il_manip.cpp:702-748. -/
def setPixels3D (m : Img) (dst : List UInt8) (xoff yoff zoff : Int) (w h d : Nat) (src : List UInt8) : C (List UInt8) :=
  let pix := u32 (m.bpp * m.bpc)
  let (skipX, x0) := skip xoff
  let (skipY, y0) := skip yoff
  let (skipZ, z0) := skip zoff
  let nw := extent m.width x0 w skipX
  let nh := extent m.height y0 h skipY
  let nd := extent m.depth z0 d skipZ
  let newBps := u32 (w * pix)
  let newPlane := u32 (newBps * h)
  loopN nd.toNat (fun z b => loopN nh.toNat (fun y b => loopN nw.toNat (fun x b => loopN pix (fun c b => do
    let v ← rd src (u32 ((z + skipZ) * newPlane + (y + skipY) * newBps + (x + skipX) * pix + c))
    wr b (u32 ((z + z0) * m.plane + (y + y0) * m.bps + (x + x0) * pix + c)) v) b) b) b) dst

/-- The choice between the three writes, il_manip.cpp:780-788 (the sums are unsigned). -/
def setDispatch (m : Img) (dst : List UInt8) (xoff yoff zoff : Int) (w h d : Nat) (src : List UInt8) : C (List UInt8) :=
  if toU32 (yoff + h) ≤ 1 then setPixels1D m dst xoff w src
  else if toU32 (zoff + d) ≤ 1 then setPixels2D m dst xoff yoff w h src
  else setPixels3D m dst xoff yoff zoff w h d src

/-- `ilSetPixels`, il_manip.cpp:759-799, for a `Format` and `Type` equal to the image's; the block written to
replaces the image data (il_manip.cpp:620-623). -/
def ilSetPixels (junk : Nat → UInt8) (m : Img) (mode : Option Nat) (xoff yoff zoff : Int) (w h d : Nat) (src : List UInt8) :
    C Img := do
  let dst ← oriented junk m mode
  let data ← setDispatch m dst xoff yoff zoff w h d src
  pure { m with data := data }

/-- `IL_LIMIT(x, m, M)`, include/IL/il.h:152. -/
def limit (v lo hi : UInt8) : UInt8 := if v < lo then lo else if v > hi then hi else v

/-- `ilClampNTSC`, il_manip.cpp:1129-1154; `Offset` grows by `Bpp` per pixel and is written as a function of the
counters.  `none` is `IL_FALSE`. -/
def ilClampNTSC (m : Img) : C (Option Img) :=
  if m.type ≠ IL_UNSIGNED_BYTE then pure none
  else do
    let data ← loopN m.depth (fun z b => loopN m.height (fun y b => loopN m.width (fun x b => loopN m.bpp (fun c b => do
      let v ← rd b (u32 (((z * m.height + y) * m.width + x) * m.bpp + c))
      wr b (u32 (((z * m.height + y) * m.width + x) * m.bpp + c)) (limit v 16 235)) b) b) b) m.data
    pure (some { m with data := data })

end DevIL.Manip
