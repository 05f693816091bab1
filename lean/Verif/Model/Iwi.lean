import Verif.Model.Dds
/-! Model of the loader of Infinity Ward images, il_iwi.cpp.  As in Model/Games.lean an image is bound, allocation succeeds and `ilFixImage` is left out, and so is
the copy of the compressed data (`IL_KEEP_DXTC_DATA`, 347-353). -/
set_option autoImplicit false
namespace DevIL.Iwi
open DevIL.Games DevIL.Detect DevIL.Image
open DevIL.Dds (texN halve)

/-- `IwiGetFormat`, il_iwi.cpp:225-253: the bytes per pixel and the format. -/
def kindOf (fmt : Nat) : Nat × Nat :=
  if fmt = 1 then (4, IL_BGRA) else if fmt = 2 then (3, IL_BGR) else if fmt = 3 then (4, IL_BGRA) else if fmt = 4 then (1, IL_ALPHA) else (4, IL_RGBA)

/-- The sizes of the mipmaps that `IwiInitMipmaps` makes, il_iwi.cpp:266-281. -/
def mipSizes : Nat → Nat → Nat → C (List (Nat × Nat))
  | 0, _, _ => .error .hang
  | fuel + 1, w, h =>
    if w ≠ 1 ∧ h ≠ 1 then do
      let r ← mipSizes fuel (halve w) (halve h)
      pure ((halve w, halve h) :: r)
    else pure []

/-- The loop over the pixels of four bits, il_iwi.cpp:321-327; `m` is half of `k`. -/
def nibbles (n : Nat) (c d : List UInt8) : C (List UInt8) :=
  forStep 0 n 4 (fun k d => do
    let a ← rd c (k / 2)
    let b ← rd c (k / 2 + 1)
    let d ← wr d k (a &&& 0xF0)
    let d ← wr d (k + 1) ((a &&& 0x0F) <<< 4)
    let d ← wr d (k + 2) (b &&& 0xF0)
    wr d (k + 3) ((b &&& 0x0F) <<< 4)) d

/-- `(ILint)Image->SizeOfData` as the end of a loop from 0, il_iwi.cpp:321: 0 if it is negative. -/
def upTo (n : Nat) : Nat := if n < 2147483648 then n else 0

section
variable {σ : Type} (o : Ops σ) (junk : Nat → UInt8)

/-- The data of an image: whether all went well, the block and the input.  il_iwi.cpp:302-392. -/
def readLevel (fmt : Nat) (m : Img) (s : σ) : C (Bool × List UInt8 × σ) :=
  if fmt = 1 ∨ fmt = 2 ∨ fmt = 4 then do
    let (n, d, s) ← into o s m.data 1 m.size
    pure (decide (n = m.size), d, s)
  else
    let size := if fmt = 3 then u32 (m.width * m.height * 2) else if fmt = 11 then max (u32 (m.width * m.height) / 2) 8 else max (u32 (m.width * m.height)) 16
    do
      let (n, c, s) ← into o s (alloc junk size) 1 size
      if n ≠ size then pure (false, m.data, s)
      else do
        let d ← (if fmt = 3 then nibbles (upTo m.size) c m.data else Dxt.DdsDecompress m (if fmt = 11 then IL_DXT1 else if fmt = 12 then IL_DXT3 else IL_DXT5) c)
        pure (true, d, s)

/-- `IwiReadImage`, il_iwi.cpp:288-398: the images still to be read, from the smallest to the largest, and those that have been read, the largest first. -/
def readAll (fmt : Nat) : List Img → List Img → σ → C (Bool × List Img × σ)
  | [], done, s => pure (true, done, s)
  | m :: ms, done, s => do
    let (ok, d, s) ← readLevel o junk fmt m s
    if ok then readAll fmt ms ({ m with data := d } :: done) s
    else pure (false, ms.reverse ++ { m with data := d } :: done, s)

/-- The images that the data are read into, il_iwi.cpp:210-216: the image and its mipmaps. -/
def blanks (fmt w h : Nat) (mips : Bool) : C (List Img) := do
  let sizes ← (if mips then mipSizes 17 w h else pure [])
  pure (((w, h) :: sizes).map (fun t => texN junk t.1 t.2 1 (kindOf fmt).1 (kindOf fmt).2 IL_UNSIGNED_BYTE))

/-- `iLoadIwiInternal`, il_iwi.cpp:184-221: the result, and the image and its mipmaps. -/
def iLoadIwiInternal (cur : Img) (s : σ) : C (Bool × List Img × σ) := do
  let (hd, s) ← head o junk [u32f, .getc, .getc, u16, u16, .skip 18] s
  let ok ← iCheckIwi hd
  if !ok then pure (false, [cur], s)
  else do
    let ms ← blanks junk (fle hd 1) (fle hd 3) (fle hd 4) (decide (fle hd 2 % 4 ≠ 3))
    readAll o junk (fle hd 1) ms.reverse [] s

end
end DevIL.Iwi
