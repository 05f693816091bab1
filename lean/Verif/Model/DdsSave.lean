import Verif.Model.DxtSave
/-! The DDS saver, il_dds-save.cpp:22-303, without cube maps. -/
set_option autoImplicit false
namespace DevIL.DdsSave

open DevIL.Image DevIL.Lump DevIL.Dxt DevIL.DxtSave

/-- The format the header names, il_dds-save.cpp:206-209. -/
def named (fmt : Nat) : Nat := if fmt = IL_DXT2 then IL_DXT3 else if fmt = IL_DXT4 then IL_DXT5 else fmt

/-- The number the letters `FourCC` are written as, il_dds-save.cpp:211-243; `none` is the error. -/
def fourCC (fmt : Nat) : Option Nat :=
  if fmt = IL_DXT1 ∨ fmt = IL_DXT1A then some 0x31545844
  else if fmt = IL_DXT2 then some 0x32545844
  else if fmt = IL_DXT3 then some 0x33545844
  else if fmt = IL_DXT4 then some 0x34545844
  else if fmt = IL_DXT5 then some 0x35545844
  else if fmt = IL_ATI1N then some 0x31495441
  else if fmt = IL_3DC then some 0x32495441
  else if fmt = IL_RXGB then some 0x42475852
  else none

/-- `Flags1`, il_dds-save.cpp:198-203. -/
def flags1 (m : Img) : Nat := 0x80000 ||| 0x20000 ||| 4 ||| 2 ||| 1 ||| 0x1000 ||| (if m.depth > 1 then 0x800000 else 0)

/-- `LinearSize`, il_dds-save.cpp:251-257. -/
def linearSize (m : Img) (fmt : Nat) : Nat :=
  u32 (u32 (u32 (u32 (m.width + 3) / 4 * (u32 (m.height + 3) / 4)) * (if fmt = IL_DXT1 ∨ fmt = IL_DXT1A ∨ fmt = IL_ATI1N then 8 else 16)) * m.depth)

/-- `ddsCaps1`, il_dds-save.cpp:289-294, without cube maps. -/
def caps1 (mips : Nat) : Nat := 0x1000 ||| (if mips > 0 then 0x400000 ||| 8 else 0)

/-- What `WriteHeader` writes, il_dds-save.cpp:191-303, for an image with `mips` mipmaps that is no cube map.  Nothing is written for a format that is not known;
the result is not looked at (148). -/
def writeHeader (big : Bool) (m : Img) (mips fmt : Nat) : List WOp :=
  match fourCC (named fmt) with
  | none => []
  | some cc =>
    [WOp.write [68, 68, 83, 32] 1 4, Bmp.int big 124, Bmp.int big (flags1 m), Bmp.int big m.height, Bmp.int big m.width, Bmp.int big (linearSize m (named fmt)),
      Bmp.int big (if m.depth > 1 then m.depth else 0), Bmp.int big (mips + 1), Bmp.int big 0] ++ List.replicate 10 (Bmp.int big 0) ++
    [Bmp.int big 32, Bmp.int big 4, Bmp.int big cc, Bmp.int big 0, Bmp.int big 0, Bmp.int big 0, Bmp.int big 0, Bmp.int big 0, Bmp.int big (caps1 mips),
      Bmp.int big (if m.depth > 1 then 0x200000 else 0), Bmp.int big 0, Bmp.int big 0, Bmp.int big 0]

/-- One image is compressed, il_dds-save.cpp:164-180: what is written, whether it succeeds, and the image after it.  `none`: the conversion of `IL_ATI1N`, which is not modelled. -/
def level (big : Bool) (k : Mem) (m : Img) (fmt : Nat) : C (Option (List WOp × Bool × Img)) := do
  let d ← (if m.origin ≠ IL_ORIGIN_UPPER_LEFT then Manip.iGetFlipped k.bytes m else pure m.data)
  match ← Compress big k { m with data := d } fmt with
  | none => pure none
  | some (ops, n) => pure (some (ops, decide (n ≠ 0), if n = 0 then { m with data := d } else m))

/-- The loop over the mipmaps, il_dds-save.cpp:158-182: `chain` is the image that the name stands for and its mipmaps; for a mipmap that is not there `ilActiveMipmap` fails
(il_stack.cpp:317-331) and the image is taken again. -/
def levels (big : Bool) (k : Mem) (fmt : Nat) (chain : List Img) : List Nat → C (Option (Bool × List WOp × List Img))
  | [] => pure (some (true, [], chain))
  | n :: ns =>
    let i := if n < chain.length then n else 0
    match chain[i]? with
    | none => .error .nullDeref
    | some m => do
      match ← level big k m fmt with
      | none => pure none
      | some (ops, ok, m') =>
        if ok then do
          match ← levels big k fmt chain ns with
          | none => pure none
          | some (r, rest, c) => pure (some (r, ops ++ rest, c))
        else pure (some (false, ops, chain.set i m'))

/-- `iSaveDdsInternal`, il_dds-save.cpp:136-187, for an image that is no cube map: the result, the calls that write, and the images after it.  `cur` is the current image, with `mips`
mipmaps; `chain` is the image its name stands for, followed by the mipmaps of that; `cur` is another one if `ilActiveImage` or `ilActiveMipmap` were called. -/
def iSaveDdsInternal (big : Bool) (k : Mem) (cur : Img) (mips : Nat) (chain : List Img) (fmt : Nat) : C (Option (Bool × List WOp × List Img)) := do
  match ← levels big k fmt chain (List.range (mips + 1)) with
  | none => pure none
  | some (r, ops, c) => pure (some (r, writeHeader big cur mips fmt ++ ops, c))

end DevIL.DdsSave
