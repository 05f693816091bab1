import Verif.Model.Games
/-! Model of the loader of Apple icons, il_icns.cpp, built without JPEG 2000.  An image is bound that no other image follows, an allocation of 2^31 bytes or more fails and others succeed, and `ilFixImage` is left
out. -/
set_option autoImplicit false
namespace DevIL.Icns
open DevIL.Games DevIL.Detect DevIL.Image
open DevIL.Lump (SEEK_SET SEEK_CUR)

section
variable {σ : Type} (o : Ops σ) (junk : Nat → UInt8)

/-- The RLE decoding of a channel, il_icns.cpp:329-353, in at most so many turns: the next place in the data, and the block. -/
def rle (data : List UInt8) (w2 ch : Nat) : Nat → Nat → Nat → List UInt8 → C (Nat × List UInt8)
  | 0, _, _, _ => .error .hang
  | f + 1, pos, rp, d =>
    if w2 ≤ pos then pure (rp, d)
    else do
      let c ← rd data rp
      if 128 ≤ c.toNat then do
        let d ← loopN (min (c.toNat - 125) (w2 - pos)) (fun i d => do
          let v ← rd data (rp + 1)
          wr d (ch + (pos + i) * 4) v) d
        rle data w2 ch f (pos + (c.toNat - 125)) (rp + 2) d
      else do
        let d ← loopN (min (c.toNat + 1) (w2 - pos)) (fun i d => do
          let v ← rd data (rp + 1 + i)
          wr d (ch + (pos + i) * 4) v) d
        rle data w2 ch f (pos + (c.toNat + 1)) (rp + 1 + (c.toNat + 1)) d

/-- The colours of an icon, il_icns.cpp:311-355. -/
def colours (data : List UInt8) (w : Nat) (d : List UInt8) : C (List UInt8) :=
  if data.length = w * w * 4 then
    loopN (w * w) (fun i d => do
      let a ← rd data (4 * i + 1)
      let d ← wr d (i * 4 + 0) a
      let b ← rd data (4 * i + 2)
      let d ← wr d (i * 4 + 1) b
      let c ← rd data (4 * i + 3)
      wr d (i * 4 + 2) c) d
  else do
    let (_, d) ← loopN 3 (fun ch t => rle data (w * w) ch (w * w + 1) 0 t.1 t.2) (if w = 128 then 4 else 0, d)
    pure d

/-- The image of an icon before anything is stored in it, il_icns.cpp:263-264, 270-273. -/
def blank (w : Nat) : Img := { tex junk w w 4 IL_RGBA with origin := IL_ORIGIN_UPPER_LEFT }

/-- `iIcnsReadData`, il_icns.cpp:231-360: the images are those made so far. -/
def iIcnsReadData (isAlpha : Bool) (w : Nat) (size : Int) (imgs : List Img) (s : σ) : C (Bool × List Img × σ) :=
  if size - 8 < 0 then pure (false, imgs, s)
  else do
    let n := (size - 8).toNat
    let idx := imgs.findIdx (fun m => m.width == w)
    let imgs := if idx < imgs.length then imgs else imgs ++ [blank junk w]
    let m ← rd imgs idx
    let (_, data, s) ← into o s (alloc junk n) n 1
    if isAlpha then
      if n ≠ w * w then pure (false, imgs, s)
      else do
        let d ← loopN (w * w) (fun i d => do
          let v ← rd data i
          wr d (i * 4 + 3) v) m.data
        pure (true, imgs.set idx { m with data := d }, s)
    else do
      let d ← colours data w m.data
      pure (true, imgs.set idx { m with data := d }, s)

/-- The identifiers, il_icns.cpp:167-206: whether it is a mask, and the width. -/
def kindOf (id : List UInt8) : Option (Bool × Nat) :=
  if id = [105, 116, 51, 50] then some (false, 128) else if id = [116, 56, 109, 107] then some (true, 128)
  else if id = [105, 104, 51, 50] then some (false, 48) else if id = [104, 56, 109, 107] then some (true, 48)
  else if id = [105, 108, 51, 50] then some (false, 32) else if id = [108, 56, 109, 107] then some (true, 32)
  else if id = [105, 115, 51, 50] then some (false, 16) else if id = [115, 56, 109, 107] then some (true, 16) else none

/-- The loop over the entries, il_icns.cpp:162-228, in at most so many turns. -/
def entries (size : Int) : Nat → List Img → σ → C (Bool × List Img × σ)
  | 0, _, _ => .error .hang
  | f + 1, imgs, s =>
    if Lump.toInt (o.tell s) < size then
      let (e, s) := o.eof s
      if e then pure (true, imgs, s)
      else do
        let (h, s) ← head o junk [u32f, u32f] s
        match kindOf (fld h 0) with
        | some (isAlpha, w) => do
          let (ok, imgs, s) ← iIcnsReadData o junk isAlpha w (Lump.toInt (fbe h 1)) imgs s
          if ok then entries size f imgs s else pure (false, imgs, s)
        | none => do
          let (_, s) ← o.seek s (Lump.toInt (fbe h 1) - 8) SEEK_CUR
          entries size f imgs s
    else pure (true, imgs, s)

/-- `iLoadIcnsInternal`, il_icns.cpp:142-229: the result, and the image and those that follow it. -/
def iLoadIcnsInternal (fuel : Nat) (cur : Img) (s : σ) : C (Bool × List Img × σ) := do
  let (h, s) ← head o junk [u32f, u32f] s
  if fld h 0 ≠ [105, 99, 110, 115] then pure (false, [cur], s)
  else do
    let (ok, ms, s) ← entries o junk (Lump.toInt (fbe h 1)) fuel [] s
    pure (ok, if ms = [] then [cur] else ms, s)

end
end DevIL.Icns
