import Verif.Buf
/-! Model of the tiles of Maya IFF pictures, il_iff.cpp: unpacking, and copying to the image.  The chunks around them are not modelled; a tile has all the bytes its chunk says; allocation succeeds; the products of the size of a tile fit into an `int`. -/
set_option autoImplicit false
namespace DevIL.Iff

/-- The loop of `iff_decompress_rle`, il_iff.cpp:447-473, in at most so many turns: the bytes unpacked and the place in the content.  `b` is `byteCount`. -/
def rle (z : List UInt8) (num : Nat) : Nat → List UInt8 → Nat → Nat → C (List UInt8 × Nat)
  | 0, d, b, p => if b < num ∧ p < z.length then .error .hang else pure (d, p)
  | f + 1, d, b, p =>
    if b < num ∧ p < z.length then do
      let c ← rd z p
      let p := p + 1
      let count := c.toNat % 128 + 1
      if num < b + count then pure (d, p)
      else if 128 ≤ c.toNat then do
        let v ← rd z p
        let d ← loopN count (fun i d => wr d (b + i) v) d
        rle z num f d (b + count) (p + 1)
      else do
        let d ← loopN count (fun i d => do let v ← rd z (p + i); wr d (b + i) v) d
        rle z num f d (b + count) (p + count)
    else pure (d, p)

/-- `iff_decompress_rle`, il_iff.cpp:433-477: every turn unpacks a byte, so that this many are enough. -/
def iff_decompress_rle (num : Nat) (z : List UInt8) (p : Nat) : C (List UInt8 × Nat) :=
  rle z num num (List.replicate num 0) 0 p

/-- `iff_decompress_tile_rle`, il_iff.cpp:394-431; rows and columns are one loop. -/
def iff_decompress_tile_rle (junk : Nat → UInt8) (w h depth : Nat) (z : List UInt8) : C (Option (List UInt8)) :=
  if depth ≠ 4 then pure none
  else do
    let (c3, p) ← iff_decompress_rle (w * h) z 0
    let (c2, p) ← iff_decompress_rle (w * h) z p
    let (c1, p) ← iff_decompress_rle (w * h) z p
    let (c0, _) ← iff_decompress_rle (w * h) z p
    let d ← loopN (w * h) (fun i d => loopN 4 (fun k d => do
      let c ← rd [c0, c1, c2, c3] k
      let v ← rd c i
      wr d (4 * i + k) v) d) (alloc junk (w * h * depth))
    pure (some d)

/-- The turn of the loop of `iffReadUncompressedTile` for one pixel, il_iff.cpp:382-389: the bytes and `iniPixel`. -/
def swap (depth : Nat) (d : List UInt8) (ini : Nat) : C (List UInt8 × Nat) := do
  let d ← loopN (depth / 2) (fun j d => do
    let aux ← rd d (ini + j)
    let v ← rd d (ini + j)
    let d ← wr d (ini + depth - j) v
    wr d (ini + j) aux) d
  pure (d, ini + depth / 2)

/-- `iffReadUncompressedTile`, il_iff.cpp:362-391. -/
def iffReadUncompressedTile (w h depth : Nat) (z : List UInt8) : C (List UInt8) := do
  let (d, _) ← loopN (w * h * depth / depth) (fun _ s => swap depth s.1 s.2) (z.take (w * h * depth), 0)
  pure d

/-- What `iLoadIffInternal`, il_iff.cpp:119-291, does with a tile of colours, il_iff.cpp:239-282: the block of the image, unless the loader gives up. `z` is what the chunk has after the corners. -/
def tile (junk : Nat → UInt8) (bpp width : Nat) (d : List UInt8) (x1 y1 x2 y2 : Nat) (z : List UInt8) : C (Option (List UInt8)) := do
  let tw := (x2 + 65536 - x1 + 1) % 65536
  let th := (y2 + 65536 - y1 + 1) % 65536
  let t ← if tw * th * bpp ≤ z.length then do
      let t ← iffReadUncompressedTile tw th bpp z
      pure (some t)
    else iff_decompress_tile_rle junk tw th bpp z
  match t with
  | none => pure none
  | some t => do
    let base := u32 (bpp * (width * y1 + x1))
    let d ← loopN th (fun i d => memcpy d (u32 (base + bpp * i * width)) t (bpp * i * tw) (tw * bpp)) d
    pure (some d)

/-- A tile of colours in the file: its corners and what its chunk has after them, il_iff.cpp:234-242. -/
structure Chunk where
  x1 : Nat
  y1 : Nat
  x2 : Nat
  y2 : Nat
  z : List UInt8

/-- The loop over the tiles, il_iff.cpp:226-290, for tiles of colours: the block of the image, unless the loader gives up. -/
def tiles (junk : Nat → UInt8) (bpp width : Nat) : List Chunk → List UInt8 → C (Option (List UInt8))
  | [], d => pure (some d)
  | t :: ts, d => do
    let r ← tile junk bpp width d t.x1 t.y1 t.x2 t.y2 t.z
    match r with
    | none => pure none
    | some d => tiles junk bpp width ts d

end DevIL.Iff
