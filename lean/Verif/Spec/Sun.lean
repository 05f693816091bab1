import Verif.Spec.Games
/-! Specification of Sun raster files: what a file stores, by byte offsets.  Nothing here refers to the model of the loader. -/
set_option autoImplicit false
namespace DevIL.SunSpec

open DevIL.DetectSpec

/-- The file begins with a header of eight numbers of four bytes, the most significant first: the signature, width, height, bits per pixel, length
of the pixels (not used), type (2 compressed, 3 with red first, else 0 or 1), kind of colour map (0 none, 1 red, green and blue) and its length in bytes. -/
structure Head (bs : List UInt8) (w h d t mt ml : Nat) : Prop where
  len : 32 ≤ bs.length
  magic : beAt bs 0 4 = 0x59A66A95
  width : beAt bs 4 4 = w
  height : beAt bs 8 4 = h
  depth : beAt bs 12 4 = d
  type : beAt bs 20 4 = t
  mapType : beAt bs 24 4 = mt
  mapLen : beAt bs 28 4 = ml
  w0 : 0 < w
  h0 : 0 < h
  type3 : t ≤ 3
  map : (mt = 0 ∧ ml = 0) ∨ (mt = 1 ∧ 0 < ml)

/-- Rows take an even number of bytes. -/
def even (n : Nat) : Nat := n + n % 2

/-- The order of the components of a picture of 24 or 32 bits. -/
def order (type : Nat) : Nat := if type = 3 then IL_RGB else IL_BGR

/-- The pieces of a compressed row: a byte that is not 0x80, the byte 0x80, and a run of `n + 1` equal bytes, `n` from 1 to 255. -/
inductive Part where
  | lit (b : UInt8)
  | lit80
  | run (n v : UInt8)

/-- How a piece is stored. -/
def Part.bytes : Part → List UInt8
  | .lit b => [b]
  | .lit80 => [0x80, 0]
  | .run n v => [0x80, n, v]

/-- What a piece stands for. -/
def Part.pixels : Part → List UInt8
  | .lit b => [b]
  | .lit80 => [0x80]
  | .run n v => List.replicate (n.toNat + 1) v

/-- The pieces that can be stored. -/
def Part.Ok : Part → Prop
  | .lit b => b ≠ 0x80
  | .lit80 => True
  | .run n _ => n ≠ 0

/-- How a row is stored: its pieces and, if the row takes an odd number of bytes, one byte more (not 0x80). -/
def packed (n : Nat) (r : List Part × UInt8) : List UInt8 := r.1.flatMap Part.bytes ++ (if n % 2 = 1 then [r.2] else [])

/-- The bit at this position, from the most significant bit of each byte on. -/
def bitAt (bs : List UInt8) (p i : Nat) : Option UInt8 := bs[p + i / 8]?.map (fun b => if b.toNat.testBit (7 - i % 8) then 1 else 0)

/-- The bytes of a row of bits: a multiple of two. -/
def bitRow (w : Nat) : Nat := (w + 15) / 16 * 2

end DevIL.SunSpec
