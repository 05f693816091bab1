import Verif.Spec.Detect
/-! What a TPL file with one texture says.  No definition of the model is used. -/
set_option autoImplicit false
namespace DevIL.TplSpec
open DevIL.DetectSpec

/-- Where the header of the texture is. -/
def headAt (bs : List UInt8) : Nat := beAt bs 12 4

/-- A file with a TPL header and one texture of `w` by `h` pixels, of this format, whose data begin at `off`; a texture that is to be repeated or mirrored has sides that are powers of two. -/
structure Tex (bs : List UInt8) (w h fmt off : Nat) : Prop where
  long : 20 ≤ bs.length
  magic : beAt bs 0 4 = 0x0020AF30
  count : beAt bs 4 4 = 1
  size : beAt bs 8 4 = 12
  inside : headAt bs + 20 ≤ bs.length
  height : beAt bs (headAt bs) 2 = h
  width : beAt bs (headAt bs + 2) 2 = w
  format : beAt bs (headAt bs + 4) 4 = fmt
  data : beAt bs (headAt bs + 8) 4 = off
  begins : off ≤ bs.length
  w0 : 0 < w
  h0 : 0 < h
  wrap : beAt bs (headAt bs + 12) 4 = 1 ∨ beAt bs (headAt bs + 12) 4 = 2 → (∃ k, w = 2 ^ k) ∧ ∃ k, h = 2 ^ k

/-- The number of tiles of `t` pixels that cover `n` pixels. -/
def tilesOf (t n : Nat) : Nat := (n + (t - 1)) / t

/-- Where the pixel in column `x` of row `y` begins, in tiles of `tw` columns and four rows that take 32 bytes: the tiles follow each other in rows, and in a tile the pixels follow each other in rows
of eight bytes, `k` bytes for each pixel. -/
def place (tw k w off x y : Nat) : Nat := off + ((y / 4) * tilesOf tw w + x / tw) * 32 + (y % 4) * 8 + (x % tw) * k

/-- A value of five bits as eight bits, and one of six. -/
def five (v : Nat) : UInt8 := UInt8.ofNat (v * 8 + v / 4)
/-- A value of six bits as eight bits. -/
def six (v : Nat) : UInt8 := UInt8.ofNat (v * 4 + v / 16)

/-- The red, green and blue of a number of 16 bits: five, six and five bits from the highest on. -/
def rgb565 (v c : Nat) : UInt8 := if c = 0 then five (v / 2048) else if c = 1 then six (v / 32 % 64) else five (v % 32)

end DevIL.TplSpec
