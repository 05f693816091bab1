import Verif.Spec.Games
import Verif.Spec.DdsMip
/-! Specification for Infinity Ward images (IWI): the header, and where the levels are: the smallest first, the picture itself last.  Nothing here refers to the model of the loader. -/
set_option autoImplicit false
namespace DevIL.IwiSpec
open DevIL.DetectSpec DevIL.DdsSpec

/-- The header of a picture of `w` by `h` pixels in the format `fmt`, with or without mipmaps. -/
structure Header (bs : List UInt8) (fmt w h : Nat) (mips : Bool) : Prop where
  len : 28 ≤ bs.length
  magic : at_ bs 0 4 = [73, 87, 105, 5] ∨ at_ bs 0 4 = [73, 87, 105, 6]
  fmt : leAt bs 4 1 = fmt
  flags : mips = decide (leAt bs 5 1 % 4 ≠ 3)
  width : leAt bs 6 2 = w
  height : leAt bs 8 2 = h
  w0 : 0 < w
  h0 : 0 < h

/-- The formats without compression with a byte for each component: the number in the header, the bytes per pixel, the format of the image. -/
def Plain (fmt k format : Nat) : Prop := (fmt = 1 ∧ k = 4 ∧ format = IL_BGRA) ∨ (fmt = 2 ∧ k = 3 ∧ format = IL_BGR) ∨ (fmt = 4 ∧ k = 1 ∧ format = IL_ALPHA)

/-- The formats with compression: the number in the header, and the format of the blocks. -/
def Coded (fmt dxt : Nat) : Prop := (fmt = 11 ∧ dxt = IL_DXT1) ∨ (fmt = 12 ∧ dxt = IL_DXT3) ∨ (fmt = 13 ∧ dxt = IL_DXT5)

/-- The number of levels down to a single pixel. -/
def levels (w h : Nat) : Nat := Nat.log2 (max w h) + 1

/-- The number of levels of a file with or without mipmaps. -/
def number (w h : Nat) (mips : Bool) : Nat := if mips then levels w h else 1

/-- Component `c` of a pixel of two bytes, four bits for each: the upper half of a byte comes first. -/
def nibble (v : UInt8) (c : Nat) : Nat := if c % 2 = 0 then v.toNat / 16 else v.toNat % 16

/-- The bytes of level `i` with `k` bytes per pixel. -/
def plainBytes (k w h i : Nat) : Nat := side w i * side h i * k

/-- Where level `i` of `n` levels begins: behind the header and the smaller levels. -/
def levelAt (bytes : Nat → Nat) (n i : Nat) : Nat := 28 + (((List.range n).drop (i + 1)).map bytes).sum

/-- The bytes of a complete file of `n` levels. -/
def fileBytes (bytes : Nat → Nat) (n : Nat) : Nat := 28 + ((List.range n).map bytes).sum

end DevIL.IwiSpec
