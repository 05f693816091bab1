import Verif.Spec.Dds
/-! Specification for DDS files with mipmaps: the sizes of the levels, and where their blocks are.  Nothing here refers to the model of the loader. -/
set_option autoImplicit false
namespace DevIL.DdsSpec
open DevIL.DetectSpec

/-- The side `n` of a picture on level `i`. -/
def side (n i : Nat) : Nat := max 1 (n / 2 ^ i)

/-- The bytes of level `i` of a picture of `w` by `h` pixels with blocks of `size` bytes. -/
def levelBytes (size w h i : Nat) : Nat := DxtSpec.bytes size (side w i) (side h i) 1

/-- Where the blocks of level `i` begin. -/
def levelStart (size w h i : Nat) : Nat := 128 + ((List.range i).map (levelBytes size w h)).sum

/-- A complete DDS header of a picture of `w` by `h` pixels on `n` levels: no volume, no cube map. -/
structure MipHeader (bs : List UInt8) (w h n : Nat) : Prop where
  len : 128 ≤ bs.length
  magic : at_ bs 0 4 = [68, 68, 83, 32]
  size1 : leAt bs 4 4 = 124
  size2 : leAt bs 76 4 = 32
  width : leAt bs 16 4 = w
  height : leAt bs 12 4 = h
  w0 : 0 < w
  h0 : 0 < h
  depth : leAt bs 24 4 ≤ 1
  flag : bit (leAt bs 8 4) 17 = true
  count : leAt bs 28 4 = n
  n0 : 0 < n
  cube : bit (leAt bs 112 4) 9 = false
  amask : leAt bs 104 4 ≠ 0xC0000000

end DevIL.DdsSpec
