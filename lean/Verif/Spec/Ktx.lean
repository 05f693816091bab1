import Verif.Spec.Games
/-! KTX 1.1 textures that are not compressed, as documented by Khronos.  No definition of the loader is used. -/
set_option autoImplicit false
namespace DevIL.KtxSpec
open DevIL.DetectSpec

/-- The bytes of a pixel and the format, for a number of OpenGL. -/
def kind (f : Nat) : Option (Nat × Nat) :=
  if f = 0x1909 then some (1, IL_LUMINANCE) else if f = 0x190A then some (2, IL_LUMINANCE_ALPHA) else if f = 0x1907 then some (3, IL_RGB) else if f = 0x1908 then some (4, IL_RGBA) else none

/-- The header of a texture with two dimensions, little endian, of unsigned bytes, neither an array nor a cube. -/
structure Header (bs : List UInt8) (w h k format : Nat) : Prop where
  sig : at_ bs 0 12 = [0xAB, 0x4B, 0x54, 0x58, 0x20, 0x31, 0x31, 0xBB, 0x0D, 0x0A, 0x1A, 0x0A]
  endian : leAt bs 12 4 = 0x04030201
  type : leAt bs 16 4 = 0x1401
  typeSize : leAt bs 20 4 = 1
  format : kind (leAt bs 24 4) = some (k, format)
  width : leAt bs 36 4 = w
  height : leAt bs 40 4 = h
  array : leAt bs 48 4 = 0
  faces : leAt bs 52 4 = 1
  all : 64 ≤ bs.length
  w0 : 0 < w
  h0 : 0 < h

/-- The bytes of a row, which is filled up to a multiple of four. -/
def pitch (w k : Nat) : Nat := (w * k + 3) / 4 * 4

/-- The width or height of a level: half of the one before, but at least 1. -/
def side (n i : Nat) : Nat := max 1 (n / 2 ^ i)

/-- The bytes of a level. -/
def bytes (w h k i : Nat) : Nat := side h i * pitch (side w i) k

/-- Where a level begins, with the number of its bytes, if the first is at `b`. -/
def place (b w h k : Nat) : Nat → Nat
  | 0 => b
  | i + 1 => place b w h k i + 4 + bytes w h k i

/-- The file has all of so many levels. -/
def Stored (bs : List UInt8) (b w h k n : Nat) : Prop := ∀ i, i < n → leAt bs (place b w h k i) 4 = bytes w h k i ∧ place b w h k (i + 1) ≤ bs.length

/-- The key with the orientation: its 23 bytes, `KTXorientation`, 0, `S=r,T=`, `d` for down or `u` for up, 0, and a byte that fills it up. -/
def orientation (down : Bool) : List UInt8 :=
  [23, 0, 0, 0, 75, 84, 88, 111, 114, 105, 101, 110, 116, 97, 116, 105, 111, 110, 0, 83, 61, 114, 44, 84, 61, if down then 100 else 117, 0, 0]

/-- An image with its rows from the top to the bottom or from the bottom to the top. -/
def ShowsAs (down : Bool) (m : Img) (w h k format : Nat) (px : Nat → Nat → Nat → Option UInt8) : Prop :=
  m.origin = (if down then IL_ORIGIN_UPPER_LEFT else IL_ORIGIN_LOWER_LEFT) ∧ GamesSpec.Shows { m with origin := IL_ORIGIN_UPPER_LEFT } w h k format px

/-- The file has no keys, so that the first row is at the top, or only the one with the orientation; then the first level is at `b`. -/
def Keyed (bs : List UInt8) (b : Nat) (down : Bool) : Prop := (leAt bs 60 4 = 0 ∧ b = 64 ∧ down = true) ∨ (leAt bs 60 4 = 28 ∧ at_ bs 64 28 = orientation down ∧ b = 92)

end DevIL.KtxSpec
