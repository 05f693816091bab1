import Verif.Spec.Games
/-! BLP2 textures with a palette, as documented for World of Warcraft.  No definition of the loader is used. -/
set_option autoImplicit false
namespace DevIL.BlpSpec
open DevIL.DetectSpec

/-- The width or height of a level: half of the one before, but at least 1. -/
def side (n : Nat) : Nat → Nat
  | 0 => n
  | i + 1 => max 1 (side n i / 2)

/-- Where a level is in the file, and how many bytes it has. -/
def place (bs : List UInt8) (i : Nat) : Nat := leAt bs (20 + 4 * i) 4
def length (bs : List UInt8) (i : Nat) : Nat := leAt bs (84 + 4 * i) 4

/-- A texture of `n` levels with a palette and `bits` bits of alpha: the levels end at the sixteenth, at one of a single pixel, at one without a place, or at the first if the file says that there are no others. -/
structure Texture (bs : List UInt8) (bits w h n : Nat) : Prop where
  sig : at_ bs 0 4 = [0x42, 0x4C, 0x50, 0x32]
  kind : leAt bs 4 4 = 1
  raw : leAt bs 8 1 = 1
  alpha : leAt bs 9 1 = bits
  alphaType : leAt bs 10 1 = 0 ∨ leAt bs 10 1 = 1 ∨ leAt bs 10 1 = 7 ∨ leAt bs 10 1 = 8
  width : leAt bs 12 4 = w
  height : leAt bs 16 4 = h
  w0 : 0 < w
  h0 : 0 < h
  fit : w * h * 4 < 2 ^ 31
  n1 : 1 ≤ n
  n16 : n ≤ 16
  more : ∀ i, i + 1 < n → leAt bs 11 1 ≠ 0 ∧ ¬ (side w i = 1 ∧ side h i = 1) ∧ place bs (i + 1) ≠ 0
  last : n = 16 ∨ leAt bs 11 1 = 0 ∨ (side w (n - 1) = 1 ∧ side h (n - 1) = 1) ∨ place bs n = 0
  pal : 1172 ≤ bs.length

/-- Every level has as many bytes as this says, in the file. -/
def Stored (bs : List UInt8) (n : Nat) (size : Nat → Nat) : Prop := ∀ i, i < n → length bs i = size i ∧ place bs i + size i ≤ bs.length

/-- The bytes with the alpha of so many pixels. -/
def alphaBytes (n : Nat) : Nat := (n + 7) / 8

/-- The pixel of a level with one bit of alpha: a colour of the palette at 148, and a bit of what follows the numbers of the colours, where the lowest row comes first and the lowest bit of a byte. -/
def pixel (bs : List UInt8) (w h off x y c : Nat) : Option UInt8 :=
  if c < 3 then do
    let v ← bs[off + (y * w + x)]?
    bs[148 + v.toNat * 4 + c]?
  else do
    let v ← bs[off + w * h + ((h - 1 - y) * w + x) / 8]?
    pure (if v.toNat.testBit (((h - 1 - y) * w + x) % 8) then 255 else 0)

end DevIL.BlpSpec
