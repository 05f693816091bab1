import Verif.Buf
/-! What a picture reduced to a palette is.  No definition of the model is used. -/
set_option autoImplicit false
namespace DevIL.NeuSpec

/-- The byte at an offset, as a number. -/
def byte (l : List UInt8) (k : Nat) : Nat := (l.getD k 0).toNat

/-- The absolute difference of two numbers. -/
def apart (a b : Nat) : Nat := (a - b) + (b - a)

/-- How far pixel `i` of the picture is from colour `j` of the palette: the sum of the differences of the three components.  Three bytes make a
pixel, and three bytes make a colour. -/
def distance (pic pal : List UInt8) (i j : Nat) : Nat :=
  apart (byte pic (3 * i)) (byte pal (3 * j)) + apart (byte pic (3 * i + 1)) (byte pal (3 * j + 1)) + apart (byte pic (3 * i + 2)) (byte pal (3 * j + 2))

/-- `new` has one byte for each pixel of `pic`: the number of a colour of the palette of `n` colours, and no other colour of the palette is nearer. -/
structure Nearest (n : Nat) (pic new pal : List UInt8) : Prop where
  pixels : new.length = pic.length / 3
  colours : pal.length = 3 * n
  inside : ∀ (i : Nat) v, new[i]? = some v → v.toNat < n
  nearest : ∀ (i : Nat) v, new[i]? = some v → ∀ j, j < n → distance pic pal i v.toNat ≤ distance pic pal i j

end DevIL.NeuSpec
