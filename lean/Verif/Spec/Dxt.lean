/-! What DXT data means, from the description of the formats: images are cut into blocks of 4x4 pixels, stored from left to right, from top to
bottom and slice by slice.  Nothing here refers to the model of DevIL. -/
set_option autoImplicit false
namespace DevIL.DxtSpec

/-- A byte of the data. -/
def byte (data : List UInt8) (i : Nat) : Nat := (data.getD i 0).toNat

/-- A little-endian 16-bit number. -/
def word (data : List UInt8) (i : Nat) : Nat := byte data i + 256 * byte data (i + 1)

/-- Where the block of pixel `(x, y, z)` starts, in an image of width `w` and height `h`, if a block has `n` bytes. -/
def block (n w h x y z : Nat) : Nat := ((z * ((h + 3) / 4) + y / 4) * ((w + 3) / 4) + x / 4) * n

/-- How many bytes the blocks of an image have. -/
def bytes (n w h d : Nat) : Nat := (w + 3) / 4 * ((h + 3) / 4) * d * n

/-- The eight bits of channel `c` (red, green, blue) of a 5:6:5 colour: the leading bits are repeated at the end. -/
def channel (v c : Nat) : Nat :=
  if c = 0 then v / 2048 * 8 + v / 2048 / 4
  else if c = 1 then v / 32 % 64 * 4 + v / 32 % 64 / 16
  else v % 32 * 8 + v % 32 / 4

/-- The two bits that choose the colour of pixel `(x, y)`; `p` is where the four bytes with these bits start, one byte for each row. -/
def code (data : List UInt8) (p x y : Nat) : Nat := byte data (p + y % 4) / 4 ^ (x % 4) % 4

/-- The value `n / d`. -/
structure Ratio where
  n : Nat
  d : Nat

/-- One channel of the four colours that are mixed from the values `a` and `b`. -/
def four (a b k : Nat) : Ratio := if k = 0 then ⟨a, 1⟩ else if k = 1 then ⟨b, 1⟩ else if k = 2 then ⟨2 * a + b, 3⟩ else ⟨a + 2 * b, 3⟩

/-- One channel of the three colours that are mixed from the values `a` and `b`; the fourth is black (and transparent). -/
def three (a b k : Nat) : Ratio := if k = 0 then ⟨a, 1⟩ else if k = 1 then ⟨b, 1⟩ else if k = 2 then ⟨a + b, 2⟩ else ⟨0, 1⟩

/-- The alphas of a DXT5 block with the limits `a` and `b`. -/
def eight (a b k : Nat) : Ratio :=
  if k = 0 then ⟨a, 1⟩ else if k = 1 then ⟨b, 1⟩
  else if a > b then ⟨(8 - k) * a + (k - 1) * b, 7⟩
  else if k = 6 then ⟨0, 1⟩ else if k = 7 then ⟨255, 1⟩ else ⟨(6 - k) * a + (k - 1) * b, 5⟩

/-- The 48-bit number at `p`. -/
def word48 (data : List UInt8) (p : Nat) : Nat := word data p + 65536 * word data (p + 2) + 65536 * 65536 * word data (p + 4)

/-- The three bits that choose the alpha of pixel `(x, y)` of a DXT5 block at `p`. -/
def code3 (data : List UInt8) (p x y : Nat) : Nat := word48 data (p + 2) / 8 ^ (4 * (y % 4) + x % 4) % 8

/-- `v` differs from the ratio by less than `e`.  For `e = 1`: it is the ratio rounded up or down. -/
def Within (e v : Nat) (r : Ratio) : Prop := r.d * v < r.n + e * r.d ∧ r.n < r.d * v + e * r.d

instance (e v : Nat) (r : Ratio) : Decidable (Within e v r) := inferInstanceAs (Decidable (_ ∧ _))

end DevIL.DxtSpec
