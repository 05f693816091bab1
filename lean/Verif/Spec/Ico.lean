import Verif.Spec.Games
/-! What a file of Windows icons says.  No definition of the loader is used. -/
set_option autoImplicit false
namespace DevIL.IcoSpec
open DevIL.DetectSpec DevIL.Image DevIL.GamesSpec

/-- The bytes of a row of `w` pixels of `b` bits: rows end at a multiple of four bytes. -/
def rowBytes (w b : Nat) : Nat := 4 * ((w * b + 31) / 32)

/-- The colours in the palette of an icon of `b` bits. -/
def colours (b : Nat) : Nat := if b ≤ 8 then 2 ^ b else 0

/-- Where the pixels of an icon at `p` begin, behind its header and palette. -/
def pixels (p b : Nat) : Nat := p + 40 + 4 * colours b

/-- Where the mask of an icon begins. -/
def maskAt (p w h b : Nat) : Nat := pixels p b + rowBytes w b * h

/-- Where an icon ends. -/
def ends (p w h b : Nat) : Nat := maskAt p w h b + rowBytes w 1 * h

/-- A bitmap header for an icon of `w` by `h` pixels of `b` bits at `p`; the height in the header counts pixels and mask. -/
structure Head (bs : List UInt8) (p w h b : Nat) : Prop where
  size : leAt bs p 4 = 40
  width : leAt bs (p + 4) 4 = w
  height : leAt bs (p + 8) 4 = 2 * h
  bits : leAt bs (p + 14) 2 = b
  kind : b = 1 ∨ b = 4 ∨ b = 8 ∨ b = 24 ∨ b = 32
  used : b < 8 → leAt bs (p + 32) 4 = 0 ∨ leAt bs (p + 32) 4 = 2 ^ b
  w0 : 0 < w
  h0 : 0 < h
  small : w * h < 2 ^ 26
  room : p + 40 < bs.length

/-- The number of the colour of the pixel in column `x` of row `y`, the first bits of a byte being the left ones. -/
def index (bs : List UInt8) (p w b x y : Nat) : Nat :=
  ((bs[pixels p b + y * rowBytes w b + x * b / 8]?).getD 0).toNat / 2 ^ (8 - b - x * b % 8) % 2 ^ b

/-- The mask of a pixel is set. -/
def masked (bs : List UInt8) (p w h b x y : Nat) : Prop := ((bs[maskAt p w h b + y * rowBytes w 1 + x / 8]?).getD 0).toNat / 2 ^ (7 - x % 8) % 2 = 1

instance (bs : List UInt8) (p w h b x y : Nat) : Decidable (masked bs p w h b x y) := by unfold masked; exact inferInstance

/-- Blue, green, red and alpha of a pixel: alpha is the fourth byte of a pixel of 32 bits, and otherwise the mask says what is transparent. -/
def pixel (bs : List UInt8) (p w h b x y c : Nat) : Option UInt8 :=
  if b = 32 then bs[pixels p b + y * rowBytes w b + 4 * x + c]?
  else if c = 3 then some (if masked bs p w h b x y then 0 else 255)
  else if b = 24 then bs[pixels p b + y * rowBytes w b + 3 * x + c]?
  else bs[p + 40 + 4 * index bs p w b x y + c]?

/-- The image has these pixels, its first row being the lowest. -/
def ShowsUp (m : Img) (w h k format : Nat) (px : Nat → Nat → Nat → Option UInt8) : Prop :=
  m.origin = IL_ORIGIN_LOWER_LEFT ∧ Shows { m with origin := IL_ORIGIN_UPPER_LEFT } w h k format px

/-- A directory of `n` icons. -/
structure Dir (bs : List UInt8) (n : Nat) : Prop where
  count : leAt bs 4 2 = n
  some : 0 < n
  few : n < 32768
  room : 6 + 16 * n < bs.length

/-- Where the directory says that icon `i` is. -/
def place (bs : List UInt8) (i : Nat) : Nat := leAt bs (6 + 16 * i + 12) 4

end DevIL.IcoSpec
