import Verif.Spec.Detect
import Verif.Spec.Games
import Verif.Spec.Dxt
/-! Specification for DDS files: where the header has its fields, what the pixels of a file without compression are, and how close a
component is to the one stored.  Nothing here refers to the model of the loader. -/
set_option autoImplicit false
namespace DevIL.DdsSpec

open DevIL.DetectSpec

/-- Bit `k` of a number. -/
def bit (n k : Nat) : Bool := n / 2 ^ k % 2 == 1

/-- A complete DDS header of a picture of `w` by `h` pixels: no volume, no cube map, no mipmaps. -/
structure Header (bs : List UInt8) (w h : Nat) : Prop where
  len : 128 ≤ bs.length
  magic : at_ bs 0 4 = [68, 68, 83, 32]
  size1 : leAt bs 4 4 = 124
  size2 : leAt bs 76 4 = 32
  width : leAt bs 16 4 = w
  height : leAt bs 12 4 = h
  w0 : 0 < w
  h0 : 0 < h
  depth : leAt bs 24 4 ≤ 1
  mips : bit (leAt bs 8 4) 17 = false ∨ leAt bs 28 4 ≤ 1
  cube : bit (leAt bs 112 4) 9 = false

/-- The header says that the picture takes `n` bytes, or leaves the size open. -/
def Declares (bs : List UInt8) (n : Nat) : Prop :=
  leAt bs 20 4 = 0 ∨ (bit (leAt bs 8 4) 19 = false ∧ bit (leAt bs 8 4) 3 = false) ∨ (bit (leAt bs 8 4) 19 = true ∧ leAt bs 20 4 = n)

/-- The header gives the length of a row instead of the size of the picture. -/
def Pitch (bs : List UInt8) : Prop := leAt bs 20 4 ≠ 0 ∧ bit (leAt bs 8 4) 19 = false ∧ bit (leAt bs 8 4) 3 = true

/-- The picture has the compression with this code of four characters. -/
def Code (bs : List UInt8) (cc : List UInt8) : Prop := bit (leAt bs 80 4) 2 = true ∧ at_ bs 84 4 = cc

/-- The picture has no compression, and `bits` bits for each pixel; it has luminance instead of colours, and it has an alpha channel. -/
structure Plain (bs : List UInt8) (lum alpha : Bool) (bits : Nat) : Prop where
  code : bit (leAt bs 80 4) 2 = false
  lum : bit (leAt bs 80 4) 17 = lum
  alpha : bit (leAt bs 80 4) 0 = alpha
  bits : leAt bs 88 4 = bits

/-- The mask of channel `c` (red or luminance, green, blue, alpha). -/
def mask (bs : List UInt8) (c : Nat) : Nat := leAt bs (92 + 4 * c) 4

/-- The mask selects the `n` bits from bit `s` on. -/
def Selects (mask s n : Nat) : Prop := mask = (2 ^ n - 1) * 2 ^ s

/-- `q` is `v` of `2 ^ n - 1` on a scale from 0 to 255, rounded down by less than one step of the coarser scale.  For `n = 8` it is `v`. -/
def Scaled (n v q : Nat) : Prop := (2 ^ n - 1) * q ≤ 255 * v ∧ 255 * v < (2 ^ n - 1) * (q + 2 ^ (8 - n))

/-- The bytes of a pixel in the image and in the file which the theorems are about. -/
def Safe (bpp k : Nat) : Prop := (bpp = 4 ∧ k = 4) ∨ (bpp = 3 ∧ (k = 2 ∨ k = 3)) ∨ (bpp = 2 ∧ (k = 2 ∨ k = 3)) ∨ (bpp = 1 ∧ (k = 1 ∨ k = 2 ∨ k = 3))

/-- The components of the image. -/
def components (lum alpha : Bool) : Nat := if lum then (if alpha then 2 else 1) else (if alpha then 4 else 3)

/-- The mask a component has: the second component of luminance with alpha is alpha. -/
def chan (lum : Bool) (c : Nat) : Nat := if lum ∧ c = 1 then 3 else c

/-- The format of the image. -/
def fmt (lum alpha : Bool) : Nat := if lum then (if alpha then IL_LUMINANCE_ALPHA else IL_LUMINANCE) else (if alpha then IL_RGBA else IL_RGB)

/-- The mask of every component selects one to eight bits of the pixel; with luminance, alpha has one bit or more than four. -/
structure Masks (bs : List UInt8) (lum alpha : Bool) (k : Nat) (s n : Nat → Nat) : Prop where
  sel : ∀ c, c < components lum alpha → Selects (mask bs (chan lum c)) (s (chan lum c)) (n (chan lum c))
  one : ∀ c, c < components lum alpha → 1 ≤ n (chan lum c)
  eight : ∀ c, c < components lum alpha → n (chan lum c) ≤ 8
  fits : ∀ c, c < components lum alpha → s (chan lum c) + n (chan lum c) ≤ 8 * k
  two : lum = true → alpha = true → n 3 = 1 ∨ 5 ≤ n 3

/-- The masks of the formats with ten bits for each colour and two bits of alpha. -/
def Ten (bs : List UInt8) : Prop :=
  mask bs 3 = 0xC0000000 ∧ mask bs 1 = 0xFFC00 ∧ ((mask bs 0 = 0x3FF00000 ∧ mask bs 2 = 0x3FF) ∨ (mask bs 0 = 0x3FF ∧ mask bs 2 = 0x3FF00000))

/-- `b` is the third component of a unit vector whose other components are `r` and `g`.  The components of vectors are stored as numbers from 0
(for -1) to 255 (for 1).  The square root may be too small by less than 2; if the two components are too long already, `b` stands for 0. -/
def Normal (r g b : Nat) : Prop :=
  ((2 * (r : Int) - 255) * (2 * (r : Int) - 255) + (2 * (g : Int) - 255) * (2 * (g : Int) - 255) < 65026 →
    ∃ z : Nat, b = 128 + z ∧ (2 * (z : Int)) * (2 * (z : Int)) ≤ 65026 - (2 * (r : Int) - 255) * (2 * (r : Int) - 255) - (2 * (g : Int) - 255) * (2 * (g : Int) - 255) ∧
      65026 - (2 * (r : Int) - 255) * (2 * (r : Int) - 255) - (2 * (g : Int) - 255) * (2 * (g : Int) - 255) < (2 * (z : Int) + 4) * (2 * (z : Int) + 4)) ∧
  (65026 ≤ (2 * (r : Int) - 255) * (2 * (r : Int) - 255) + (2 * (g : Int) - 255) * (2 * (g : Int) - 255) → b = 127)

/-- The image has components of `s` bytes each: `k` for each pixel, from the top down.  The bytes of component `c` of pixel `(x, y)` are `px x y c`. -/
structure Wide (m : Img) (w h k s format type : Nat) (px : Nat → Nat → Nat → List UInt8) : Prop where
  width : m.width = w
  height : m.height = h
  depth : m.depth = 1
  bpp : m.bpp = k
  bpc : m.bpc = s
  format : m.format = format
  type : m.type = type
  origin : m.origin = IL_ORIGIN_UPPER_LEFT
  cons : m.Consistent
  px : ∀ x y c, x < w → y < h → c < k → at_ m.data (((y * w + x) * k + c) * s) s = px x y c ∧ (px x y c).length = s

/-- The bytes of the number 1 as a float. -/
def one32 : List UInt8 := [0, 0, 128, 63]

/-- The kinds of files with components of 16 or 32 bits: the code, the bytes of a pixel in the file, the components of the image, the bytes of
each, format and type.  Pixels of 16-bit numbers; of four floats; of one float (red only); of two floats (red and green). -/
def wideKind (cc : List UInt8) (fb k s format type : Nat) : Prop :=
  (cc = [36, 0, 0, 0] ∧ fb = 8 ∧ k = 4 ∧ s = 2 ∧ format = IL_RGBA ∧ type = IL_UNSIGNED_SHORT) ∨
  (cc = [116, 0, 0, 0] ∧ fb = 16 ∧ k = 4 ∧ s = 4 ∧ format = IL_RGBA ∧ type = IL_FLOAT) ∨
  (cc = [114, 0, 0, 0] ∧ fb = 4 ∧ k = 3 ∧ s = 4 ∧ format = IL_RGB ∧ type = IL_FLOAT) ∨
  (cc = [115, 0, 0, 0] ∧ fb = 8 ∧ k = 3 ∧ s = 4 ∧ format = IL_RGB ∧ type = IL_FLOAT)

end DevIL.DdsSpec
