import Verif.Props.Convert
import Verif.Props.Manip
/-! What compressing a picture to DXT data should keep.  Positions are counted from the upper left corner. -/
set_option autoImplicit false
namespace DevIL.DxtSave
open DevIL.Image DevIL.Conv

/-- The stored row of row `y` from the top. -/
def top (m : Img) (y : Nat) : Nat := if m.origin = IL_ORIGIN_UPPER_LEFT then y else m.height - 1 - y

/-- The value of a channel of the pixel in column `x` and row `y` from the top, of slice `z`; a picture without alpha is opaque. -/
def value (m : Img) (ch : Chan) (x y z : Nat) : Nat :=
  match place m.format ch with
  | some o => ((m.px x (top m y) z o).getD 0).toNat
  | none => 255

/-- The two pixels lie in the same block of 4x4 pixels. -/
def SameBlock (x y x' y' : Nat) : Prop := x / 4 = x' / 4 ∧ y / 4 = y' / 4

/-- The distance of two numbers. -/
def dist (a b : Nat) : Nat := a - b + (b - a)

/-- `v`, a number up to 255, on the scale from 0 to `n`, rounded to the nearest. -/
def scaled (n v : Nat) : Nat := (v * n + 127) / 255

/-- A colour. -/
structure Rgb where
  r : Nat
  g : Nat
  b : Nat
  deriving DecidableEq

/-- The colour of a pixel. -/
def colour (m : Img) (x y z : Nat) : Rgb := ⟨value m .red x y z, value m .green x y z, value m .blue x y z⟩

/-- The square of the length of a colour, after rounding to 5, 6 and 5 bits. -/
def strength (c : Rgb) : Nat := (8 * scaled 31 c.r) ^ 2 + (4 * scaled 63 c.g) ^ 2 + (8 * scaled 31 c.b) ^ 2

end DevIL.DxtSave
