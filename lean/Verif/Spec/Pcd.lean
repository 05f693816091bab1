import Verif.Spec.Games
/-! What a Photo CD file says.  No definition of the loader is used. -/
set_option autoImplicit false
namespace DevIL.PcdSpec
open DevIL.Image DevIL.GamesSpec

/-- The columns, the rows and the place of the three pictures that are not compressed: Base/16, Base/4 and Base. -/
def sizes : List (Nat × Nat × Nat) := [(192, 128, 0x2000), (384, 256, 0xb800), (768, 512, 0x30000)]

/-- A way to make red, green and blue of a luminance and two chrominances. -/
abbrev Conv := UInt8 → UInt8 → UInt8 → UInt8 × UInt8 × UInt8

/-- One of three components. -/
def comp (c : Nat) (t : UInt8 × UInt8 × UInt8) : UInt8 := if c = 0 then t.1 else if c = 1 then t.2.1 else t.2.2

/-- The pixel in column `x` of row `y`.  Two rows of luminances are followed by a row of chrominances, first those of one kind and then those of the other, of which four pixels share one each. -/
def pixel (conv : Conv) (bs : List UInt8) (w start x y c : Nat) : Option UInt8 := do
  let l ← bs[start + 3 * w * (y / 2) + (y % 2 * w + x)]?
  let cb ← bs[start + 3 * w * (y / 2) + (2 * w + x / 2)]?
  let cr ← bs[start + 3 * w * (y / 2) + (2 * w + (w / 2 + x / 2))]?
  pure (comp c (conv l cb cr))

/-- The picture of a file that begins at `start`, its rows in the order of the file. -/
def Pictured (conv : Conv) (bs : List UInt8) (m : Img) (w h start : Nat) : Prop := Shows { m with origin := IL_ORIGIN_UPPER_LEFT } w h 3 IL_RGB (pixel conv bs w start)

end DevIL.PcdSpec
