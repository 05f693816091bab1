import Verif.Props.Block
/-! What is said of the colours of an image whose components are single bytes. -/
set_option autoImplicit false
namespace DevIL

/-- Where the red, the green and the blue of a pixel are. -/
def order (format : Nat) : Option (Nat × Nat × Nat) :=
  if format = IL_RGB ∨ format = IL_RGBA then some (0, 1, 2)
  else if format = IL_BGR ∨ format = IL_BGRA then some (2, 1, 0)
  else none

/-- A colour: red, green, blue. -/
structure RGB where
  r : UInt8
  g : UInt8
  b : UInt8
  deriving DecidableEq, Repr

/-- The colour of the pixel at `x, y, z`. -/
def Img.colour (m : Img) (x y z : Nat) : Option RGB :=
  match order m.format with
  | none => none
  | some (r, g, b) =>
    match m.px x y z r, m.px x y z g, m.px x y z b with
    | some u, some v, some w => some ⟨u, v, w⟩
    | _, _, _ => none

/-- `m'` is `m` with the colour of every pixel changed by `f`; alpha, the geometry and all else stay. -/
def Img.Recoloured (m m' : Img) (f : RGB → RGB) : Prop :=
  m.SameShape m' ∧ m'.origin = m.origin ∧
  ∀ x y z, x < m.width → y < m.height → z < m.depth →
    (∃ c, m.colour x y z = some c ∧ m'.colour x y z = some (f c)) ∧ (m.bpp = 4 → m'.px x y z 3 = m.px x y z 3)

end DevIL
