import Verif.Core
/-! Specification for turning a picture.  Nothing here refers to the model. -/
set_option autoImplicit false
namespace DevIL.RotateSpec

/-- Component `c` of the pixel in row `y` and column `x` of a picture that is `w` wide. -/
def At {α : Type} (d : List α) (w bpp y x c : Nat) : Option α := d[(y * w + x) * bpp + c]?

/-- `dst`, `h` wide and `w` high, is `src`, `w` wide and `h` high, turned by a quarter. -/
def Quarter {α : Type} (src dst : List α) (w h bpp : Nat) : Prop :=
  dst.length = w * h * bpp ∧ ∀ x y c, x < w → y < h → c < bpp → At dst h bpp x (h - 1 - y) c = At src w bpp y x c

/-- Turned by three quarters. -/
def ThreeQuarters {α : Type} (src dst : List α) (w h bpp : Nat) : Prop :=
  dst.length = w * h * bpp ∧ ∀ x y c, x < w → y < h → c < bpp → At dst h bpp (w - 1 - x) y c = At src w bpp y x c

/-- Turned by half: as wide and as high as before. -/
def Half {α : Type} (src dst : List α) (w h bpp : Nat) : Prop :=
  dst.length = w * h * bpp ∧ ∀ x y c, x < w → y < h → c < bpp → At dst w bpp (h - 1 - y) (w - 1 - x) c = At src w bpp y x c

/-- Not turned but mirrored: the rows in the opposite order. -/
def Upside {α : Type} (src dst : List α) (w h bpp : Nat) : Prop :=
  dst.length = w * h * bpp ∧ ∀ x y c, x < w → y < h → c < bpp → At dst w bpp (h - 1 - y) x c = At src w bpp y x c

end DevIL.RotateSpec
