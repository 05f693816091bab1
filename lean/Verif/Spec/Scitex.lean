import Verif.Spec.Games
import Verif.Spec.Pnm
/-! Specification for Scitex continuous tone (CT) files: the header of 2048 bytes, and behind it for each row a line for each component; lines are padded to even lengths.  Nothing here
refers to the model of the loader. -/
set_option autoImplicit false
namespace DevIL.ScitexSpec
open DevIL.DetectSpec DevIL.PnmSpec

/-- What the C library makes of the texts of a header: whether a size in millimetres or inches is positive, and the numbers of pixels. -/
structure Num where
  pos : List UInt8 → Bool
  height : List UInt8 → Nat
  width : List UInt8 → Nat

/-- A numeral with blanks around it, and its value. -/
def Numeral (t : List UInt8) (v : Nat) : Prop :=
  ∃ (a b : Nat) (ds : List UInt8), t = List.replicate a 32 ++ ds ++ List.replicate b 32 ∧ IsNumber ds ∧ number ds = v

/-- The C library reads numerals (that fit into an `int`). -/
def Num.Sound (num : Num) : Prop := ∀ t v, Numeral t v → v < 2147483648 → num.height t = v ∧ num.width t = v

/-- The header of a picture with `n` components: 3 (red, green and blue) or 1 (grey). -/
structure Header (num : Num) (bs : List UInt8) (n w h : Nat) : Prop where
  len : 2048 ≤ bs.length
  sig : at_ bs 80 2 = [67, 84]
  unit : leAt bs 1024 1 ≤ 1
  chans : leAt bs 1025 1 = n
  model : (n = 3 ∧ at_ bs 1026 2 = [0, 7]) ∨ (n = 1 ∧ at_ bs 1026 2 = [0, 8])
  heightUnits : num.pos (at_ bs 1028 14) = true
  widthUnits : num.pos (at_ bs 1042 14) = true
  height : Numeral (at_ bs 1056 12) h
  width : Numeral (at_ bs 1068 12) w
  w0 : 0 < w
  h0 : 0 < h

/-- The format of a picture with so many components. -/
def format (n : Nat) : Nat := if n = 3 then IL_RGB else IL_LUMINANCE

/-- The length of a line with its padding. -/
def stride (w : Nat) : Nat := w + w % 2

/-- Where component `c` of the pixels of row `y` begins. -/
def lineAt (n w y c : Nat) : Nat := 2048 + (y * n + c) * stride w

/-- The bytes of a complete file: the padding of the last line may be missing. -/
def fileBytes (n w h : Nat) : Nat := 2048 + (h * n - 1) * stride w + w

end DevIL.ScitexSpec
