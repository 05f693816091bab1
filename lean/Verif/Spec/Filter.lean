import Verif.Props.Manip
/-! What is said of block averages and 3x3 filters of images whose components are single bytes. -/
set_option autoImplicit false
namespace DevIL.FilterSpec

/-- The places of the block of `p` that contains the place `v`, out of `n`. -/
def span (n p v : Nat) : List Nat := List.range' (v / p * p) (min p (n - v / p * p))

/-- All values of the component `c` in the cube of side `p` that contains the pixel `x, y, z`. -/
def blockVals (m : Img) (p x y z c : Nat) : List Nat :=
  (span m.depth p z).flatMap fun z' => (span m.height p y).flatMap fun y' => (span m.width p x).flatMap fun x' =>
    (m.px x' y' z' c).toList.map UInt8.toNat

/-- The mean without its fraction. -/
def mean (l : List Nat) : Nat := l.sum / l.length

/-- Whether the region contains the column `x` of the row `y`; without a region, all is contained. -/
def selected (mask : Option (List UInt8)) (width x y : Nat) : Prop :=
  match mask with
  | none => True
  | some r => ∃ v, r[y * width + x]? = some v ∧ v ≠ 0

/-- A picture of bytes: everything about its size agrees. -/
structure Bytes (m : Img) : Prop where
  consistent : m.Consistent
  bpc : m.bpc = 1
  width : 0 < m.width
  height : 0 < m.height
  depth : 0 < m.depth
  bpp : 0 < m.bpp
  size : m.size < 2 ^ 31

/-- The row `dy - 1` below `y`; the first and the last row are repeated outside. -/
def rowAt (h y dy : Nat) : Nat := min (h - 1) (y + dy - 1)

/-- The sum of the nine components around the pixel `x, y, z`, each times its weight; the weights are given row by row. -/
def weighted (m : Img) (mat : List Int) (x y z c : Nat) : Int :=
  ((List.range 9).map fun k => mat.getD k 0 * (((m.px (x + k % 3 - 1) (rowAt m.height y (k / 3)) z c).getD 0).toNat : Int)).sum

/-- `|num / scale + bias|` without its fraction, at most 255. -/
def shade (num scale bias : Int) : UInt8 := UInt8.ofNat (min 255 ((num + bias * scale).natAbs / scale.natAbs))

/-- Nine weights with which no sum leaves the range of 32 bits. -/
def Light (mat : List Int) : Prop := mat.length = 9 ∧ 255 * (mat.map Int.natAbs).sum < 2 ^ 31

end DevIL.FilterSpec
