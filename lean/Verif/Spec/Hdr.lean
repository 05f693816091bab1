import Verif.Props.Manip
import Verif.Spec.Pnm
import Verif.Spec.Games
/-! Specification for Radiance pictures (`.hdr`): the text of the header, scan lines in run-length pieces, when an image shows them.  Nothing here
refers to the model of the code. -/
set_option autoImplicit false
namespace DevIL.HdrSpec

open DevIL.PnmSpec (IsNumber number)

/-- A line of the header: not empty, and no line feed in it. -/
def IsLine (l : List UInt8) : Prop := l ≠ [] ∧ 10 ∉ l

/-- `#?RADIANCE` -/
def radiance : List UInt8 := [35, 63, 82, 65, 68, 73, 65, 78, 67, 69]
/-- `#?RGBE` -/
def rgbe : List UInt8 := [35, 63, 82, 71, 66, 69]

/-- The header: the name of the format, lines, an empty line, and the dimensions `-Y height +X width` in decimal digits. -/
def header (name : List UInt8) (ls : List (List UInt8)) (h w : List UInt8) : List UInt8 :=
  name ++ [10] ++ ls.flatMap (· ++ [10]) ++ [10] ++ [45, 89, 32] ++ h ++ [32, 43, 88, 32] ++ w ++ [10]

/-- A piece of a channel: equal bytes, or bytes one by one. -/
inductive Piece where
  | run (n : Nat) (v : UInt8)
  | lit (px : List UInt8)

/-- A piece that can be stored. -/
def Piece.Ok : Piece → Prop
  | .run n _ => 0 < n ∧ n < 128
  | .lit px => 0 < px.length ∧ px.length ≤ 128
/-- A piece as stored. -/
def Piece.bytes : Piece → List UInt8
  | .run n v => [UInt8.ofNat (128 + n), v]
  | .lit px => UInt8.ofNat px.length :: px
/-- The bytes a piece stands for. -/
def Piece.pixels : Piece → List UInt8
  | .run n v => List.replicate n v
  | .lit px => px

/-- A channel: its bytes as stored, and the bytes it stands for. -/
def bytes (ps : List Piece) : List UInt8 := ps.flatMap Piece.bytes
def pixels (ps : List Piece) : List UInt8 := ps.flatMap Piece.pixels

/-- A scan line: the pieces of red, of green, of blue, and of the exponent. -/
structure Line where
  r : List Piece
  g : List Piece
  b : List Piece
  e : List Piece

/-- The scan line as stored. -/
def Line.bytes (w : Nat) (l : Line) : List UInt8 :=
  [2, 2, UInt8.ofNat (w / 256), UInt8.ofNat (w % 256)] ++ HdrSpec.bytes l.r ++ HdrSpec.bytes l.g ++ HdrSpec.bytes l.b ++ HdrSpec.bytes l.e

/-- A scan line of `w` pixels. -/
structure Line.Ok (w : Nat) (l : Line) : Prop where
  pieces : ∀ p ∈ l.r ++ l.g ++ l.b ++ l.e, p.Ok
  r : (pixels l.r).length = w
  g : (pixels l.g).length = w
  b : (pixels l.b).length = w
  e : (pixels l.e).length = w

/-- The four bytes of pixel `x` of a scan line. -/
def Line.px (l : Line) (x : Nat) : UInt8 × UInt8 × UInt8 × UInt8 :=
  ((pixels l.r).getD x 0, (pixels l.g).getD x 0, (pixels l.b).getD x 0, (pixels l.e).getD x 0)

/-- The image is a `w` by `h` picture of three floats per pixel, row 0 at the top, with a pixel block of exactly that size; byte `c` of the
pixel in column `x` of row `y` is byte `c` of `px x y`, which has twelve. -/
structure Shows (m : Img) (w h : Nat) (px : Nat → Nat → List UInt8) : Prop where
  width : m.width = w
  height : m.height = h
  depth : m.depth = 1
  bpp : m.bpp = 3
  bpc : m.bpc = 4
  format : m.format = IL_RGB
  type : m.type = IL_FLOAT
  origin : m.origin = IL_ORIGIN_UPPER_LEFT
  cons : m.Consistent
  px : ∀ x y c, x < w → y < h → c < 12 → m.px x y 0 c = (px x y)[c]? ∧ (px x y).length = 12

/-- The header can be told from its first ten bytes: `#?RADIANCE`, or `#?RGBE` with a first line of three characters at least. -/
def Named (name : List UInt8) (ls : List (List UInt8)) : Prop :=
  name = radiance ∨ name = rgbe ∧ 3 ≤ (ls.headD []).length

/-- `FORMAT=32-bit_rle_rgbe` -/
def format : List UInt8 := [70, 79, 82, 77, 65, 84, 61, 51, 50, 45, 98, 105, 116, 95, 114, 108, 101, 95, 114, 103, 98, 101]

/-- The scan lines as stored. -/
def body (w : Nat) (rows : List Line) : List UInt8 := rows.flatMap (Line.bytes w)

/-- The four bytes of the pixel in column `x` of row `y`. -/
def pixel (rows : List Line) (x y : Nat) : UInt8 × UInt8 × UInt8 × UInt8 :=
  match rows[y]? with
  | some l => l.px x
  | none => (0, 0, 0, 0)

/-- The image has `w` by `h` pixels (and perhaps more slices) of three floats, and a pixel block of that size; the twelve bytes of the pixel in
column `x` of row `y` of its first slice, counted from the top, are `px x y`. -/
structure Picture (m : Img) (w h : Nat) (px : Nat → Nat → List UInt8) : Prop where
  width : m.width = w
  height : m.height = h
  depth : 0 < m.depth
  bpp : m.bpp = 3
  bpc : m.bpc = 4
  cons : m.Consistent
  fits : m.size < 4294967296
  len : ∀ x y, x < w → y < h → (px x y).length = 12
  px : ∀ x y c, x < w → y < h → c < 12 → m.px x (if m.origin = IL_ORIGIN_LOWER_LEFT then h - 1 - y else y) 0 c = (px x y)[c]?

/-- Old-style scan lines: the pixels one after the other. -/
def flat (n : Nat) (px : Nat → UInt8 × UInt8 × UInt8 × UInt8) : List UInt8 :=
  (List.range n).flatMap (fun i => [(px i).1, (px i).2.1, (px i).2.2.1, (px i).2.2.2])

/-- No three bytes in a row are all 1. -/
def NoOnes (bs : List UInt8) : Prop := ∀ i : Nat, ¬(bs[i]? = some 1 ∧ bs[i + 1]? = some 1 ∧ bs[i + 2]? = some 1)

end DevIL.HdrSpec
