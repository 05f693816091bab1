import Verif.Props.Manip
import Verif.Spec.Detect
/-! Specification for raw data and for DPX files: what the bytes stand for, by offsets, and when an image shows it.  Nothing here refers to the model
of the loaders. -/
set_option autoImplicit false
namespace DevIL.DpxSpec
open DevIL.DetectSpec

/-- The image has `w` by `h` by `d` pixels of `k` components of `b` bytes, row 0 at the top, and a pixel block of exactly that size; byte `c`
of the pixel in column `x` of row `y` of slice `z` is `px x y z c`. -/
structure Shows3 (m : Img) (w h d k b format type : Nat) (px : Nat → Nat → Nat → Nat → Option UInt8) : Prop where
  width : m.width = w
  height : m.height = h
  depth : m.depth = d
  bpp : m.bpp = k
  bpc : m.bpc = b
  format : m.format = format
  type : m.type = type
  origin : m.origin = IL_ORIGIN_UPPER_LEFT
  cons : m.Consistent
  px : ∀ x y z c, x < w → y < h → z < d → c < k * b → m.px x y z c = px x y z c ∧ (px x y z c).isSome = true

/-- The format of raw data with one, three or four bytes per pixel; no other number is allowed. -/
def rawFormat (k : Nat) : Option Nat :=
  if k = 1 then some IL_LUMINANCE else if k = 3 then some IL_RGB else if k = 4 then some IL_RGBA else none

/-- What loading raw data must do, with the bytes from the current position on.  The block of the image always has the size the image reports.
With a number of bytes per pixel that is not allowed, nothing is loaded and the image is left alone.  Otherwise, for a picture that is not empty
and takes less than 4 GiB, loading succeeds exactly if all its pixels are there, and shows them: slice after slice, row after row, from the top. -/
def RawData (bs : List UInt8) (w h d k : Nat) (before : Img) (ok : Bool) (r : Option Img) : Prop :=
  (rawFormat k = none → ok = false ∧ r = some before) ∧
  ∀ f, rawFormat k = some f → ∃ m, r = some m ∧ m.data.length = m.size ∧
    (0 < w → 0 < h → 0 < d → w * h * d * k < 2 ^ 32 →
      (ok = true ↔ w * h * d * k ≤ bs.length) ∧
      (ok = true → Shows3 m w h d k 1 f IL_UNSIGNED_BYTE (fun x y z c => bs[((z * h + y) * w + x) * k + c]?)))

/-! ### DPX -/

/-- Number of components and format of the pictures of a DPX file, by the byte at offset 800. -/
def dpxKind (b : UInt8) : Option (Nat × Nat) :=
  if b = 6 then some (1, IL_LUMINANCE) else if b = 50 then some (3, IL_RGB) else if b = 51 then some (4, IL_RGBA) else none

/-- Width and height (offsets 772 and 776), and where the first picture is (offset 808). -/
def dpxWidth (bs : List UInt8) : Nat := beAt bs 772 4
/-- See `dpxWidth`. -/
def dpxHeight (bs : List UInt8) : Nat := beAt bs 776 4
/-- See `dpxWidth`. -/
def dpxData (bs : List UInt8) : Nat := beAt bs 808 4

/-- A DPX header of 1664 bytes whose first picture has `k` components of format `f` with `bits` bits (offset 803), is not empty and begins inside
the file. -/
structure DpxHead (bs : List UInt8) (k f : Nat) (bits : UInt8) : Prop where
  long : 1664 ≤ bs.length
  kind : (bs[800]?).bind dpxKind = some (k, f)
  bits : bs[803]? = some bits
  width : 0 < dpxWidth bs
  height : 0 < dpxHeight bs
  inside : dpxData bs ≤ bs.length

/-- The number of bytes that ten-bit values of `k` components take, in words. -/
def tenBytes (k : Nat) : Nat := if k = 1 then 2 else if k = 3 then 4 else 8

/-- The ten-bit value of component `c` of a pixel of `k` components at this offset: the components follow each other from the highest bit of the
first byte on. -/
def tenValue (bs : List UInt8) (k off c : Nat) : Nat :=
  if k = 1 then beAt bs off 2 / 64
  else if k = 3 then beAt bs off 4 / 2 ^ (22 - 10 * c) % 1024
  else beAt bs off 5 / 2 ^ (30 - 10 * c) % 1024

/-- A ten-bit value in the range of sixteen bits: 0 becomes 0, 1023 becomes 65535, the six new bits repeat the highest ones. -/
def widen (v : Nat) : Nat := v * 64 + v / 16

/-- The two bytes of a number of sixteen bits in memory, on a little-endian machine. -/
def byteOf (v i : Nat) : UInt8 := UInt8.ofNat (v / 256 ^ i)

end DevIL.DpxSpec
