import Verif.Props.Manip
import Verif.Model.Pal
import Verif.Spec.Detect
/-! Specification for the small picture formats of games and old programs (FTX, LIF, PXR, PIX, MDL, WAL, Doom, CUT): what a file of the
format stores, by byte offsets, and when an image shows it.  Nothing here refers to the model of the loaders. -/
set_option autoImplicit false
namespace DevIL.GamesSpec

open DevIL.DetectSpec

/-- The image is a `w` by `h` picture of `k` bytes per pixel, row 0 at the top, with a pixel block of exactly that size; byte `c` of the
pixel in column `x` of row `y` is `px x y c`. -/
structure Shows (m : Img) (w h k format : Nat) (px : Nat → Nat → Nat → Option UInt8) : Prop where
  width : m.width = w
  height : m.height = h
  depth : m.depth = 1
  bpp : m.bpp = k
  bpc : m.bpc = 1
  format : m.format = format
  type : m.type = IL_UNSIGNED_BYTE
  origin : m.origin = IL_ORIGIN_UPPER_LEFT
  cons : m.Consistent
  px : ∀ x y c, x < w → y < h → c < k → m.px x y 0 c = px x y c ∧ (px x y c).isSome = true

/-- These bytes are in the file at this offset. -/
def StoredAt (bs : List UInt8) (p : Nat) (g : List UInt8) : Prop := at_ bs p g.length = g

/-- The palette of the image: this many bytes, of this kind. -/
def HasPal (p : Option Pal) (bytes : List UInt8) (type : Nat) : Prop := p = some ⟨bytes, bytes.length, type⟩

/-- What loading bytes as FTX must do.  An FTX file: width, height and a flag of four bytes each, then four bytes for each pixel, from the
top left.  The image block always has the size the image reports; for a picture that is not empty and takes less than 4 GiB, loading
succeeds exactly if the file has all its pixels, and shows them. -/
def Ftx (bs : List UInt8) (ok : Bool) (r : Img × Option Pal) : Prop :=
  r.1.data.length = r.1.size ∧
  (12 ≤ bs.length → 0 < leAt bs 0 4 → 0 < leAt bs 4 4 → leAt bs 0 4 * leAt bs 4 4 * 4 < 2 ^ 32 →
    (ok = true ↔ 12 + leAt bs 0 4 * leAt bs 4 4 * 4 ≤ bs.length) ∧
    (ok = true → Shows r.1 (leAt bs 0 4) (leAt bs 4 4) 4 IL_RGBA (fun x y c => bs[12 + (y * leAt bs 0 4 + x) * 4 + c]?) ∧ r.2 = none))

/-- What loading bytes as LIF must do.  A LIF file: 8 bytes of signature, 9 numbers of four bytes, of which the third and fourth are width
and height; one byte for each pixel, from the top left, holding the number of its colour less one; 256 colours of four bytes. -/
def Lif (bs : List UInt8) (ok : Bool) (r : Img × Option Pal) : Prop :=
  r.1.data.length = r.1.size ∧
  (44 ≤ bs.length → 0 < leAt bs 16 4 → 0 < leAt bs 20 4 → leAt bs 16 4 * leAt bs 20 4 < 2 ^ 32 →
    (ok = true ↔ 44 + leAt bs 16 4 * leAt bs 20 4 + 1024 ≤ bs.length) ∧
    (ok = true → Shows r.1 (leAt bs 16 4) (leAt bs 20 4) 1 IL_COLOUR_INDEX
        (fun x y _ => bs[44 + (y * leAt bs 16 4 + x)]?.map (· + 1)) ∧
      HasPal r.2 (at_ bs (44 + leAt bs 16 4 * leAt bs 20 4) 1024) IL_PAL_RGBA32))

/-- The components of a PXR picture, by the byte at offset 424. -/
def pxrKind (b : UInt8) : Option (Nat × Nat) :=
  if b = 8 then some (1, IL_LUMINANCE) else if b = 14 then some (3, IL_RGB) else if b = 15 then some (4, IL_RGBA) else none

/-- Runs of pixels: `n` pixels of the same three bytes. -/
structure Run where
  n : UInt8
  a : UInt8
  b : UInt8
  c : UInt8

/-- The runs of a PIX picture as stored. -/
def runBytes (rs : List Run) : List UInt8 := rs.flatMap (fun r => [r.n, r.a, r.b, r.c])
/-- The pixel bytes that runs stand for. -/
def runPixels (rs : List Run) : List UInt8 := rs.flatMap (fun r => (List.replicate r.n.toNat [r.a, r.b, r.c]).flatten)

/-- One post of a column of a Doom picture: pixels from row `top` on. -/
structure Post where
  top : UInt8
  px : List UInt8
  pad1 : UInt8
  pad2 : UInt8

/-- A post as stored. -/
def Post.bytes (p : Post) : List UInt8 := p.top :: UInt8.ofNat p.px.length :: p.pad1 :: (p.px ++ [p.pad2])
/-- A column as stored: its posts, then 255. -/
def colBytes (ps : List Post) : List UInt8 := ps.flatMap Post.bytes ++ [255]
/-- A post that can be stored. -/
def Post.Ok (p : Post) : Prop := p.top ≠ 255 ∧ p.px.length < 256
/-- The colour of a row of a column: that of the last post that covers the row, or else colour 247 (transparent). -/
def colPx : List Post → Nat → UInt8 → UInt8
  | [], _, v => v
  | p :: ps, y, v => colPx ps y (if p.top.toNat ≤ y then p.px.getD (y - p.top.toNat) v else v)

/-- A piece of a row of a CUT picture: equal pixels, or pixels one by one. -/
inductive Piece where
  | run (n : Nat) (v : UInt8)
  | lit (px : List UInt8)

/-- A piece that can be stored. -/
def Piece.Ok : Piece → Prop
  | .run n _ => n < 128
  | .lit px => 0 < px.length ∧ px.length < 128
/-- A piece as stored. -/
def Piece.bytes : Piece → List UInt8
  | .run n v => [UInt8.ofNat (n + 128), v]
  | .lit px => UInt8.ofNat px.length :: px
/-- The pixels of a piece. -/
def Piece.pixels : Piece → List UInt8
  | .run n v => List.replicate n v
  | .lit px => px
/-- A row as stored, with the two bytes of its length before it (which are not used) and 0 after it. -/
def rowBytes (r : UInt8 × UInt8 × List Piece) : List UInt8 := r.1 :: r.2.1 :: (r.2.2.flatMap Piece.bytes ++ [0])

end DevIL.GamesSpec
