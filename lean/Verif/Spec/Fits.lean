import Verif.Spec.Pnm
import Verif.Spec.Dpx
/-! FITS files, independent of the loader.  The header is a sequence of cards of 80 bytes; it is filled up to a multiple of 2880 bytes.  The samples follow,
big-endian, the first axis fastest. -/
set_option autoImplicit false
namespace DevIL.FitsSpec
open DevIL.Image
open DevIL.PnmSpec (IsNumber number)

/-- A text as bytes. -/
def text (s : String) : List UInt8 := s.toList.map (fun c => UInt8.ofNat c.toNat)

/-- A keyword, filled up to eight bytes. -/
def word (k : String) : List UInt8 := text k ++ List.replicate (8 - (text k).length) 32

/-- The card of a number: the keyword, "= ", the digits to the right in twenty columns, and a comment. -/
structure Num where
  digits : List UInt8
  note : List UInt8

/-- The bytes of such a card. -/
def Num.bytes (k : String) (n : Num) : List UInt8 := word k ++ text "= " ++ List.replicate (20 - n.digits.length) 32 ++ n.digits ++ n.note

/-- The card holds the number `v`. -/
structure Num.Is (n : Num) (v : Nat) : Prop where
  digits : IsNumber n.digits
  fit : n.digits.length ≤ 20
  note : n.note.length = 50
  val : number n.digits = v

/-- The first card of every file. -/
def first (note : List UInt8) : List UInt8 := word "SIMPLE" ++ text "= " ++ List.replicate 19 32 ++ text "T" ++ note

/-- The last card. -/
def last : List UInt8 := text "END" ++ List.replicate 77 32

/-- A card with another keyword: a comment, or something the picture does not need.  A keyword is followed by a space if it is shorter than eight bytes. -/
def Other (c : List UInt8) : Prop :=
  c.length = 80 ∧ ∀ k ∈ ["END", "SIMPLE", "BITPIX", "NAXIS", "NAXIS1", "NAXIS2", "NAXIS3"], ¬ (text k ++ [32] <+: c)

/-- A document: the comment of the first card, the cards of the mandatory numbers, other cards, the samples as they are stored, and what follows.  There are
one to three axes; `axes` are the cards and `size` the sizes. -/
structure Doc where
  note : List UInt8
  bitpix : Num
  naxis : Num
  axes : List Num
  size : List Nat
  others : List (List UInt8)
  body : List UInt8
  rest : List UInt8

/-- The cards of the axes: NAXIS1 and so on. -/
def axisCards (l : List Num) : List (List UInt8) := (l.zip ["NAXIS1", "NAXIS2", "NAXIS3"]).map (fun p => p.1.bytes p.2)

/-- The cards of the header. -/
def Doc.cards (d : Doc) : List (List UInt8) :=
  [first d.note, d.bitpix.bytes "BITPIX", d.naxis.bytes "NAXIS"] ++ axisCards d.axes ++ d.others

/-- The header, filled up. -/
def Doc.header (d : Doc) : List UInt8 :=
  let h := d.cards.flatten ++ last
  h ++ List.replicate ((2880 - h.length % 2880) % 2880) 32

/-- The whole file. -/
def Doc.bytes (d : Doc) : List UInt8 := d.header ++ d.body ++ d.rest

/-- The dimensions: axes that are not there have size one. -/
def Doc.dim (d : Doc) (i : Nat) : Nat := d.size.getD i 1

/-- A well-formed header that says `8 * b` bits per sample, a whole number. -/
structure Doc.Cards (d : Doc) (b : Nat) : Prop where
  note : d.note.length = 50
  bitpix : d.bitpix.Is (8 * b)
  naxis : d.naxis.Is d.size.length
  axes : d.axes.length = d.size.length
  each : ∀ (i : Nat) (n : Num) (v : Nat), d.axes[i]? = some n → d.size[i]? = some v → n.Is v
  count : 1 ≤ d.size.length ∧ d.size.length ≤ 3
  pos : ∀ v ∈ d.size, 0 < v
  small : ∀ v ∈ d.size, v < 2147483648
  others : ∀ c ∈ d.others, Other c

/-- The same for a picture of less than 2 GiB. -/
structure Doc.Header (d : Doc) (b : Nat) : Prop extends Doc.Cards d b where
  fit : d.dim 0 * d.dim 1 * d.dim 2 * b < 2147483648

/-- The number of bytes of all the samples. -/
def Doc.total (d : Doc) (b : Nat) : Nat := d.dim 0 * d.dim 1 * d.dim 2 * b

/-- The image shows the samples of the document, stored as `b` bytes each, the lowest first; the first row is the lowest. -/
structure Shows (m : Img) (d : Doc) (b type : Nat) : Prop where
  width : m.width = d.dim 0
  height : m.height = d.dim 1
  depth : m.depth = d.dim 2
  bpp : m.bpp = 1
  bpc : m.bpc = b
  format : m.format = IL_LUMINANCE
  type : m.type = type
  origin : m.origin = IL_ORIGIN_LOWER_LEFT
  cons : m.Consistent
  px : ∀ x y z c, x < d.dim 0 → y < d.dim 1 → z < d.dim 2 → c < b → m.px x y z c = d.body[((z * d.dim 1 + y) * d.dim 0 + x) * b + (b - 1 - c)]?

/-- The types of the whole numbers of one, two and four bytes. -/
def intType (b : Nat) : Option Nat := if b = 1 then some IL_UNSIGNED_BYTE else if b = 2 then some IL_SHORT else if b = 4 then some IL_INT else none

end DevIL.FitsSpec
