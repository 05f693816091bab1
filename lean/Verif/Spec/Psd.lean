import Verif.Comp
import Verif.Spec.Dpx
/-! Specification for Photoshop files: what they are made of.  Nothing here refers to the model of the loader or of the saver. -/
set_option autoImplicit false
namespace DevIL.PsdSpec

/-- A number of `n` bytes, the highest byte first. -/
def num (n v : Nat) : List UInt8 := (leBytes n v).reverse

/-- A resource: its number, its name and its contents. -/
structure Resource where
  id : Nat
  name : List UInt8
  data : List UInt8

/-- The sizes that can be written down. -/
def Resource.Ok (r : Resource) : Prop := r.id < 65536 ∧ r.name.length < 256 ∧ r.data.length < 4294967295

/-- A resource in the file.  Length and name, and the contents, are filled up to an even number of bytes. -/
def Resource.bytes (r : Resource) : List UInt8 :=
  [0x38, 0x42, 0x49, 0x4D] ++ num 2 r.id ++ (UInt8.ofNat r.name.length :: (r.name ++ List.replicate ((r.name.length + 1) % 2) 0)) ++
    num 4 r.data.length ++ (r.data ++ List.replicate (r.data.length % 2) 0)

/-- A document: number of channels, height, width, bits for each component, mode (1 grey, 2 with a palette, 3 RGB, 4 CMYK), the colour data, the resources, the layers. -/
structure Doc where
  channels : Nat
  height : Nat
  width : Nat
  depth : Nat
  mode : Nat
  colours : List UInt8
  resources : List Resource
  layers : List UInt8

/-- What the format allows, and sizes that can be written down. -/
structure Doc.Ok (d : Doc) : Prop where
  channels : 1 ≤ d.channels ∧ d.channels ≤ 24
  height : 0 < d.height ∧ d.height < 4294967296
  width : 0 < d.width ∧ d.width < 4294967296
  resources : ∀ r ∈ d.resources, r.Ok

/-- The 26 bytes at the beginning. -/
def Doc.head (d : Doc) : List UInt8 :=
  [0x38, 0x42, 0x50, 0x53] ++ num 2 1 ++ List.replicate 6 0 ++ num 2 d.channels ++ num 4 d.height ++ num 4 d.width ++ num 2 d.depth ++ num 2 d.mode

/-- A section: its length and its contents. -/
def section_ (s : List UInt8) : List UInt8 := num 4 s.length ++ s

/-- What stands before the picture; `comp` is 0 for pixels as they are and 1 for run-lengths. -/
def Doc.before (d : Doc) (comp : Nat) : List UInt8 :=
  d.head ++ section_ d.colours ++ section_ (d.resources.flatMap Resource.bytes) ++ section_ d.layers ++ num 2 comp

/-- The number of components in a pixel and the format of an opaque picture: grey (other channels are not part of the picture), or red, green and blue. -/
def Doc.Opaque (d : Doc) (k f : Nat) : Prop :=
  (d.mode = 1 ∧ k = 1 ∧ f = IL_LUMINANCE) ∨ (d.mode = 3 ∧ d.channels = 3 ∧ k = 3 ∧ f = IL_RGB)

/-- The same for a picture with alpha: red, green, blue and alpha. -/
def Doc.Alpha (d : Doc) (k f : Nat) : Prop := d.mode = 3 ∧ d.channels = 4 ∧ k = 4 ∧ f = IL_RGBA

/-- The type for components of one and of two bytes. -/
def typeFor (b : Nat) : Nat := if b = 1 then IL_UNSIGNED_BYTE else IL_UNSIGNED_SHORT

/-- Byte `i` of the pixel in column `x` of row `y`, as it is in memory on a little-endian machine: the picture stands channel after channel, with the highest byte of each
component first.  `b` is the number of bytes of a component. -/
def plainPx (w h b : Nat) (body : List UInt8) (x y i : Nat) : Option UInt8 := body[((i / b * h + y) * w + x) * b + (b - 1 - i % b)]?

/-- A component times the black channel, divided by 256. -/
def blackPx (w h : Nat) (body : List UInt8) (x y i : Nat) : Option UInt8 :=
  (plainPx w h 1 body x y i).bind (fun a => (plainPx w h 1 body x y 3).map (fun k => UInt8.ofNat (a.toNat * k.toNat / 256)))

/-! ### Run-lengths -/

/-- A code of the compression: bytes as they are, a byte `n` times, or nothing. -/
inductive Code where
  | lit (bs : List UInt8)
  | rep (n : Nat) (v : UInt8)
  | nop

/-- Lengths that can be written down. -/
def Code.Ok : Code → Prop
  | .lit bs => 1 ≤ bs.length ∧ bs.length ≤ 128
  | .rep n _ => 2 ≤ n ∧ n ≤ 128
  | .nop => True

/-- A code in the file. -/
def Code.bytes : Code → List UInt8
  | .lit bs => UInt8.ofNat (bs.length - 1) :: bs
  | .rep n v => [UInt8.ofNat (257 - n), v]
  | .nop => [128]

/-- What a code stands for. -/
def Code.out : Code → List UInt8
  | .lit bs => bs
  | .rep n v => List.replicate n v
  | .nop => []

/-- Codes of a channel: each can be written down, together they stand for `n` bytes, and the last does not stand for nothing (nobody would read it). -/
structure Codes (cs : List Code) (n : Nat) : Prop where
  ok : ∀ c ∈ cs, c.Ok
  out : (cs.flatMap Code.out).length = n
  last : ∀ c, cs.getLast? = some c → c ≠ .nop

/-- A channel in the file. -/
def chanBytes (cs : List Code) : List UInt8 := cs.flatMap Code.bytes

/-- The bytes of a channel. -/
def chanOut (cs : List Code) : List UInt8 := cs.flatMap Code.out

/-- Component `i` of the pixel in column `x` of row `y`, from the codes of the channels. -/
def packedPx (w : Nat) (css : List (List Code)) (x y i : Nat) : Option UInt8 := (chanOut (css.getD i []))[y * w + x]?

end DevIL.PsdSpec
