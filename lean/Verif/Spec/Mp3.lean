import Verif.Spec.Games
/-! Where an MP3 file with an ID3 tag of version 2.3 has its picture.  No definition of the loader is used. -/
set_option autoImplicit false
namespace DevIL.Mp3Spec
open DevIL.DetectSpec

/-- "ID3" and version 3. -/
def Tag23 (bs : List UInt8) : Prop := at_ bs 0 4 = [73, 68, 51, 3]

instance (bs : List UInt8) : Decidable (Tag23 bs) := inferInstanceAs (Decidable (at_ bs 0 4 = [73, 68, 51, 3]))

/-- The number in four bytes of seven bits each, most significant first. -/
def synchAt (bs : List UInt8) (p : Nat) : Nat := beAt bs p 1 % 128 * 2 ^ 21 + beAt bs (p + 1) 1 % 128 * 2 ^ 14 + beAt bs (p + 2) 1 % 128 * 2 ^ 7 + beAt bs (p + 3) 1 % 128

/-- The length of the tag, without its header of ten bytes. -/
def tagLength (bs : List UInt8) : Nat := synchAt bs 6

/-- The identifier of a frame with a picture: "APIC". -/
def apic : List UInt8 := [65, 80, 73, 67]

/-- Behind `k` frames that have no picture, each of ten bytes and as many more as its size says, comes the frame at `q`; all begin within the tag and the file. -/
inductive Frames (bs : List UInt8) : Nat → Nat → Nat → Prop where
  | here (p : Nat) : Frames bs 0 p p
  | skip (k p q : Nat) (other : at_ bs p 4 ≠ apic) (small : beAt bs (p + 4) 4 < 2 ^ 31) (inFile : p + 10 + beAt bs (p + 4) 4 < bs.length) (inTag : p + 10 + beAt bs (p + 4) 4 < tagLength bs)
      (rest : Frames bs k (p + 10 + beAt bs (p + 4) 4) q) : Frames bs (k + 1) p q

/-- A string with its terminator at `p`. -/
def StringAt (bs : List UInt8) (p : Nat) (t : List UInt8) : Prop := (∀ c ∈ t, c ≠ 0) ∧ at_ bs p (t.length + 1) = t ++ [0]

/-- The types "image/jpeg" and "image/png". -/
def jpeg : List UInt8 := [105, 109, 97, 103, 101, 47, 106, 112, 101, 103]
def png : List UInt8 := [105, 109, 97, 103, 101, 47, 112, 110, 103]

/-- The frame at `q` has a picture of this type, which begins at `place`: behind the encoding, the type, the kind of picture and the description. -/
structure PictureAt (bs : List UInt8) (q : Nat) (mime desc : List UInt8) (place : Nat) : Prop where
  id : at_ bs q 4 = apic
  mimeAt : StringAt bs (q + 11) mime
  descAt : StringAt bs (q + 11 + (mime.length + 1) + 1) desc
  short : desc.length < 65
  at_ : place = q + 11 + (mime.length + 1) + 1 + (desc.length + 1)

end DevIL.Mp3Spec
