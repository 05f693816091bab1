import Verif.Comp
/-! The format of the pixels of a GIF file: variable-length LZW codes in data blocks, and the order of the rows of interlaced images.  Nothing here refers to the code of the library. -/
set_option autoImplicit false
namespace DevIL.GifSpec

/-- The `k` lowest bits of a number, the lowest first. -/
def bitsOf (k v : Nat) : List Bool := (List.range k).map fun i => v.testBit i

/-- The bits of bytes, in the order in which codes are taken from them. -/
def bitsOfBytes (bs : List UInt8) : List Bool := bs.flatMap fun b => bitsOf 8 b.toNat

/-- What the codes stand for at the start and after a clear code: the colours below `2 ^ size`, and two codes that stand for no pixels. -/
def roots (size : Nat) : List (List UInt8) := (List.range (2 ^ size)).map (fun v => [UInt8.ofNat v]) ++ [[], []]

/-- The code that empties the dictionary. -/
abbrev clearCode (size : Nat) : Nat := 2 ^ size
/-- The code after the last pixel. -/
abbrev endCode (size : Nat) : Nat := 2 ^ size + 1

/-- How many bits a code has if the encoder's dictionary has `n` entries: as many as the number of the last entry needs. -/
def codeBits (n : Nat) : Nat := (n - 1).log2 + 1

/-- The encoder's dictionary after it has written the code of `p` with the pixels `rest` left: it has learnt `p` followed by the next pixel. -/
def grow (dict : List (List UInt8)) (p rest : List UInt8) : List (List UInt8) := if dict.length < 4096 then dict ++ [p ++ rest.take 1] else dict

/-- `Codes size lone fresh dict px cs`: an encoder with the dictionary `dict` can write the pixels `px` as the codes `cs`, each with its number of bits.  It may take any
phrase it knows and may clear the dictionary at any time.  `fresh` says that nothing has been written since the dictionary was cleared.  If `lone` is false, at least
two codes for pixels follow each clear code. -/
inductive Codes (size : Nat) (lone : Bool) : Bool → List (List UInt8) → List UInt8 → List (Nat × Nat) → Prop where
  | finish (fresh : Bool) (dict : List (List UInt8)) : Codes size lone fresh dict [] [(codeBits dict.length, endCode size)]
  | clear (fresh : Bool) (dict : List (List UInt8)) (px : List UInt8) (cs : List (Nat × Nat)) :
      (px = [] → lone = true) → Codes size lone true (roots size) px cs → Codes size lone fresh dict px ((codeBits dict.length, clearCode size) :: cs)
  | code (fresh : Bool) (dict : List (List UInt8)) (c : Nat) (p rest : List UInt8) (cs : List (Nat × Nat)) :
      dict[c]? = some p → p ≠ [] → (fresh = true → rest = [] → lone = true) → Codes size lone false (grow dict p rest) rest cs →
      Codes size lone fresh dict (p ++ rest) ((codeBits dict.length, c) :: cs)

/-- The bits of codes. -/
def bitsOfCodes (cs : List (Nat × Nat)) : List Bool := cs.flatMap fun c => bitsOf c.1 c.2

/-- Data blocks, each with its length in front, without the empty one that ends them. -/
def blockBytes (blocks : List (List UInt8)) : List UInt8 := blocks.flatMap fun b => UInt8.ofNat b.length :: b

/-- The length of a block fits into a byte and is not 0. -/
def BlocksOk (blocks : List (List UInt8)) : Prop := ∀ b ∈ blocks, b ≠ [] ∧ b.length ≤ 255

/-- `blocks` hold the pixels `px`: the bits in them are those of a clear code and codes for the pixels, filled up to a whole byte. -/
def Holds (size : Nat) (lone : Bool) (px : List UInt8) (blocks : List (List UInt8)) : Prop :=
  BlocksOk blocks ∧ ∃ cs pad, Codes size lone true (roots size) px cs ∧ bitsOfBytes blocks.flatten = bitsOf (size + 1) (clearCode size) ++ bitsOfCodes cs ++ pad ∧ pad.length < 8

/-- The rows of an interlaced image of `h` rows in the order in which they are stored. -/
def interlaced (h : Nat) : List Nat :=
  (List.range h).filter (· % 8 = 0) ++ (List.range h).filter (· % 8 = 4) ++ (List.range h).filter (· % 4 = 2) ++ (List.range h).filter (· % 2 = 1)

end DevIL.GifSpec
