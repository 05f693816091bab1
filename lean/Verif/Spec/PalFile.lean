import Verif.Spec.Pnm
/-! Specification: text files with a palette ("JASC-PAL"). -/
set_option autoImplicit false
namespace DevIL.PalFileSpec
open DevIL.PnmSpec

/-- Decimal digits of the three components of a colour. -/
structure Digits where
  r : List UInt8
  g : List UInt8
  b : List UInt8

/-- A decimal number that is a byte, written with less than 255 digits. -/
def IsByte (ds : List UInt8) : Prop := IsNumber ds ∧ number ds < 256 ∧ ds.length < 255

def Digits.Ok (c : Digits) : Prop := IsByte c.r ∧ IsByte c.g ∧ IsByte c.b

/-- The line of a colour: three numbers separated by a space, and a line feed. -/
def Digits.line (c : Digits) : List UInt8 := c.r ++ 32 :: (c.g ++ 32 :: (c.b ++ [10]))

/-- The three bytes of a colour. -/
def Digits.bytes (c : Digits) : List UInt8 := [UInt8.ofNat (number c.r), UInt8.ofNat (number c.g), UInt8.ofNat (number c.b)]

/-- The file: the lines `JASC-PAL` and `0100`, the number of colours, the colours. -/
def jasc (count : List UInt8) (cs : List Digits) : List UInt8 :=
  [74, 65, 83, 67, 45, 80, 65, 76, 10, 48, 49, 48, 48, 10] ++ (count ++ 10 :: cs.flatMap Digits.line)

/-- A file of printing characters, zeros and line feeds, without a run of ten digits and without a negative number. -/
structure Tame (d : List UInt8) : Prop where
  chars : ∀ c ∈ d, c = 10 ∨ c = 0 ∨ (32 ≤ c ∧ c ≤ 126)
  short : ∀ ds, ds <:+: d → (∀ c ∈ ds, 48 ≤ c ∧ c ≤ 57) → ds.length < 10
  minus : ∀ c, [45, c] <:+: d → ¬ (48 ≤ c ∧ c ≤ 57)

end DevIL.PalFileSpec
