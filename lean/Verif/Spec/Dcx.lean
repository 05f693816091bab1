import Verif.Spec.Games
/-! Specification for DCX files: a signature and a table of the places of the pages, which ends with zero.  Nothing here refers to the model of the loader. -/
set_option autoImplicit false
namespace DevIL.DcxSpec
open DevIL.DetectSpec

/-- 987654321. -/
def SIG : List UInt8 := [0xB1, 0x68, 0xDE, 0x3A]

/-- The place of a page. -/
def entry (bs : List UInt8) (k : Nat) : Nat := leAt bs (4 + 4 * k) 4

/-- The first `n` numbers of the table are there and are places of pages. -/
def Pages (bs : List UInt8) (n : Nat) : Prop := 4 + 4 * n ≤ bs.length ∧ ∀ k, k < n → entry bs k ≠ 0

/-- The table has `n` pages and its end. -/
def Table (bs : List UInt8) (n : Nat) : Prop := Pages bs n ∧ 8 + 4 * n ≤ bs.length ∧ entry bs n = 0

end DevIL.DcxSpec
