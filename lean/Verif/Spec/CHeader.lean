import Verif.Core
/-! Specification for C source text: how a compiler reads the list of numbers between the braces of an array.  Characters are their ASCII codes.  Nothing here refers to the model. -/
set_option autoImplicit false
namespace DevIL.CHeaderSpec

/-- What has been read: the numbers before the last comma, the number being read, and whether white space has ended it. -/
structure Reader where
  done : List Nat
  cur : Option Nat
  closed : Bool
  deriving DecidableEq

/-- White space: space, tab, new line. -/
def blank (c : Nat) : Bool := c = 32 ∨ c = 9 ∨ c = 10

/-- One character.  A comma must follow a number; a digit must not follow white space after a number, nor a leading zero, which would make the number octal. -/
def readChar (s : Reader) (c : Nat) : Option Reader :=
  if blank c then some { s with closed := s.cur.isSome }
  else if c = 44 then
    match s.cur with
    | some v => some ⟨s.done ++ [v], none, false⟩
    | none => none
  else if 48 ≤ c ∧ c ≤ 57 then
    if s.closed ∨ s.cur = some 0 then none else some { s with cur := some (s.cur.getD 0 * 10 + (c - 48)) }
  else none

/-- Characters one after the other. -/
def readAll (s : Reader) : List Nat → Option Reader
  | [] => some s
  | c :: t => (readChar s c).bind (fun s => readAll s t)

/-- The numbers that the text lists. -/
def values (text : List Nat) : Option (List Nat) := (readAll ⟨[], none, false⟩ text).map (fun s => s.done ++ s.cur.toList)

example : values [32, 49, 50, 44, 10, 9, 48] = some [12, 0] := by decide
example : values [49, 32, 50] = none := by decide

/-- The size in bytes of a component of a type: `IL_BYTE` to `IL_DOUBLE`, and `IL_HALF`, il.h:134-142. -/
def typeSize (t : Nat) : Nat :=
  if t = 0x1400 ∨ t = 0x1401 then 1 else if t = 0x1402 ∨ t = 0x1403 ∨ t = 0x140B then 2 else if t = 0x1404 ∨ t = 0x1405 ∨ t = 0x1406 then 4 else if t = 0x140A then 8 else 0

end DevIL.CHeaderSpec
