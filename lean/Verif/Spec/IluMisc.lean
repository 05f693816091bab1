import Verif.Model.IluMisc
/-! Vocabulary of C126 to C129. -/
set_option autoImplicit false
namespace DevIL.IluMiscSpec
open DevIL.IluMisc

/-- The values a parameter takes: nine filters, five placements. -/
def takes (pname v : Nat) : Bool :=
  (pname == 0x2600 && 0x2601 ≤ v && v ≤ 0x2609) || (pname == 0x0700 && 0x0701 ≤ v && v ≤ 0x0705)

/-- The value of the parameter `p` after the calls `ops`: the last accepted one, `v` if there is none. -/
def lastParam (p v : Nat) (ops : List POp) : Nat :=
  ops.foldl (fun v o => match o with
    | .param q w => if q = p ∧ takes q w = true then w else v
    | .get _ => v) v

/-- The languages and their constants. -/
def languages : List (Nat × Lang) :=
  [(0x0800, .english), (0x0801, .arabic), (0x0802, .dutch), (0x0803, .japanese), (0x0804, .spanish), (0x0805, .german), (0x0806, .french),
   (0x0807, .italian)]

/-- The language of a text. -/
def langOf : Msg → Lang
  | .err l _ => l
  | .lib l _ => l
  | .misc l _ => l

/-- The documented errors with their English texts. -/
def errors : List (Nat × String) :=
  [(0x0000, "no error"), (0x0501, "invalid enumerant"), (0x0502, "out of memory"), (0x0503, "format not supported yet"),
   (0x0504, "internal error"), (0x0505, "invalid value"), (0x0506, "illegal operation"), (0x0507, "illegal file value"),
   (0x0508, "invalid file header"), (0x0509, "invalid parameter"), (0x050A, "could not open file"), (0x050B, "invalid extension"),
   (0x050C, "file already exists"), (0x050D, "out format equivalent"), (0x050E, "stack overflow"), (0x050F, "stack underflow"),
   (0x0510, "invalid conversion"), (0x0511, "bad dimensions"), (0x0512, "file read error"),
   (0x05E1, "gif library error"), (0x05E2, "jpeg library error"), (0x05E3, "png library error"), (0x05E4, "tiff library error"),
   (0x05E5, "mng library error"), (0x05E6, "jp2 library error"), (0x05E7, "exr library error"), (0x05FF, "unknown error")]

/-- The language constant in force after `iluInit` and the calls `ls` of `iluSetLanguage`. -/
def lastLang (ls : List Nat) : Nat := ls.foldl (fun v l => if 0x0800 ≤ l ∧ l ≤ 0x0807 then l else v) 0x0800

/-- The region after one call: none, or at least three points. -/
def setTo {α : Type} (old : Option (List α)) : Option (List α) → Option (List α)
  | none => none
  | some ps => if ps.length = 0 then none else if ps.length < 3 then old else some ps

/-- The region in whole numbers after a history. -/
def regionI {F : Type} (ops : List (ROp F)) : Option (List (Int × Int)) :=
  ops.foldl (fun r o => match o with
    | .iv ps => setTo r ps
    | _ => r) none

/-- The region in fractions after a history. -/
def regionF {F : Type} (ops : List (ROp F)) : Option (List (F × F)) :=
  ops.foldl (fun r o => match o with
    | .fv ps => setTo r ps
    | _ => r) none

/-- The polygon an operation on an image of the given size works in: the points, if all of them are within the image. -/
def polygon (w h : Nat) (r : Option (List (Int × Int))) : Option (List (Int × Int)) :=
  match r with
  | none => none
  | some ps => if ∀ p ∈ ps, p.1 < w ∧ p.2 < h then some ps else none

end DevIL.IluMiscSpec
