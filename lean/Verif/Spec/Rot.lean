import Verif.Spec.Games
import Verif.Spec.DdsMip
import Verif.Comp
/-! Specification for Relic textures (ROT): nested chunks, with a chunk for each level.  Nothing here refers to the model of the loader. -/
set_option autoImplicit false
namespace DevIL.RotSpec
open DevIL.DetectSpec

/-- "FORM". -/
def FORM : List UInt8 := [70, 79, 82, 77]
/-- "HEAD". -/
def HEAD : List UInt8 := [72, 69, 65, 68]
/-- "MIPS". -/
def MIPS : List UInt8 := [77, 73, 80, 83]
/-- "MLVL". -/
def MLVL : List UInt8 := [77, 76, 86, 76]

/-- A level: its number, its sides and its data. -/
structure Level where
  number : Nat
  w : Nat
  h : Nat
  data : List UInt8

/-- A number of four bytes, the least significant first. -/
def le4 (n : Nat) : List UInt8 := leBytes 4 n

/-- A level in the file. -/
def Level.bytes (l : Level) : List UInt8 :=
  FORM ++ (le4 (l.data.length + 20)).reverse ++ MLVL ++ (le4 l.number ++ le4 l.w ++ le4 l.h ++ le4 l.data.length) ++ l.data

/-- A file: the sides and the format, two numbers that do not matter, the levels and what follows. -/
structure Doc where
  w : Nat
  h : Nat
  fmt : Nat
  channels : List UInt8
  length : List UInt8
  levels : List Level
  rest : List UInt8

/-- What comes before the levels. -/
def Doc.head (d : Doc) : List UInt8 :=
  FORM ++ [0, 0, 0, 20] ++ HEAD ++ (le4 d.w ++ le4 d.h ++ le4 d.fmt ++ d.channels) ++ (FORM ++ d.length ++ MIPS)

def Doc.bytes (d : Doc) : List UInt8 := d.head ++ ((d.levels.map Level.bytes).flatten ++ d.rest)

/-- The head of a picture of `w` by `h` pixels. -/
structure Doc.Head (d : Doc) : Prop where
  w0 : 0 < d.w
  h0 : 0 < d.h
  w1 : d.w < 2 ^ 32
  h1 : d.h < 2 ^ 32
  channels : d.channels.length = 4
  length : d.length.length = 4

/-- Each level is at most as wide and at most as high as the one before, and has data of this length. -/
def Descend (bytes : Nat → Nat → Nat) : Nat → Nat → List Level → Prop
  | _, _, [] => True
  | w, h, l :: ls => 0 < l.w ∧ l.w ≤ w ∧ 0 < l.h ∧ l.h ≤ h ∧ l.data.length = bytes l.w l.h ∧ Descend bytes l.w l.h ls

/-- The compressed formats with 16 bytes for each block: the number in the file, and the format of the blocks. -/
def Coded (fmt dxt : Nat) : Prop := (fmt = 1029 ∧ dxt = IL_DXT3) ∨ (fmt = 1030 ∧ dxt = IL_DXT5)

/-- What may follow the levels: nothing, or anything that is not a chunk. -/
def Rest (r : List UInt8) : Prop := r = [] ∨ (4 ≤ r.length ∧ r.take 4 ≠ FORM)

end DevIL.RotSpec
