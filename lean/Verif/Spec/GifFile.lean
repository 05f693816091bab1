import Verif.Spec.Gif
import Verif.Model.Pal
/-! The bytes of a GIF file with one picture.  Nothing here refers to the code of the loader. -/
set_option autoImplicit false
namespace DevIL.GifSpec

/-- An extension: graphic control with its flags, delay and transparent colour, or another one with its label and data blocks. -/
inductive Ext where
  | control (packed : UInt8) (delay : BitVec 16) (transparent : UInt8)
  | other (label : UInt8) (blocks : List (List UInt8))
  deriving DecidableEq

/-- The bytes of an extension. -/
def Ext.bytes : Ext → List UInt8
  | .control packed delay transparent => [0x21, 0xF9, 4, packed] ++ leBytes 2 delay.toNat ++ [transparent, 0]
  | .other label blocks => [0x21, label] ++ blockBytes blocks ++ [0]

/-- The label tells the two kinds apart. -/
def Ext.Ok : Ext → Prop
  | .control .. => True
  | .other label blocks => label ≠ 0xF9 ∧ BlocksOk blocks

/-- A GIF file with one picture: the screen, the frame inside it, and the data of the frame.  A colour table that is not there is empty. -/
structure Still where
  version : UInt8
  width : BitVec 16
  height : BitVec 16
  info : UInt8
  background : UInt8
  aspect : UInt8
  globalTable : List UInt8
  exts : List Ext
  x : BitVec 16
  y : BitVec 16
  w : BitVec 16
  h : BitVec 16
  flags : UInt8
  localTable : List UInt8
  size : Nat
  blocks : List (List UInt8)

/-- The bytes of a file up to the data. -/
def Still.start (s : Still) : List UInt8 :=
  [71, 73, 70, 56, s.version, 97] ++ leBytes 2 s.width.toNat ++ leBytes 2 s.height.toNat ++ [s.info, s.background, s.aspect] ++ s.globalTable ++
    s.exts.flatMap Ext.bytes ++ [0x2C] ++ leBytes 2 s.x.toNat ++ leBytes 2 s.y.toNat ++ leBytes 2 s.w.toNat ++ leBytes 2 s.h.toNat ++ [s.flags] ++ s.localTable

/-- The bytes of a file. -/
def Still.bytes (s : Still) : List UInt8 := s.start ++ [UInt8.ofNat s.size] ++ blockBytes s.blocks ++ [0, 0x3B]

/-- How many bytes the colour table has that the flags announce. -/
def tableSize (flags : UInt8) : Nat := if flags.toNat / 128 % 2 = 1 then 3 * 2 ^ (flags.toNat % 8 + 1) else 0

/-- The file has a signature, a screen, the colour tables it announces, at least one of them, and a frame with rows and columns. -/
structure Still.StartOk (s : Still) : Prop where
  version : s.version = 55 ∨ s.version = 57
  screen : 0 < s.width.toNat ∧ 0 < s.height.toNat
  global : s.globalTable.length = tableSize s.info
  local_ : s.localTable.length = tableSize s.flags
  table : 0 < tableSize s.info ∨ 0 < tableSize s.flags
  exts : ∀ e ∈ s.exts, e.Ok
  frame : 0 < s.w.toNat ∧ 0 < s.h.toNat

/-- The frame does not stick out of the screen. -/
def Still.Inside (s : Still) : Prop := s.x.toNat + s.w.toNat ≤ s.width.toNat ∧ s.y.toNat + s.h.toNat ≤ s.height.toNat

/-- The frame is the screen. -/
def Still.Whole (s : Still) : Prop := s.x = 0 ∧ s.y = 0 ∧ s.w = s.width ∧ s.h = s.height

/-- The rows are interlaced. -/
abbrev Still.Interlaced (s : Still) : Prop := s.flags.toNat / 64 % 2 = 1

/-- The data is that of the pixels `px`, row after row as stored; see `Codes` for `lone`. -/
def Still.Shows (s : Still) (lone : Bool) (px : List UInt8) : Prop :=
  2 ≤ s.size ∧ s.size ≤ 8 ∧ px.length = s.w.toNat * s.h.toNat ∧ Holds s.size lone px s.blocks

/-- What an extension says about the frame after it: flags, delay and transparent colour. -/
def Ext.note (c : Option (UInt8 × BitVec 16 × UInt8)) : Ext → Option (UInt8 × BitVec 16 × UInt8)
  | .control p d t => some (p, d, t)
  | .other .. => c

/-- The last graphic control extension: flags, delay and transparent colour. -/
def lastControl (es : List Ext) : Option (UInt8 × BitVec 16 × UInt8) := es.foldl Ext.note none

/-- The transparent colour if there is one. -/
def Still.transparent (s : Still) : Option UInt8 :=
  match lastControl s.exts with
  | none => none
  | some (p, _, t) => if p.toNat % 2 = 1 then some t else none

/-- The colours of the picture. -/
def Still.table (s : Still) : List UInt8 := if 0 < tableSize s.flags then s.localTable else s.globalTable

/-- The row of the frame that is stored as row `j`. -/
def Still.row (s : Still) (j : Nat) : Option Nat := if s.Interlaced then (interlaced s.h.toNat)[j]? else some j

/-- The palette of a picture: its colours, and which of them is transparent. -/
def Still.Colours (s : Still) (p : Pal) : Prop :=
  match s.transparent with
  | none => p.type = IL_PAL_RGB24 ∧ p.size = s.table.length ∧ p.data.take p.size = s.table
  | some t => p.type = IL_PAL_RGBA32 ∧ p.size = 4 * (s.table.length / 3) ∧ p.data.length = p.size ∧ ∀ i, i < s.table.length / 3 →
      (∀ c, c < 3 → p.data[4 * i + c]? = s.table[3 * i + c]?) ∧ p.data[4 * i + 3]? = some (if i = t.toNat then 0 else 255)

/-- How many milliseconds the frame is shown. -/
def Still.duration (s : Still) : Nat := match lastControl s.exts with | none => 0 | some (_, d, _) => d.toNat * 10

/-- The colour of the screen around the frame. -/
def Still.around (s : Still) : UInt8 := s.transparent.getD s.background

end DevIL.GifSpec
