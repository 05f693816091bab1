import Verif.Core
/-! What the codes of a run-length encoded bitmap mean (the RLE8 and RLE4 methods of Windows bitmaps).  Independent of the model. -/
set_option autoImplicit false
namespace DevIL.Bmp

/-- The codes of a run-length encoded bitmap: a run, literal pixels (with the value of the byte that pads them), the end of a line, and a move to the right and up. -/
inductive Code where
  | run (n : Nat) (v : UInt8)
  | lit (vs : List UInt8) (fill : UInt8)
  | eol
  | delta (dx dy : UInt8)

/-- Pixel `i` of a run of four-bit pixels with the byte `v`: its two halves in turn. -/
def nib (v : UInt8) (i : Nat) : UInt8 := UInt8.ofNat (if i % 2 = 0 then v.toNat / 16 else v.toNat % 16)

/-- Two four-bit pixels per byte, the first in the high half. -/
def pack : List UInt8 → List UInt8
  | [] => []
  | [a] => [UInt8.ofNat (a.toNat * 16)]
  | a :: b :: t => UInt8.ofNat (a.toNat * 16 + b.toNat) :: pack t

/-- The pixels of a code. -/
def Code.pixels (four : Bool) : Code → List UInt8
  | .run n v => (List.range n).map fun i => if four then nib v i else v
  | .lit vs _ => vs
  | .eol => []
  | .delta _ _ => []

/-- The bytes of literal pixels, padded to an even number. -/
def litBytes (four : Bool) (vs : List UInt8) (fill : UInt8) : List UInt8 :=
  let bs := if four then pack vs else vs
  bs ++ List.replicate (bs.length % 2) fill

/-- The bytes of a code. -/
def Code.bytes (four : Bool) : Code → List UInt8
  | .run n v => [UInt8.ofNat n, v]
  | .lit vs fill => [0, UInt8.ofNat vs.length] ++ litBytes four vs fill
  | .eol => [0, 0]
  | .delta dx dy => [0, 2, dx, dy]

/-- Codes that have such bytes. -/
def Code.Ok (four : Bool) : Code → Prop
  | .run n _ => 1 ≤ n ∧ n ≤ 255
  | .lit vs _ => 3 ≤ vs.length ∧ vs.length ≤ 255 ∧ (four = true → ∀ v ∈ vs, v.toNat < 16)
  | .eol => True
  | .delta _ _ => True

/-- Where the decoder stands, and the pixels it has set. -/
structure Cur where
  x : Nat
  y : Nat
  pic : Nat → Nat → Option UInt8

/-- Pixels to the right. -/
def Cur.put (s : Cur) (vs : List UInt8) : Cur :=
  ⟨s.x + vs.length, s.y, fun x y => if y = s.y ∧ s.x ≤ x ∧ x < s.x + vs.length then vs[x - s.x]? else s.pic x y⟩

def Code.exec (four : Bool) (s : Cur) : Code → Cur
  | .run n v => s.put ((Code.run n v).pixels four)
  | .lit vs f => s.put ((Code.lit vs f).pixels four)
  | .eol => { s with x := 0, y := s.y + 1 }
  | .delta dx dy => { s with x := s.x + dx.toNat, y := s.y + dy.toNat }

/-- The code stays inside its line, and inside the image. -/
def Code.Fits (four : Bool) (w h : Nat) (s : Cur) : Code → Prop
  | .run n _ => s.y < h ∧ s.x + n ≤ w
  | .lit vs _ => s.y < h ∧ s.x + vs.length ≤ w
  | .eol => True
  | .delta dx dy => s.y + dy.toNat < h ∧ s.x + dx.toNat ≤ w

def Fits (four : Bool) (w h : Nat) (s : Cur) : List Code → Prop
  | [] => True
  | c :: cs => c.Ok four ∧ c.Fits four w h s ∧ Fits four w h (c.exec four s) cs

/-- The pixels that the codes set, from the start of the first line on. -/
def picture (four : Bool) (cs : List Code) : Nat → Nat → Option UInt8 := (cs.foldl (Code.exec four) ⟨0, 0, fun _ _ => none⟩).pic

end DevIL.Bmp
