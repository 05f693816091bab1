/-! Specification for the tiles of Maya IFF pictures: how their bytes are packed.  Nothing here refers to the model. -/
set_option autoImplicit false
namespace DevIL.IffSpec

/-- A packet: a byte that is to be repeated, or bytes that are to be taken as they are. -/
inductive Packet where
  | run (n : Nat) (v : UInt8)
  | lit (g : List UInt8)

/-- The bytes it stands for. -/
def Packet.means : Packet → List UInt8
  | run n v => List.replicate n v
  | lit g => g

/-- A packet stands for 1 to 128 bytes. -/
def Packet.Ok (p : Packet) : Prop := 1 ≤ p.means.length ∧ p.means.length ≤ 128

/-- How it is stored: the number of bytes less one, with 128 added for a run, and what there is of them. -/
def Packet.bytes : Packet → List UInt8
  | run n v => [UInt8.ofNat (128 + (n - 1)), v]
  | lit g => UInt8.ofNat (g.length - 1) :: g

/-- The packets stand for the values of a channel of so many pixels. -/
structure Channel (ps : List Packet) (n : Nat) : Prop where
  ok : ∀ p ∈ ps, p.Ok
  size : (ps.flatMap Packet.means).length = n

/-- A tile: alpha, blue, green and red, each packed on its own. -/
def packed (r g b a : List Packet) : List UInt8 :=
  a.flatMap Packet.bytes ++ (b.flatMap Packet.bytes ++ (g.flatMap Packet.bytes ++ r.flatMap Packet.bytes))

/-- The value of pixel `i` of the tile in component `c`. -/
def value (r g b a : List Packet) (i c : Nat) : Option UInt8 :=
  ((if c = 0 then r else if c = 1 then g else if c = 2 then b else a).flatMap Packet.means)[i]?

/-- The pixel is in the tile with these corners, both of which are in it. -/
abbrev Inside (x1 y1 x2 y2 x y : Nat) : Prop := x1 ≤ x ∧ x ≤ x2 ∧ y1 ≤ y ∧ y ≤ y2

/-- A packed tile: its corners and the packets of its channels. -/
structure Tile where
  x1 : Nat
  y1 : Nat
  x2 : Nat
  y2 : Nat
  r : List Packet
  g : List Packet
  b : List Packet
  a : List Packet

/-- The number of its pixels. -/
def Tile.pixels (t : Tile) : Nat := (t.x2 + 1 - t.x1) * (t.y2 + 1 - t.y1)

/-- The pixel is in the tile. -/
abbrev Tile.Has (t : Tile) (x y : Nat) : Prop := Inside t.x1 t.y1 t.x2 t.y2 x y

/-- What the tile has for component `c` of this pixel of the picture. -/
def Tile.at (t : Tile) (x y c : Nat) : Option UInt8 := value t.r t.g t.b t.a ((y - t.y1) * (t.x2 + 1 - t.x1) + (x - t.x1)) c

/-- The tile is in a picture of this size, has all its pixels, and packing made it smaller. -/
structure Tile.Ok (t : Tile) (width height : Nat) : Prop where
  x : t.x1 ≤ t.x2
  x2 : t.x2 < width
  y : t.y1 ≤ t.y2
  y2 : t.y2 < height
  r : Channel t.r t.pixels
  g : Channel t.g t.pixels
  b : Channel t.b t.pixels
  a : Channel t.a t.pixels
  less : (packed t.r t.g t.b t.a).length < t.pixels * 4

end DevIL.IffSpec
