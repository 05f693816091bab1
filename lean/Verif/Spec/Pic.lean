import Verif.Spec.Psd
/-! Specification of Softimage PIC files: what they are made of and what they stand for.  Nothing here refers to the model of the loader. -/
set_option autoImplicit false
namespace DevIL.PicSpec
open DevIL.PsdSpec

/-- A packet: some of the components of the pixels.  `chan` says which, `type` how they are stored. -/
structure Packet where
  size : UInt8
  type : UInt8
  chan : UInt8
deriving DecidableEq

/-- The components, 0 red, 1 green, 2 blue, 3 alpha: the four upper bits from the highest down. -/
def compsOf (c : UInt8) : List Nat := [0, 1, 2, 3].filter (fun i => c.toNat.testBit (7 - i))

/-- The list of packets in the file: four bytes each, the first being 0 for the last packet. -/
def listBytes : List Packet → List UInt8
  | [] => []
  | [p] => [0, p.size, p.type, p.chan]
  | p :: ps => 1 :: p.size :: p.type :: p.chan :: listBytes ps

/-- The pieces of a row with mixed run-lengths: up to 128 pixels as they are, and one pixel repeated 2 to 128 times or 1 to 65535 times. -/
inductive Seq where
  | lit (px : List (List UInt8))
  | rep (n : Nat) (px : List UInt8)
  | long (n : Nat) (px : List UInt8)

/-- The pieces that can be stored, for pixels of `k` bytes. -/
def Seq.Ok (k : Nat) : Seq → Prop
  | .lit px => 1 ≤ px.length ∧ px.length ≤ 128 ∧ ∀ p ∈ px, p.length = k
  | .rep n px => 2 ≤ n ∧ n ≤ 128 ∧ px.length = k
  | .long n px => 1 ≤ n ∧ n ≤ 65535 ∧ px.length = k

/-- How a piece is stored. -/
def Seq.bytes : Seq → List UInt8
  | .lit px => UInt8.ofNat (px.length - 1) :: px.flatten
  | .rep n px => UInt8.ofNat (n + 127) :: px
  | .long n px => 128 :: (num 2 n ++ px)

/-- The pixels of a piece. -/
def Seq.pixels : Seq → List (List UInt8)
  | .lit px => px
  | .rep n px => List.replicate n px
  | .long n px => List.replicate n px

/-- The part of a row that belongs to one packet: the pixels as they are, mixed run-lengths, or pure run-lengths. -/
inductive Part where
  | plain (px : List (List UInt8))
  | mixed (seqs : List Seq)
  | pure (runs : List (Nat × List UInt8))

/-- The lower four bits of the type of a packet stored like this. -/
def Part.kind : Part → UInt8
  | .plain _ => 0
  | .mixed _ => 2
  | .pure _ => 1

/-- How it is stored. -/
def Part.bytes : Part → List UInt8
  | .plain px => px.flatten
  | .mixed seqs => seqs.flatMap Seq.bytes
  | .pure runs => runs.flatMap (fun r => UInt8.ofNat r.1 :: r.2)

/-- Its pixels, each with the bytes of the components of the packet. -/
def Part.pixels : Part → List (List UInt8)
  | .plain px => px
  | .mixed seqs => seqs.flatMap Seq.pixels
  | .pure runs => runs.flatMap (fun r => List.replicate r.1 r.2)

/-- The parts that can be stored, for pixels of `k` bytes. -/
def Part.Stored (k : Nat) : Part → Prop
  | .plain px => ∀ p ∈ px, p.length = k
  | .mixed seqs => ∀ s ∈ seqs, s.Ok k
  | .pure runs => ∀ r ∈ runs, 1 ≤ r.1 ∧ r.1 ≤ 255 ∧ r.2.length = k

/-- Pure run-lengths of one pixel each. -/
def Part.Ones : Part → Prop
  | .pure runs => ∀ r ∈ runs, r.1 = 1
  | _ => True

/-- The part of a row of `w` pixels that belongs to packet `p`. -/
structure Part.Ok (w : Nat) (t : Part) (p : Packet) : Prop where
  kind : p.type &&& 0x0F = t.kind
  stored : t.Stored (compsOf p.chan).length
  width : t.pixels.length = w

/-- A row of `w` pixels: a part for each packet. -/
def Row (w : Nat) : List Part → List Packet → Prop
  | [], [] => True
  | t :: ts, p :: ps => t.Ok w p ∧ Row w ts ps
  | _, _ => False

/-- A picture: what stands in the header besides the size, the size, the packets, and the rows from the top down, each with a part for each packet. -/
structure Doc where
  note : List UInt8
  ratio : List UInt8
  width : Nat
  height : Nat
  packets : List Packet
  rows : List (List Part)

/-- What the format demands. -/
structure Doc.Ok (d : Doc) : Prop where
  note : d.note.length = 84
  ratio : d.ratio.length = 8
  width : 0 < d.width ∧ d.width < 32768
  height : 0 < d.height ∧ d.height < 32768
  some : d.packets ≠ []
  comps : ∀ p ∈ d.packets, compsOf p.chan ≠ []
  rows : d.rows.length = d.height
  parts : ∀ r ∈ d.rows, Row d.width r d.packets

/-- The 104 bytes of the header. -/
def header (note : List UInt8) (w h : Nat) (ratio : List UInt8) : List UInt8 :=
  num 4 0x5380F634 ++ note ++ [0x50, 0x49, 0x43, 0x54] ++ num 2 w ++ num 2 h ++ ratio

/-- The file. -/
def Doc.bytes (d : Doc) : List UInt8 :=
  header d.note d.width d.height d.ratio ++ (listBytes d.packets ++ d.rows.flatMap (fun r => r.flatMap Part.bytes))

/-- Some packet has alpha. -/
def Doc.HasAlpha (d : Doc) : Prop := ∃ p ∈ d.packets, 3 ∈ compsOf p.chan

/-- No packet has pure run-lengths. -/
def Doc.NoPure (d : Doc) : Prop := ∀ p ∈ d.packets, p.type &&& 0x0F ≠ 1

/-- Component `i` of the pixel in column `x` of row `y` (0 is the top) is `v`: this is its value in the last packet that has the component. -/
def Doc.Value (d : Doc) (x y i : Nat) (v : UInt8) : Prop :=
  ∃ (row : List Part) (k j : Nat) (p : Packet) (part : Part) (px : List UInt8), d.rows[y]? = some row ∧ d.packets[k]? = some p ∧ row[k]? = some part ∧ (compsOf p.chan)[j]? = some i ∧ part.pixels[x]? = some px ∧ px[j]? = some v ∧
    ∀ (k' : Nat) (p' : Packet), k < k' → d.packets[k']? = some p' → i ∉ compsOf p'.chan

/-- The image has the size of the picture, `k` bytes for each pixel, its last row at the top, a block of exactly that size, and the values of the picture. -/
structure Shows (m : Img) (d : Doc) (k : Nat) : Prop where
  width : m.width = d.width
  height : m.height = d.height
  depth : m.depth = 1
  bpp : m.bpp = k
  bpc : m.bpc = 1
  type : m.type = IL_UNSIGNED_BYTE
  origin : m.origin = IL_ORIGIN_LOWER_LEFT
  cons : m.Consistent
  px : ∀ x y i v, x < d.width → y < d.height → d.Value x y i v → m.px x (d.height - 1 - y) 0 i = some v

/-- The list of packets at the beginning of `bs`, if it is there as a whole. -/
def packetsOf : List UInt8 → Option (List Packet)
  | c :: s :: t :: n :: r => if c = 0 then some [⟨s, t, n⟩] else (packetsOf r).map (⟨s, t, n⟩ :: ·)
  | _ => none

end DevIL.PicSpec
