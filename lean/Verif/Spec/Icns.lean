import Verif.Spec.Detect
/-! What an ICNS file with one icon and its mask says.  No definition of the model is used. -/
set_option autoImplicit false
namespace DevIL.IcnsSpec
open DevIL.DetectSpec

/-- The identifiers of the 24-bit icons and of the masks, and their widths: `it32`, `ih32`, `il32`, `is32` and `t8mk`, `h8mk`, `l8mk`, `s8mk`. -/
def kinds : List (Nat × List UInt8 × List UInt8) :=
  [(128, [105, 116, 51, 50], [116, 56, 109, 107]), (48, [105, 104, 51, 50], [104, 56, 109, 107]), (32, [105, 108, 51, 50], [108, 56, 109, 107]), (16, [105, 115, 51, 50], [115, 56, 109, 107])]

/-- Packed bytes: a byte `c` of 128 or more says that the next one is repeated `c - 125` times, and one below 128 that the next `c + 1` bytes follow as they are; `n` bytes are wanted, and what a packet
has beyond them is dropped.  The bytes, and what follows; nothing when the packed bytes run out.  The first number is as large as `n`. -/
def unpack : Nat → Nat → List UInt8 → Option (List UInt8 × List UInt8)
  | _, 0, l => some ([], l)
  | 0, _ + 1, _ => none
  | _ + 1, _ + 1, [] => none
  | f + 1, n + 1, c :: l =>
    if 128 ≤ c.toNat then
      match l with
      | [] => none
      | v :: l => (unpack f (n + 1 - (c.toNat - 125)) l).map (fun r => (List.replicate (min (c.toNat - 125) (n + 1)) v ++ r.1, r.2))
    else if l.length < min (c.toNat + 1) (n + 1) then none
    else (unpack f (n + 1 - (c.toNat + 1)) (l.drop (c.toNat + 1))).map (fun r => (l.take (min (c.toNat + 1) (n + 1)) ++ r.1, r.2))

/-- Red, green and blue, one after the other, each of `n` packed bytes. -/
def unpack3 (n : Nat) (l : List UInt8) : Option (List UInt8 × List UInt8 × List UInt8) :=
  match unpack n n l with
  | none => none
  | some (r, l) =>
    match unpack n n l with
    | none => none
    | some (g, l) =>
      match unpack n n l with
      | none => none
      | some (b, _) => some (r, g, b)

/-- The packed bytes of an icon of 128 columns begin after four other bytes. -/
def packed (w : Nat) (data : List UInt8) : List UInt8 := if w = 128 then data.drop 4 else data

/-- A component of a pixel of an icon: four bytes for each pixel, of which the first means nothing, or the packed components. -/
def colour (w : Nat) (data : List UInt8) (i c : Nat) : Option UInt8 :=
  if data.length = w * w * 4 then data[4 * i + c + 1]?
  else match unpack3 (w * w) (packed w data) with
    | none => none
    | some (r, g, b) => if c = 0 then r[i]? else if c = 1 then g[i]? else b[i]?

/-- The colours of an icon are all there. -/
def Whole (w : Nat) (data : List UInt8) : Prop := data.length = w * w * 4 ∨ (unpack3 (w * w) (packed w data)).isSome = true

/-- At `p` is an entry with this identifier and `n` bytes. -/
structure Entry (bs : List UInt8) (p : Nat) (id : List UInt8) (n : Nat) : Prop where
  id : at_ bs p 4 = id
  size : beAt bs (p + 4) 4 = n + 8
  inside : p + 8 + n ≤ bs.length

/-- The head of a file that says how long the file is. -/
structure Head (bs : List UInt8) : Prop where
  sig : at_ bs 0 4 = [105, 99, 110, 115]
  size : beAt bs 4 4 = bs.length

/-- A file with the colours of an icon and then its mask. -/
structure Icon (bs : List UInt8) (w n : Nat) (rgb mask : List UInt8) : Prop where
  head : Head bs
  kind : (w, rgb, mask) ∈ kinds
  colours : Entry bs 8 rgb n
  mask : Entry bs (16 + n) mask (w * w)
  ends : bs.length = 24 + n + w * w

/-- A file with the mask of an icon and then its colours. -/
structure Icon2 (bs : List UInt8) (w n : Nat) (rgb mask : List UInt8) : Prop where
  head : Head bs
  kind : (w, rgb, mask) ∈ kinds
  mask : Entry bs 8 mask (w * w)
  colours : Entry bs (16 + w * w) rgb n
  ends : bs.length = 24 + n + w * w

end DevIL.IcnsSpec
