import Verif.Model.Games
/-! Model of the loader of Windows icons, il_icon.cpp, built without libpng.  An image is bound that no other image follows, allocation succeeds (also of no bytes, as in glibc, but not of a negative number), and `ilFixImage` is left
out.  The places in the pixels and the masks, which are 32-bit in the code, do not wrap. -/
set_option autoImplicit false
namespace DevIL.Ico
open DevIL.Games DevIL.Detect DevIL.Image
open DevIL.Lump (SEEK_SET SEEK_CUR)

/-- A 16-bit number with a sign, `ILshort`. -/
def toInt16 (n : Nat) : Int := if n < 32768 then n else (n : Int) - 65536

/-- A signed 32-bit number can be this. -/
def fits (i : Int) : Bool := decide (-2147483648 ≤ i) && decide (i < 2147483648)

/-- An icon as it is read: `ICOIMAGE`, il_icon.h:54-60. -/
structure Icon where
  w : Int
  h : Int
  bits : Int
  pal : List UInt8
  data : List UInt8
  mask : List UInt8

/-- The bytes of a row with the padding, il_icon.cpp:179-182. -/
def row (w bits : Int) : C Nat :=
  if !fits (w * bits) || !fits (w * bits + 7) then .error .overflow
  else
    let q := (w * bits + 7).tdiv 8
    pure (u32 (Lump.ofInt q + Lump.ofInt ((4 - q.tmod 4).tmod 4)))

section
variable {σ : Type} (o : Ops σ) (junk : Nat → UInt8)

/-- The palette of an icon, il_icon.cpp:147-177; `none` is a failure. -/
def palette (bits used : Int) (s : σ) : C (Option (List UInt8) × σ) :=
  if bits < 8 then
    let used := if used = 0 then (if bits = 1 then 2 else if bits = 4 then 16 else 0) else used
    if !fits (used * 4) then .error .overflow
    else if used < 0 then pure (none, s)
    else do
      let (n, p, s) ← into o s (alloc junk (used * 4).toNat) (used * 4).toNat 1
      if n ≠ 1 then pure (none, s) else pure (some p, s)
  else if bits = 8 then do
    let (n, p, s) ← into o s (alloc junk 1024) 1 1024
    if n ≠ 1024 then pure (none, s) else pure (some p, s)
  else pure (some [], s)

/-- A block of so many bytes, il_icon.cpp:185-196; `none` is a failure. -/
def block (size : Nat) (s : σ) : C (Option (List UInt8) × σ) := do
  let (n, d, s) ← into o s (alloc junk size) 1 size
  if n ≠ size then pure (none, s) else pure (some d, s)

/-- The fields of a bitmap header, il_icon.cpp:131-141. -/
def headFields : List Fld := [u32f, u32f, u32f, u16, u16, u32f, u32f, u32f, u32f, u32f, u32f]

/-- The palette, the pixels and the mask of an icon with this header, il_icon.cpp:147-196. -/
def readBody (w h bits used : Int) (s : σ) : C (Option Icon × σ) := do
  let (pal, s) ← palette o junk bits used s
  match pal with
  | none => pure (none, s)
  | some pal => do
    let r ← row w bits
    let a ← row w 1
    let (d, s) ← block o junk (u32 (r * Lump.ofInt (h.tdiv 2))) s
    match d with
    | none => pure (none, s)
    | some d => do
      let (m, s) ← block o junk (u32 (a * Lump.ofInt (h.tdiv 2))) s
      match m with
      | none => pure (none, s)
      | some m => pure (some ⟨w, h, bits, pal, d, m⟩, s)

/-- One icon, il_icon.cpp:108-197: `none` is a failure. -/
def readIcon (off : Nat) (s : σ) : C (Option Icon × σ) := do
  let (_, s) ← o.seek s (Lump.toInt off) SEEK_SET
  let (_, s) ← o.getc s
  let (_, t, s) ← into o s (alloc junk 3) 3 1
  if t.map (fun c => if 97 ≤ c then c - 32 else c) = [80, 78, 71] then pure (none, s)
  else do
    let (_, s) ← o.seek s (Lump.toInt off) SEEK_SET
    let (h, s) ← head o junk headFields s
    let (e, s) := o.eof s
    if e then pure (none, s)
    else readBody o junk (Lump.toInt (fle h 1)) (Lump.toInt (fle h 2)) (toInt16 (fle h 4)) (Lump.toInt (fle h 9)) s

/-- All icons, il_icon.cpp:108-198. -/
def readAll : List Nat → σ → C (Option (List Icon) × σ)
  | [], s => pure (some [], s)
  | p :: ps, s => do
    let (i, s) ← readIcon o junk p s
    match i with
    | none => pure (none, s)
    | some i => do
      let (is, s) ← readAll ps s
      match is with
      | none => pure (none, s)
      | some is => pure (some (i :: is), s)

/-- The offsets in the directory, il_icon.cpp:94-106. -/
def offsets : Nat → σ → C (Option (List Nat) × σ)
  | 0, s => pure (some [], s)
  | n + 1, s => do
    let (h, s) ← head o junk [.getc, .getc, .getc, .getc, u16, u16, u32f, u32f] s
    let (e, s) := o.eof s
    if e then pure (none, s)
    else do
      let (ps, s) ← offsets n s
      match ps with
      | none => pure (none, s)
      | some ps => pure (some (fle h 7 :: ps), s)

/-- The variables of the loops over the pixels: the block of the image, `j`, `k`, `l`, `CurAndByte` and `x`. -/
structure St where
  d : List UInt8
  j : Nat
  k : Nat
  l : Nat
  cur : Nat
  x : Nat

/-- Four bytes of a pixel. -/
def put4 (d : List UInt8) (j : Nat) (a b c e : UInt8) : C (List UInt8) := do
  let d ← wr d j a
  let d ← wr d (j + 1) b
  let d ← wr d (j + 2) c
  wr d (j + 3) e

/-- The alpha of a pixel, il_icon.cpp:241, 264, 303, 326. -/
def alphaOf (mask : List UInt8) (cur l : Nat) : C UInt8 := do
  let a ← rd mask cur
  pure (if a.toNat &&& l ≠ 0 then 0 else 255)

/-- A pixel with a colour of the palette, il_icon.cpp:238-245, 261-267, 293-307. -/
def putPal (i : Icon) (v : Nat) (s : St) : C St := do
  let a ← rd i.pal (v * 4)
  let b ← rd i.pal (v * 4 + 1)
  let c ← rd i.pal (v * 4 + 2)
  let e ← alphaOf i.mask s.cur s.l
  let d ← put4 s.d s.j a b c e
  pure { s with d := d, j := s.j + 4, l := s.l >>> 1, x := s.x + 1 }

/-- After a pixel, or the pixels of a byte, il_icon.cpp:247-256, 284-293, 310-319, 331-340. -/
def endPixel (w pad apad : Nat) (s : St) : St :=
  if s.l = 0 ∨ s.x = w then
    if s.x = w then { s with l := 128, cur := s.cur + 1 + apad, k := s.k + pad, x := 0 } else { s with l := 128, cur := s.cur + 1 }
  else s

/-- The pixels of a byte of an icon with 1, 4 or 8 bits, il_icon.cpp:235-258, 260-294, 296-320; with 1 bit, even the first pixel is skipped when the row is complete. -/
def stepPal (i : Icon) (b w pad apad : Nat) (s : St) : C St := do
  let s ← loopN (8 / b) (fun t s =>
    if (b ≠ 1 ∧ t = 0) ∨ s.x < w then do
      let v ← rd i.data s.k
      putPal i ((v.toNat >>> (8 - b - t * b)) &&& (2 ^ b - 1)) s
    else pure s) s
  let s := endPixel w pad apad s
  pure { s with k := s.k + 1 }

/-- A pixel of an icon with 24 bits, il_icon.cpp:322-341. -/
def step24 (i : Icon) (w pad apad : Nat) (s : St) : C St := do
  let a ← rd i.data s.k
  let b ← rd i.data (s.k + 1)
  let c ← rd i.data (s.k + 2)
  let e ← alphaOf i.mask s.cur s.l
  let d ← put4 s.d s.j a b c e
  let s := endPixel w pad apad { s with d := d, l := s.l >>> 1, x := s.x + 1 }
  pure { s with j := s.j + 4, k := s.k + 3 }

/-- A pixel of an icon with 32 bits, il_icon.cpp:344-353. -/
def step32 (i : Icon) (s : St) : C St := do
  let a ← rd i.data s.k
  let b ← rd i.data (s.k + 1)
  let c ← rd i.data (s.k + 2)
  let e ← rd i.data (s.k + 3)
  let d ← put4 s.d s.j a b c e
  pure { s with d := d, j := s.j + 4, k := s.k + 4 }

/-- `for (; j < Image->SizeOfData; …)` in at most so many turns. -/
def run (size : Nat) (step : St → C St) : Nat → St → C St
  | 0, _ => .error .hang
  | f + 1, s => if size ≤ s.j then pure s else do
    let s ← step s
    run size step f s

/-- The padding of a row, il_icon.cpp:228, 230. -/
def padding (w b : Nat) : Nat := (4 - u32 (u32 (w * b) + 7) / 8 % 4) % 4

/-- The image of an icon, il_icon.cpp:202-354; `none` is an icon that is passed over.  The first image is made by `ilTexImage` and the others by `ilNewImage`, which make the same here. -/
def convert (fuel : Nat) (i : Icon) : C (Option Img) :=
  if i.bits ≠ 1 ∧ i.bits ≠ 4 ∧ i.bits ≠ 8 ∧ i.bits ≠ 24 ∧ i.bits ≠ 32 then pure none
  else do
    let w := Lump.ofInt i.w
    let b := i.bits.toNat
    let m := tex junk w (Lump.ofInt (i.h.tdiv 2)) 4 IL_BGRA
    let step := if b = 24 then step24 i w (padding w b) (padding w 1) else if b = 32 then step32 i else stepPal i b w (padding w b) (padding w 1)
    let s ← run m.size step fuel ⟨m.data, 0, 0, 128, 0, 0⟩
    pure (some { m with data := s.d })

/-- The images of all icons, il_icon.cpp:201-355. -/
def convertAll (fuel : Nat) : List Icon → C (List Img)
  | [] => pure []
  | i :: is => do
    let m ← convert junk fuel i
    let ms ← convertAll fuel is
    match m with
    | none => pure ms
    | some m => pure (m :: ms)

/-- `iLoadIconInternal`, il_icon.cpp:64-387: its result, the bound image and those that follow it, and the input. -/
def iLoadIconInternal (fuel : Nat) (cur : Img) (s : σ) : C (Bool × List Img × σ) := do
  let (h, s) ← head o junk [u16, u16, u16] s
  let (e, s) := o.eof s
  if e then pure (false, [cur], s)
  else if toInt16 (fle h 2) < 0 then pure (false, [cur], s)
  else do
    let (ps, s) ← offsets o junk (toInt16 (fle h 2)).toNat s
    match ps with
    | none => pure (false, [cur], s)
    | some ps => do
      let (is, s) ← readAll o junk ps s
      match is with
      | none => pure (false, [cur], s)
      | some is => do
        let ms ← convertAll junk fuel is
        pure (true, if ms = [] then [cur] else ms, s)

end
end DevIL.Ico
