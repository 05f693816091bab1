import Verif.Model.Games
/-! Model of the DPX loader, il_dpx.cpp.  As in Model/Games.lean an image is bound, allocation succeeds, and `ilFixImage` and errors raised are
left out.  The library has no test for DPX files. -/
set_option autoImplicit false
namespace DevIL.Dpx
open DevIL.Games DevIL.Detect DevIL.Image
open DevIL.Lump (SEEK_SET)

/-- The fields of `DpxGetFileInfo` before the copyright, il_dpx.cpp:71-82. -/
def fileA : List Fld := [u32f, u32f, .rd 8 1, u32f, u32f, u32f, u32f, u32f, .rd 100 1, .rd 24 1, .rd 100 1, .rd 200 1]

/-- `GetImageElement`, il_dpx.cpp:92-112; its result is not looked at (127). -/
def element : List Fld :=
  [u32f, u32f, .rd 1 4, u32f, .rd 1 4, .getc, .getc, .getc, .getc, u16, u16, u32f, u32f, u32f, .rd 32 1]

/-- The fields from the key of `DpxGetFileInfo` to the input device of `DpxGetImageOrient`, il_dpx.cpp:85-86, 121-130, 138-146. -/
def middle : List Fld :=
  [u32f, .skip 104] ++ [u16, u16, u32f, u32f] ++ (List.replicate 8 element).flatten ++ [.skip 52] ++
  [u32f, u32f, .rd 4 1, .rd 4 1, u32f, u32f, .rd 100 1, .rd 24 1, .rd 32 1]

/-- The fields of `DpxGetImageOrient` after the serial number, il_dpx.cpp:149-155. -/
def last : List Fld := [u16, u16, u16, u16, u32f, u32f, .skip 28]

/-- The fields of the header the loader looks at, il_dpx.h:55-86. -/
structure Header where
  width : Nat
  height : Nat
  descriptor : Nat
  bitSize : Nat
  packing : Nat
  dataOffset : Nat
  deriving DecidableEq

/-- Format and number of channels of the descriptor of the element, il_dpx.cpp:191-208; `none` is refused. -/
def kind (descriptor : Nat) : Option (Nat × Nat) :=
  if descriptor = 6 then some (IL_LUMINANCE, 1)
  else if descriptor = 50 then some (IL_RGB, 3)
  else if descriptor = 51 then some (IL_RGBA, 4)
  else none

/-- `ShortData[i] = v`, on a little-endian machine; il_dpx.cpp:247, 261-265, 279-285. -/
def put16 (d : List UInt8) (i v : Nat) : C (List UInt8) := do
  let d ← wr d (2 * i) (UInt8.ofNat v)
  wr d (2 * i + 1) (UInt8.ofNat (v / 256))

/-- The value stored for ten bits in pictures without alpha, il_dpx.cpp:246-247, 260-265: `Val` has been shifted before its upper bits are
taken. -/
def fillLow (v : Nat) : Nat := (v * 64) ||| (((v * 64) &&& 0x3F0) / 16)

/-- The value stored for ten bits in pictures with alpha, il_dpx.cpp:278-285. -/
def fillHigh (v : Nat) : Nat := (v * 64) ||| ((v &&& 0x3F0) / 16)

/-- The values of ten bits in the bytes read, il_dpx.cpp:246, 260-264, 278-284. -/
def tens (a : List UInt8) (k : Nat) : Nat :=
  let b := fun i => (a.getD i 0).toNat
  if k = 0 then b 0 * 4 + (b 1 &&& 0xC0) / 64
  else if k = 1 then (b 1 &&& 0x3F) * 16 + (b 2 &&& 0xF0) / 16
  else if k = 2 then (b 2 &&& 0x0F) * 64 + (b 3 &&& 0xFC) / 4
  else (b 3 &&& 0x03) * 256 + b 4

section
variable {σ : Type} (o : Ops σ) (junk : Nat → UInt8)

/-- `ilTexImage(w, h, 1, bpp, format, type, NULL)` with the origin set, il_devil.cpp:126-165, 19-58; il_dpx.cpp:215-217, 238-240, 253-255,
273-275. -/
def texOf (w h bpp format type : Nat) : Img :=
  let g := geometry w h 1 bpp format type []
  { g with data := alloc junk g.size, origin := IL_ORIGIN_UPPER_LEFT }

/-- One round of the loops, il_dpx.cpp:244-248, 258-266, 276-286: `n` bytes are read into the array `Data`, whatever is delivered, and `k`
values stored.  The state is the block, the array and the input. -/
def tenStep (n k : Nat) (fill : Nat → Nat) (i : Nat) (t : List UInt8 × List UInt8 × σ) : C (List UInt8 × List UInt8 × σ) := do
  let (_, a, s) ← into o t.2.2 t.2.1 1 n
  let d ← loopN k (fun j d => put16 d (i + j) (fill (tens a j))) t.1
  pure (d, a, s)

/-- The loops over the picture, il_dpx.cpp:244-248, 258-266, 276-286: `i` goes up by `k`. -/
def tenLoop (n k : Nat) (fill : Nat → Nat) (m : Img) (s : σ) : C (Bool × Loaded × σ) := do
  let (d, _, s) ← forStep 0 (m.size / 2) k (tenStep o n k fill) (m.data, alloc junk 8, s)
  pure (true, ({ m with data := d }, none), s)

/-- The header: `none` where the loader gives up.  il_dpx.cpp:66-158, 180-185. -/
def getHeader (s : σ) : C (Option Header × σ) := do
  let (_, s) ← head o junk fileA s
  let (_, n, s) ← o.read s 200 1
  if n ≠ 1 then pure (none, s)
  else do
    let (h, s) ← head o junk middle s
    let (_, n, s) ← o.read s 32 1
    if n ≠ 1 then pure (none, s)
    else do
      let (_, s) ← head o junk last s
      pure (some ⟨fbe h 4, fbe h 5, fbe h 11, fbe h 14, fbe h 15, fbe h 17⟩, s)

/-- The picture behind the header, il_dpx.cpp:186-321. -/
def picture (cur : Loaded) (h : Header) (s : σ) : C (Bool × Loaded × σ) := do
  let (_, s) ← o.seek s (Lump.toInt h.dataOffset) SEEK_SET
  match kind h.descriptor with
  | none => pure (false, cur, s)
  | some (format, chans) =>
    if h.bitSize = 8 ∨ h.bitSize = 16 ∨ h.bitSize = 32 then do
      let m := texOf junk h.width h.height chans format IL_UNSIGNED_BYTE
      let (n, d, s) ← into o s m.data m.size 1
      pure (decide (n = 1), ({ m with data := d }, none), s)
    else if h.packing = 1 then
      if h.bitSize = 10 then
        let m := texOf junk h.width h.height chans format IL_UNSIGNED_SHORT
        if chans = 1 then tenLoop o junk 2 1 fillLow m s
        else if chans = 3 then tenLoop o junk 4 3 fillLow m s
        else tenLoop o junk 8 4 fillHigh m s
      else pure (false, cur, s)
    else pure (false, cur, s)

/-- `iLoadDpxInternal`, il_dpx.cpp:162-322. -/
def iLoadDpxInternal (cur : Loaded) (s : σ) : C (Bool × Loaded × σ) := do
  match ← getHeader o junk s with
  | (none, s) => pure (false, cur, s)
  | (some h, s) => picture o junk cur h s

end
end DevIL.Dpx
