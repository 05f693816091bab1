import Verif.Model.Targa
/-! Model of DevIL/src-IL/src/il_pcx.cpp.  The input is a memory lump. -/
set_option autoImplicit false
namespace DevIL.Pcx
open DevIL.Lump DevIL.Endian DevIL.Image DevIL.Utility
open DevIL.Targa (Loaded)

/-- `PCXHEAD`, il_pcx.h:22-41: the fields that are looked at. -/
structure Head where
  manufacturer : Nat
  version : Nat
  encoding : Nat
  bpp : Nat
  xmin : Nat
  ymin : Nat
  xmax : Nat
  ymax : Nat
  vdpi : Nat
  colMap : List UInt8
  numPlanes : Nat
  bps : Nat
  deriving DecidableEq

/-- `iGetPcxHead`, il_pcx.cpp:67-89. -/
def iGetPcxHead (big : Bool) (junk : Nat → UInt8) (l : R) : C (Head × R) := do
  let (man, l) ← getb l
  let (ver, l) ← getb l
  let (enc, l) ← getb l
  let (bpp, l) ← getb l
  let (xmin, l) ← GetLittleUShort big junk l
  let (ymin, l) ← GetLittleUShort big junk l
  let (xmax, l) ← GetLittleUShort big junk l
  let (ymax, l) ← GetLittleUShort big junk l
  let (_, l) ← GetLittleUShort big junk l
  let (vdpi, l) ← GetLittleUShort big junk l
  let (_, colMap, l) ← readAt l (alloc junk 48) 0 1 48
  let (_, l) ← getb l
  let (planes, l) ← getb l
  let (bps, l) ← GetLittleUShort big junk l
  let (_, l) ← GetLittleUShort big junk l
  let (_, l) ← GetLittleUShort big junk l
  let (_, l) ← GetLittleUShort big junk l
  let (_, _, l) ← readAt l (alloc junk 54) 0 1 54
  pure (⟨man.toNat, ver.toNat, enc.toNat, bpp.toNat, xmin.toNat, ymin.toNat, xmax.toNat, ymax.toNat, vdpi.toNat, colMap,
    planes.toNat, bps.toNat⟩, l)

/-- `Header->Xmax - Header->Xmin + 1`, il_pcx.cpp:120, 232 and 356: shorts are promoted to `int`, the difference may be
negative, and it is then converted to `ILuint`. -/
def extent (lo hi : Nat) : Nat := ofInt ((hi : Int) - lo + 1)

/-- `iCheckPcx`, il_pcx.cpp:107-140. -/
def iCheckPcx (h : Head) : Bool :=
  if h.manufacturer ≠ 10 ∨ h.encoding ≠ 1 then false
  else if h.version ≠ 5 ∧ h.version ≠ 0 ∧ h.version ≠ 2 ∧ h.vdpi ≠ 3 ∧ h.vdpi ≠ 4 then false
  else
    let test := extent h.xmin h.xmax
    if h.bpp ≥ 8 then
      if test % 2 = 1 then decide (h.bps = u32 (test + 1)) else decide (h.bps = test)
    else true

/-- `iread(&b, 1, 1)` into a byte; `none` if it does not return 1.  il_pcx.cpp:270-300. -/
def readByte (l : R) : C (Option UInt8 × R) := do
  let (g, l) ← read l 1 1
  pure (if g.ret = 1 then g.bytes.head? else none, l)

/-- The state of a scan line being read: `x`, the line buffer, the input, and whether reading failed.
Locals of `iUncompressPcx`, il_pcx.cpp:212-347. -/
structure S where
  x : Nat
  line : List UInt8
  inp : R
  failed : Bool
  deriving DecidableEq

/-- One round of the loop of il_pcx.cpp:288-309. -/
def lineStep (size : Nat) (s : S) : C S := do
  let (h, l) ← readByte s.inp
  match h with
  | none => pure { s with inp := l, failed := true }
  | some h =>
    if h.toNat &&& 0xC0 = 0xC0 then do
      let n := h.toNat &&& 0x3F
      let (c, l) ← readByte l
      match c with
      | none => pure { s with inp := l, failed := true }
      | some c =>
        if s.x + n > size then pure { s with inp := l, failed := true }
        else do
          let line ← loopN n (fun i d => wr d (s.x + i) c) s.line
          pure { s with x := s.x + n, line := line, inp := l }
    else do
      let line ← wr s.line s.x h
      pure { s with x := s.x + 1, line := line, inp := l }

/-- A scan line of all planes, il_pcx.cpp:286-309.  Every round takes a byte from the input, so the fuel suffices. -/
def readLine (size : Nat) (line : List UInt8) (l : R) : C S :=
  whileF (fun s : S => !s.failed && decide (s.x < size)) (lineStep size) (l.size + 2) ⟨0, line, l, false⟩

/-- From planes to pixels, il_pcx.cpp:313-318. -/
def spread (m : Img) (hbps : Nat) (line : List UInt8) (y : Nat) (data : List UInt8) : C (List UInt8) :=
  loopN m.width (fun x d => loopN m.bpp (fun c d => do
    let v ← rd line (x + c * hbps)
    wr d (u32 (y * m.bps + x * m.bpp + c)) v) d) data

/-- The state between scan lines.  Locals of `iUncompressPcx`, il_pcx.cpp:212-347. -/
structure P where
  data : List UInt8
  line : List UInt8
  inp : R
  failed : Bool
  deriving DecidableEq

/-- The loop over the scan lines, il_pcx.cpp:284-319; nothing happens after a failure.  Caching (280-281) only changes how a file
is read and is left out. -/
def readLines (m : Img) (hbps : Nat) (line : List UInt8) (l : R) : C P :=
  loopN m.height (fun y p =>
    if p.failed then pure p
    else do
      let s ← readLine (m.bpp * hbps) p.line p.inp
      if s.failed then pure ⟨p.data, s.line, s.inp, true⟩
      else do
        let data ← spread m hbps s.line y p.data
        pure ⟨data, s.line, s.inp, false⟩) ⟨m.data, line, l, false⟩

/-- il_pcx.cpp:335-336: a byte other than the mark belongs to the palette. -/
def skipMark (b : UInt8) (l : R) : C (Bool × R) := if b ≠ 12 then seek l (-1) SEEK_CUR else pure (true, l)

/-- The palette at the end of the file, il_pcx.cpp:324-340. -/
def readPal (m : Img) (pal : Pal) (l : R) : C (Bool × Loaded × R) := do
  let (b, l) ← readByte l
  match b with
  | none => pure (true, ({ m with format := IL_LUMINANCE }, none), l)
  | some b => do
    let (_, l) ← skipMark b l
    let (n, d, l) ← readAt l pal.data 0 1 pal.size
    pure (decide (n = pal.size), (m, some { pal with data := d }), l)

/-- The format of an image of `n` planes, il_pcx.cpp:236-265; `none` is the default case. -/
def planeFormat (n : Nat) : Option Nat :=
  if n = 1 then some IL_COLOUR_INDEX else if n = 3 then some IL_RGB else if n = 4 then some IL_RGBA else none

/-- The palette of an image of `n` planes, il_pcx.cpp:240-242: 256 entries of unknown content if there is one plane. -/
def planePal (junk : Nat → UInt8) (n : Nat) : Option Pal :=
  if n = 1 then some ⟨alloc junk 768, 768, IL_PAL_RGB24⟩ else none

/-- What follows the pixels, il_pcx.cpp:323-344. -/
def finish (h : Head) (m : Img) (pal : Option Pal) (l : R) : C (Bool × Loaded × R) :=
  if h.version = 5 ∧ m.bpp = 1 then
    match pal with
    | some p => readPal m p l
    | none => pure (true, (m, none), l)
  else pure (true, (m, pal), l)

/-- The part of `iUncompressPcx` for eight bits per sample, il_pcx.cpp:232-351.  `ialloc(0)` is taken to return a block of no
bytes. -/
def iUncompress8 (junk : Nat → UInt8) (h : Head) (cur : Loaded) (l : R) : C (Bool × Loaded × R) := do
  match ← ilInitImage junk (extent h.xmin h.xmax) (extent h.ymin h.ymax) 1 h.numPlanes 0 IL_UNSIGNED_BYTE none with
  | none => pure (false, cur, l)
  | some m => do
    let m := { m with origin := IL_ORIGIN_UPPER_LEFT }
    match planeFormat m.bpp with
    | none => pure (false, (m, none), l)
    | some f => do
      let m := { m with format := f }
      let pal := planePal junk m.bpp
      let p ← readLines m h.bps (alloc junk (m.bpp * h.bps)) l
      let m := { m with data := p.data }
      if p.failed then pure (false, (m, pal), p.inp)
      else finish h m pal p.inp

/-- The eight pixels of a byte, il_pcx.cpp:388-392 and 396-400, il_pcx.cpp:447-450 and 454-457: stored at `base + i` while
`i < stop`, with `on` for a set bit. -/
def putBits (b : UInt8) (on : UInt8) (base stop : Nat) (s : Nat × List UInt8) : C (Nat × List UInt8) :=
  loopN 8 (fun c s =>
    if s.1 < stop then do
      let d ← wr s.2 (u32 (base + s.1)) (if b.toNat &&& (128 >>> c) ≠ 0 then on else 0)
      pure (s.1 + 1, d)
    else pure s) s

/-- One round of the loop of il_pcx.cpp:379-401 (`on` is 255, `masked` is false) and of il_pcx.cpp:432-458 (`on` is 1).  Both test
for the two top bits; the first subtracts 192 and the second masks. -/
def smallStep (on : UInt8) (base stop : Nat) (s : S) : C S := do
  let (h, l) ← readByte s.inp
  match h with
  | none => pure { s with inp := l, failed := true }
  | some h =>
    if h.toNat ≥ 192 then do
      let (c, l) ← readByte l
      match c with
      | none => pure { s with inp := l, failed := true }
      | some c => do
        let (i, d) ← loopN (h.toNat - 192) (fun _ t => putBits c on base stop t) (s.x, s.line)
        pure { s with x := i, line := d, inp := l }
    else do
      let (i, d) ← putBits h on base stop (s.x, s.line)
      pure { s with x := i, line := d, inp := l }

/-- A row of bits, il_pcx.cpp:378-402 and 431-459: at most `stop` pixels are stored from `base` on. -/
def readBits (on : UInt8) (base stop : Nat) (d : List UInt8) (l : R) : C S :=
  whileF (fun s : S => !s.failed && decide (s.x < stop)) (smallStep on base stop) (l.size + 2) ⟨0, d, l, false⟩

/-- One bit per pixel, il_pcx.cpp:376-416: the pixel block, the input, and whether it failed. -/
def readMono (m : Img) (l : R) : C P :=
  loopN m.height (fun j p =>
    if p.failed then pure p
    else do
      let s ← readBits 255 (u32 (j * m.width)) m.width p.data p.inp
      if s.failed then pure ⟨s.line, [], s.inp, true⟩
      else if m.width / 8 % 2 = 0 then do
        let (_, l) ← getc s.inp
        pure ⟨s.line, [], l, false⟩
      else pure ⟨s.line, [], s.inp, false⟩) ⟨m.data, [], l, false⟩

/-- Four planes to indices, il_pcx.cpp:461-464. -/
def spread4 (m : Img) (hbps : Nat) (line : List UInt8) (y : Nat) (data : List UInt8) : C (List UInt8) :=
  loopN m.width (fun x d => loopN 4 (fun c d => do
    let v ← rd line (x + c * (hbps * 8))
    let o ← rd d (u32 (y * m.width + x))
    wr d (u32 (y * m.width + x)) (o ||| UInt8.ofNat (v.toNat <<< c))) d) data

/-- Four planes of one bit, il_pcx.cpp:417-468, after `memset`. -/
def readFour (m : Img) (hbps : Nat) (line : List UInt8) (l : R) : C P :=
  loopN m.height (fun y p =>
    if p.failed then pure p
    else do
      let s ← readBits 1 0 (hbps * 4 * 8) p.line p.inp
      if s.failed then pure ⟨p.data, s.line, s.inp, true⟩
      else do
        let data ← spread4 m hbps s.line y p.data
        pure ⟨data, s.line, s.inp, false⟩) ⟨List.replicate m.data.length 0, line, l, false⟩

/-- `iUncompressSmall`, il_pcx.cpp:351-479.  `memset` clears the whole block: `SizeOfData` is what `ilTexImage` allocated. -/
def iUncompressSmall (junk : Nat → UInt8) (h : Head) (cur : Loaded) (l : R) : C (Bool × Loaded × R) := do
  match ← ilInitImage junk (extent h.xmin h.xmax) (extent h.ymin h.ymax) 1 1 0 IL_UNSIGNED_BYTE none with
  | none => pure (false, cur, l)
  | some m => do
    let m := { m with origin := IL_ORIGIN_UPPER_LEFT }
    if h.numPlanes = 1 then
      let m := { m with format := IL_LUMINANCE }
      if h.bpp = 1 then do
        let p ← readMono m l
        pure (!p.failed, ({ m with data := p.data }, none), p.inp)
      else pure (false, (m, none), l)
    else if h.numPlanes = 4 then
      let m := { m with format := IL_COLOUR_INDEX }
      if h.bpp = 1 then do
        let p ← readFour m h.bps (alloc junk (h.bps * 4 * 8)) l
        pure (!p.failed, ({ m with data := p.data }, some ⟨h.colMap, 48, IL_PAL_RGB24⟩), p.inp)
      else pure (false, (m, none), l)
    else pure (false, (m, none), l)

/-- `iUncompressPcx`, il_pcx.cpp:212-348. -/
def iUncompressPcx (junk : Nat → UInt8) (h : Head) (cur : Loaded) (l : R) : C (Bool × Loaded × R) :=
  if h.bpp < 8 then iUncompressSmall junk h cur l else iUncompress8 junk h cur l

/-- `iLoadPcxInternal`, il_pcx.cpp:186-208, with `cur` as the current image: the result, the current image afterwards, and the
input.  `ilFixImage` is left out as for Targa. -/
def iLoadPcxInternal (big : Bool) (junk : Nat → UInt8) (cur : Loaded) (l : R) : C (Bool × Loaded × R) := do
  let (h, l) ← iGetPcxHead big junk l
  if !iCheckPcx h then pure (false, cur, l)
  else iUncompressPcx junk h cur l

/-! ### Saving -/

/-- `encput`, il_pcx.cpp:665-683: the bytes written; the output does not fail. -/
def encput (b : UInt8) (n : Nat) : List UInt8 :=
  if n = 0 then []
  else if n = 1 ∧ b.toNat &&& 0xC0 ≠ 0xC0 then [b]
  else [UInt8.ofNat (0xC0 ||| n), b]

/-- The locals `last` and `runCount` of `encLine`, and what it has written.  il_pcx.cpp:687-735. -/
structure E where
  last : UInt8
  run : Nat
  out : List UInt8
  deriving DecidableEq

/-- One round of the loop of `encLine`, il_pcx.cpp:704-723. -/
def encStep (this : UInt8) (s : E) : E :=
  if this = s.last then
    if s.run + 1 = 63 then { s with run := 0, out := s.out ++ encput s.last 63 }
    else { s with run := s.run + 1 }
  else ⟨this, 1, if s.run ≠ 0 then s.out ++ encput s.last s.run else s.out⟩

/-- `encLine(data + at, len, stride)`, il_pcx.cpp:687-737: the bytes written. -/
def encLine (data : List UInt8) (at_ len stride : Nat) : C (List UInt8) := do
  let first ← rd data at_
  let s ← loopN (toInt len - 1).toNat (fun k s => do
    let this ← rd data (at_ + (k + 1) * (stride + 1))
    pure (encStep this s)) (⟨first, 1, []⟩ : E)
  pure (s.out ++ encput s.last s.run ++ if len % 2 = 1 then [0] else [])

/-- The pixel data, il_pcx.cpp:613-617. -/
def encRows (t : Img) (data : List UInt8) : C (List UInt8) :=
  loopN t.height (fun i out => loopN t.bpp (fun c out => do
    let b ← encLine data (u32 (t.bps * i) + c) t.width ((t.bpp + 255) % 256)
    pure (out ++ b)) out) []

/-- Whether the image is converted before saving, il_pcx.cpp:547-573. -/
def converts (m : Img) : Bool :=
  decide (m.format = IL_LUMINANCE ∨ m.format = IL_BGR ∨ m.format = IL_BGRA ∨ m.bpc > 1)

/-- `TempData`, il_pcx.cpp:575-586: the rows, top row first. -/
def topDown (junk : Nat → UInt8) (m : Img) : C (List UInt8) :=
  if m.origin ≠ IL_ORIGIN_UPPER_LEFT then Manip.iGetFlipped junk m else pure m.data

/-- `SaveLittleUShort`.  il_endian.cpp:195-200. -/
def short (big : Bool) (v : Nat) : WOp := .write (SaveLittleUShort big (BitVec.ofNat 16 v)) 2 1

/-- The header, il_pcx.cpp:589-611. -/
def header (big : Bool) (m : Img) : List WOp :=
  [.putc 0xA, .putc 0x5, .putc 0x1, .putc 0x8, short big 0, short big 0, short big (u32 (m.width + 4294967295)),
   short big (u32 (m.height + 4294967295)), short big 0, short big 0] ++ List.replicate 48 (.putc 0) ++
  [.putc 0, .putc (UInt8.ofNat m.bpp), short big (if m.width % 2 = 1 then m.width + 1 else m.width), short big 1] ++
  List.replicate 58 (.putc 0)

/-- The palette, il_pcx.cpp:624-645; `none` is `IL_FALSE`. -/
def palOps (junk : Nat → UInt8) (t : Loaded) : C (Option (List WOp)) :=
  if t.1.format = IL_COLOUR_INDEX then
    match t.2 with
    | none => pure none
    | some p =>
      if p.type = IL_PAL_RGB24 then pure (some [.write p.data 1 p.size])
      else if p.size = 0 then pure none
      else do
        match ← Palette.iConvertPal junk p IL_PAL_RGB24 with
        | none => pure none
        | some q => pure (some [.write q.data 1 q.size])
  else pure (some [])

/-- `iCurImage->Pal.PalSize`: an image without a palette has 0.  il_pcx.cpp:625-650. -/
def palSize (pal : Option Pal) : Nat :=
  match pal with
  | some p => p.size
  | none => 0

/-- `iSavePcxInternal`, il_pcx.cpp:535-661, for the current image `cur`; `conv` is what `iConvertImage` makes of it in the cases
where it is called (`none` if it fails).  The calls that write; `none` is `IL_FALSE`. -/
def iSavePcxInternal (big : Bool) (junk : Nat → UInt8) (cur : Loaded) (conv : Option Loaded) : C (Option (List WOp)) :=
  match if converts cur.1 then conv else some cur with
  | none => pure none
  | some t => do
    let data ← topDown junk t.1
    let rows ← encRows t.1 data
    match ← palOps junk t with
    | none => pure none
    | some pops =>
      pure (some (header big cur.1 ++ rows.map .putc ++ [.putc 0xC] ++ pops ++
        List.replicate (u32 (768 + 4294967296 - palSize cur.2)) (.putc 0)))

end DevIL.Pcx
