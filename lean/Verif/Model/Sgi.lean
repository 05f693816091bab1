import Verif.Model.Pcx
import Verif.Model.Rle
/-! Model of DevIL/src-IL/src/il_sgi.cpp.  The input is a memory lump. -/
set_option autoImplicit false
namespace DevIL.Sgi
open DevIL.Lump DevIL.Endian DevIL.Image DevIL.Utility
open DevIL.Pcx (readByte)

/-- `iSgiHeader`, il_sgi.h:19-38: the fields that are looked at; `bpc` holds the byte, which is signed. -/
structure Head where
  magic : Nat
  storage : Nat
  bpc : Nat
  dim : Nat
  x : Nat
  y : Nat
  z : Nat
  pixMin : Int
  deriving DecidableEq

/-- `iGetSgiHead`, il_sgi.cpp:76-93.  The fields that nothing looks at are skipped by reads of their size. -/
def iGetSgiHead (big : Bool) (junk : Nat → UInt8) (l : R) : C (Head × R) := do
  let (magic, l) ← GetBigUShort big junk l
  let (storage, l) ← getb l
  let (bpc, l) ← getb l
  let (dim, l) ← GetBigUShort big junk l
  let (x, l) ← GetBigUShort big junk l
  let (y, l) ← GetBigUShort big junk l
  let (z, l) ← GetBigUShort big junk l
  let (lo, l) ← GetBigUInt big junk l
  let (_, l) ← GetBigUInt big junk l
  let (_, l) ← GetBigUInt big junk l
  let (_, l) ← read l 1 80
  let (_, l) ← GetBigUInt big junk l
  let (_, l) ← read l 1 404
  pure (⟨magic.toNat, storage.toNat, bpc.toNat, dim.toNat, x.toNat, y.toNat, z.toNat, lo.toInt⟩, l)

/-- `iCheckSgi`, il_sgi.cpp:112-124. -/
def iCheckSgi (h : Head) : Bool :=
  if h.magic ≠ 474 then false
  else if h.storage ≠ 1 ∧ h.storage ≠ 0 then false
  else if h.bpc = 0 ∨ h.dim = 0 then false
  else !decide (h.x = 0 ∨ h.y = 0 ∨ h.z = 0)

/-- A signed byte converted to `ILuint`.  il_sgi.cpp:443-470. -/
def depthOf (bpc : Nat) : Nat := if bpc < 128 then bpc else bpc + 4294967040

/-- The format for `ZSize`, il_sgi.cpp:450-467; `none` is the default case. -/
def formatOf (z : Nat) : Option Nat :=
  if z = 1 then some IL_LUMINANCE else if z = 3 then some IL_RGB else if z = 4 then some IL_RGBA else none

/-- The type for `Bpc` and `PixMin`, il_sgi.cpp:469-486; `none` is the default case. -/
def typeOf (h : Head) : Option Nat :=
  if h.bpc = 1 then some (if h.pixMin < 0 then IL_BYTE else IL_UNSIGNED_BYTE)
  else if h.bpc = 2 then some (if h.pixMin < 0 then IL_SHORT else IL_UNSIGNED_SHORT)
  else none

/-- `iNewSgi`, il_sgi.cpp:443-491: the result and the current image, if it was made anew.  The image gets `Head->Bpc` slices of one
byte per component. -/
def iNewSgi (junk : Nat → UInt8) (h : Head) : C (Bool × Option Img) := do
  match ← ilInitImage junk h.x h.y (depthOf h.bpc) (h.z % 256) 0 IL_UNSIGNED_BYTE none with
  | none => pure (false, none)
  | some m =>
    match formatOf h.z with
    | none => pure (false, some m)
    | some f =>
      match typeOf h with
      | none => pure (false, some { m with format := f })
      | some t => pure (true, some { m with format := f, type := t, origin := IL_ORIGIN_LOWER_LEFT })

/-- The pixel block being filled, the input, and whether reading failed.  Locals of il_sgi.cpp:376-407. -/
structure S where
  data : List UInt8
  inp : R
  failed : Bool
  deriving DecidableEq

/-- Reading the byte at index `i`, il_sgi.cpp:395-399; nothing happens after a failure. -/
def byteStep (i : Nat) (s : S) : C S :=
  if s.failed then pure s
  else do
    let (b, l) ← readByte s.inp
    match b with
    | none => pure { s with inp := l, failed := true }
    | some b => do
      let d ← wr s.data i b
      pure { s with data := d, inp := l }

/-- The loops of `iReadNonRleSgi`, il_sgi.cpp:393-401.  Caching (387-391) only changes how a file is read and is left out.  The index
is taken not to wrap. -/
def readPlanes (bpp size : Nat) (data : List UInt8) (l : R) : C S :=
  loopN bpp (fun c s => forStep c size bpp byteStep s) ⟨data, l, false⟩

/-- `iReadNonRleSgi`, il_sgi.cpp:376-407. -/
def iReadNonRleSgi (junk : Nat → UInt8) (h : Head) (l : R) : C (Bool × Option Img × R) := do
  let (ok, m) ← iNewSgi junk h
  match m with
  | none => pure (false, none, l)
  | some m =>
    if !ok then pure (false, some m, l)
    else do
      let s ← readPlanes m.bpp m.size m.data l
      pure (!s.failed, some { m with data := s.data }, s.inp)

/-- The locals of `iGetScanLine`: `BppRead`, `CurPos`, the block `ScanLine` points into, the input, and the value it has returned
early.  il_sgi.cpp:321-372. -/
structure L where
  got : Nat
  cur : Nat
  buf : List UInt8
  inp : R
  ret : Option Int
  deriving DecidableEq

/-- `Pixel = 0; iread(&Pixel, Head->Bpc, 1)`, il_sgi.cpp:328-334, 346-350: on either kind of host the low byte of `Pixel` is the first byte
read.  `none` if it does not return 1. -/
def readPixel (bpc : Nat) (l : R) : C (Option (List UInt8) × R) := do
  let (g, l) ← read l bpc 1
  pure (if g.ret = 1 then some g.bytes else none, l)

/-- The low byte of `Pixel`.  il_sgi.cpp:327-367. -/
def lowByte (bs : List UInt8) : Nat := (bs.headD 0).toNat

/-- One round of the loop of `iGetScanLine`, il_sgi.cpp:327-367, on a line that starts at `at_`.  On a big-endian host `Pixel` is swapped
after it was read, so the two bytes of a repeated 16-bit value are stored in the other order than they stand in the file. -/
def lineStep (big : Bool) (bpc at_ : Nat) (s : L) : C L := do
  let (p, l) ← readPixel bpc s.inp
  match p with
  | none => pure { s with inp := l, ret := some (-1) }
  | some p =>
    let count := lowByte p % 128
    if count = 0 then pure { s with inp := l, ret := some s.cur }
    else if lowByte p ≥ 128 then do
      let (n, buf, l) ← readAt l s.buf (at_ + s.cur) bpc count
      if n ≠ count then pure { s with buf := buf, inp := l, ret := some (-1) }
      else pure ⟨u32 (s.got + bpc * count + bpc), s.cur + bpc * count, buf, l, none⟩
    else do
      let (v, l) ← readPixel bpc l
      match v with
      | none => pure { s with inp := l, ret := some (-1) }
      | some v => do
        let buf ← loopN count (fun i b => loopN bpc (fun j b => do
          let x ← rd v (if big then bpc - 1 - j else j)
          wr b (at_ + s.cur + i * bpc + j) x) b) s.buf
        pure ⟨u32 (s.got + bpc + bpc), s.cur + bpc * count, buf, l, none⟩

/-- `iGetScanLine`, il_sgi.cpp:321-370: the value returned, the block written into, and the input.  Every round takes a byte from the
input, so the fuel suffices. -/
def iGetScanLine (big : Bool) (x bpc : Nat) (buf : List UInt8) (at_ length : Nat) (l : R) : C (Int × List UInt8 × R) := do
  let s ← whileF (fun s : L => s.ret.isNone && decide (s.got < length) && decide (s.cur < x * bpc)) (lineStep big bpc at_) (l.size + 2)
    ⟨0, 0, buf, l, none⟩
  pure (s.ret.getD s.cur, s.buf, s.inp)

/-- Entry `k` of a table of big-endian numbers, read and swapped if the host is little-endian, il_sgi.cpp:230-240. -/
def entry (t : List UInt8) (k : Nat) : C Nat := do
  let a ← rd t (4 * k)
  let b ← rd t (4 * k + 1)
  let c ← rd t (4 * k + 2)
  let d ← rd t (4 * k + 3)
  pure (((a.toNat * 256 + b.toNat) * 256 + c.toNat) * 256 + d.toNat)

/-- A plane of `TempData` being read.  Locals of il_sgi.cpp:212-317. -/
structure T where
  buf : List UInt8
  inp : R
  failed : Bool
  deriving DecidableEq

/-- The rows of plane `p`, il_sgi.cpp:257-270, into a fresh block. -/
def readPlane (big : Bool) (h : Head) (off len : List UInt8) (p : Nat) (buf : List UInt8) (l : R) : C T :=
  loopN h.y (fun y t =>
    if t.failed then pure t
    else do
      let o ← entry off (y + p * h.y)
      let n ← entry len (y + p * h.y)
      let (_, l) ← seek t.inp (toInt o) SEEK_SET
      let (r, buf, l) ← iGetScanLine big h.x h.bpc t.buf (y * h.x * h.bpc) n l
      pure ⟨buf, l, decide (r ≠ (h.x * h.bpc : Nat))⟩) ⟨buf, l, false⟩

/-- All planes, il_sgi.cpp:256-271. -/
def readAll (big : Bool) (junk : Nat → UInt8) (h : Head) (off len : List UInt8) (l : R) : C (List (List UInt8) × R × Bool) :=
  loopN h.z (fun p s =>
    if s.2.2 then pure s
    else do
      let t ← readPlane big h off len p (alloc junk (h.x * h.y * h.bpc)) s.2.1
      pure (s.1 ++ [t.buf], t.inp, t.failed)) ([], l, false)

/-- The planes put together, il_sgi.cpp:282-289: `TempData[ixPlane]` with `ixPlane` a multiple of `Bpc`. -/
def assemble (h : Head) (size : Nat) (planes : List (List UInt8)) (data : List UInt8) : C (List UInt8) :=
  forStep 0 size (h.z * h.bpc) (fun i d => loopN h.z (fun k d => do
    let plane ← rd planes (k * h.bpc)
    let v ← rd plane (i / (h.z * h.bpc) * h.bpc)
    let d ← wr d (i + k * h.bpc) v
    if h.bpc = 2 then do
      let v ← rd plane (i / (h.z * h.bpc) * h.bpc + 1)
      wr d (i + k * h.bpc + 1) v
    else pure d) d) data

/-- `sgiSwitchData`, il_sgi.cpp:411-438, without AltiVec. -/
def sgiSwitchData (size : Nat) (data : List UInt8) : C (List UInt8) :=
  forStep 0 size 2 (fun i d => do
    let a ← rd d i
    let b ← rd d (i + 1)
    let d ← wr d i b
    wr d (i + 1) a) data

/-- il_sgi.cpp:291-294: the bytes are switched on a little-endian host. -/
def switched (big : Bool) (bpc size : Nat) (data : List UInt8) : C (List UInt8) :=
  if !big ∧ bpc = 2 then sgiSwitchData size data else pure data

/-- `iReadRleSgi`, il_sgi.cpp:212-317.  Memory is always available.  `XSize * YSize * Bpc` is computed as `int`: more than
2147483647 is an overflow. -/
def iReadRleSgi (big : Bool) (junk : Nat → UInt8) (h : Head) (l : R) : C (Bool × Option Img × R) := do
  let (ok, m) ← iNewSgi junk h
  match m with
  | none => pure (false, none, l)
  | some m =>
    if !ok then pure (false, some m, l)
    else do
      let (off, l) ← read l (h.y * h.z * 4) 1
      if off.ret ≠ 1 then pure (false, some m, l)
      else do
        let (len, l) ← read l (h.y * h.z * 4) 1
        if len.ret ≠ 1 then pure (false, some m, l)
        else if h.x * h.y * h.bpc ≥ 2147483648 then .error .overflow
        else do
          let (planes, l, failed) ← readAll big junk h off.bytes len.bytes l
          if failed then pure (false, some m, l)
          else do
            let data ← assemble h m.size planes m.data
            let data ← switched big h.bpc m.size data
            pure (true, some { m with data := data }, l)

/-- `iLoadSgiInternal`, il_sgi.cpp:174-208: the result, the new current image if one was made, and the input.  `ilFixImage` is left
out as for Targa. -/
def iLoadSgiInternal (big : Bool) (junk : Nat → UInt8) (l : R) : C (Bool × Option Img × R) := do
  let (h, l) ← iGetSgiHead big junk l
  if !iCheckSgi h then pure (false, none, l)
  else
    let h := if h.z = 2 then { h with z := 1 } else h
    if h.storage = 1 then iReadRleSgi big junk h l else iReadNonRleSgi junk h l

/-! ### Saving -/

/-- `SaveBigUShort`.  il_endian.cpp:238-243. -/
def short (big : Bool) (v : Nat) : WOp := .write (SaveBigUShort big (BitVec.ofNat 16 v)) 2 1
/-- `SaveBigInt`, `SaveBigUInt`.  il_endian.cpp:254-267. -/
def int (big : Bool) (v : Int) : WOp := .write (SaveBigUInt big (BitVec.ofInt 32 v)) 4 1

/-- Whether the image is converted before saving, il_sgi.cpp:574-588. -/
def converts (m : Img) : Bool :=
  decide (m.format ≠ IL_LUMINANCE ∧ m.format ≠ IL_RGB ∧ m.format ≠ IL_RGBA ∨ m.type > IL_UNSIGNED_SHORT)

/-- The byte for the type, il_sgi.cpp:602-606: none for a signed type. -/
def typeByte (t : Nat) : List WOp :=
  if t = IL_UNSIGNED_BYTE then [.putc 1] else if t = IL_UNSIGNED_SHORT then [.putc 2] else []

/-- The pixel range, il_sgi.cpp:617-635. -/
def range (big : Bool) (t : Nat) : List WOp :=
  if t = IL_BYTE then [int big (-128), int big 127]
  else if t = IL_UNSIGNED_BYTE then [int big 0, int big 255]
  else if t = IL_SHORT then [int big (-32768), int big 32767]
  else if t = IL_UNSIGNED_SHORT then [int big 0, int big 65535]
  else []

/-- The name, il_sgi.cpp:639-652.  `name` is the block `FName` points to, up to the end of its memory; it holds a string that ends with a
zero. -/
def nameOps (name : Option (List UInt8)) : C (List WOp) :=
  match name with
  | none => pure (List.replicate 80 (.putc 0))
  | some b =>
    let n := b.findIdx (· = 0)
    let c := if n < 79 then 79 else n
    if b.length < c then .error .oobRead
    else pure (.write b 1 c :: List.replicate (ofInt (80 - (c : Int))) (.putc 0))

/-- `SaveLittleInt(0)` 101 times, il_sgi.cpp:657-659. -/
def padding (big : Bool) : List WOp := List.replicate 101 (.write (SaveLittleUInt big 0) 4 1)

/-- The 512 bytes before the pixels, il_sgi.cpp:596-659. -/
def header (big compress : Bool) (name : Option (List UInt8)) (t : Img) : C (List WOp) := do
  let n ← nameOps name
  pure ([short big 474, .putc (if compress then 1 else 0)] ++ typeByte t.type ++
    [short big (if t.format = IL_LUMINANCE ∨ t.format = IL_COLOUR_INDEX then 2 else 3), short big t.width, short big t.height,
      short big t.bpp] ++ range big t.type ++ [int big 0] ++ n ++ [int big 0] ++ padding big)

/-- `TempData`, il_sgi.cpp:662-672, by the origin of the current image. -/
def bottomUp (junk : Nat → UInt8) (origin : Nat) (t : Img) : C (List UInt8) :=
  if origin = IL_ORIGIN_UPPER_LEFT then Manip.iGetFlipped junk t else pure t.data

/-- Planes written byte by byte, il_sgi.cpp:675-681. -/
def planeBytes (bpp size : Nat) (data : List UInt8) : C (List UInt8) :=
  loopN bpp (fun c o => forStep c size bpp (fun i o => do
    let b ← rd data i
    pure (o ++ [b])) o) []

/-- The lines of `iSaveRleSgi`, il_sgi.cpp:724-735: what each line is compressed to.  `ScanLine` and `CompLine` are fresh blocks that are
used for every line; their old content does not matter. -/
def rleLines (junk : Nat → UInt8) (data : List UInt8) (w h nc bps : Nat) : C (List (List UInt8)) :=
  loopN nc (fun c o => loopN h (fun y o => do
    let line ← loopN w (fun j d => do
      let b ← rd data (u32 (y * bps + c + j * nc))
      wr d j b) (alloc junk w)
    let (comp, n) ← Rle.ilRleCompressLine line 0 w 1 (alloc junk (w * 2 + 1)) 0 true
    if comp.length < n then .error .oobRead
    else pure (o ++ [comp.take n])) o) []

/-- A number as it stands in the tables, big-endian, il_sgi.cpp:739-747. -/
def be32 (n : Nat) : List UInt8 := (leBytes 4 n).reverse

/-- Where the lines start, il_sgi.cpp:740-742. -/
def starts (from_ : Nat) : List (List UInt8) → List Nat
  | [] => []
  | l :: ls => from_ :: starts (u32 (from_ + l.length)) ls

/-- `iSaveRleSgi`, il_sgi.cpp:697-758, with the output at `pos`.  Before the lines stand tables of unknown and of zero bytes; they are
overwritten at the end. -/
def rleOps (junk : Nat → UInt8) (data : List UInt8) (w h nc bps pos : Nat) : C (List WOp) := do
  let lines ← rleLines junk data w h nc bps
  let n := h * nc
  pure ([.write (alloc junk (n * 4)) 4 n, .write (List.replicate (n * 4) 0) 4 n] ++ lines.map (fun l => .write l 1 l.length) ++
    [.seek (toInt pos) SEEK_SET, .write ((starts (pos + 8 * n) lines).flatMap be32) 4 n,
     .write (lines.flatMap fun l => be32 l.length) 4 n])

/-- `iSaveSgiInternal`, il_sgi.cpp:562-693, for the current image `cur`, to an empty output; `conv` is what `iConvertImage` makes of it in
the cases where it is called (`none` if it fails); `rle` is `IL_SGI_RLE`; `name` is `FName`.  The calls that write; `none` is `IL_FALSE`.
`Temp->Bpc` is read before `Temp` is tested (591-594). -/
def iSaveSgiInternal (big : Bool) (junk : Nat → UInt8) (rle : Bool) (name : Option (List UInt8)) (cur : Img) (conv : Option Img) :
    C (Option (List WOp)) :=
  match if converts cur then conv else some cur with
  | none => if rle then .error .nullDeref else pure none
  | some t => do
    let compress := rle && decide (t.bpc = 1)
    let head ← header big compress name t
    let data ← bottomUp junk cur.origin t
    if compress then do
      let ops ← rleOps junk data t.width t.height t.bpp t.bps (head.flatMap WOp.bytes).length
      pure (some (head ++ ops))
    else do
      let bytes ← planeBytes t.bpp t.size data
      pure (some (head ++ bytes.map .putc))

end DevIL.Sgi
