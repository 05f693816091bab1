import Verif.Model.Pcx
/-! Model of the Windows bitmap loader and saver, DevIL/src-IL/src/il_bmp.cpp. -/
set_option autoImplicit false
namespace DevIL.Bmp
open DevIL.Lump DevIL.Endian DevIL.Image DevIL.Utility
open DevIL.Targa (Loaded)
open DevIL.Pcx (readByte)

/-- The fields of `BMPHEAD` (il_bmp.h:22-38) that are looked at. -/
structure Head where
  type : BitVec 16
  off : Int
  size : Int
  width : Int
  height : Int
  planes : Int
  bits : Int
  comp : Int
  used : Int
  deriving DecidableEq

/-- `GetLittleInt`, il_endian.cpp:114-121. -/
def getInt (big : Bool) (junk : Nat → UInt8) (l : R) : C (Int × R) := do
  let (v, l) ← GetLittleUInt big junk l
  pure (v.toInt, l)

/-- `GetLittleShort`, il_endian.cpp:96-103. -/
def getShort (big : Bool) (junk : Nat → UInt8) (l : R) : C (Int × R) := do
  let (v, l) ← GetLittleUShort big junk l
  pure (v.toInt, l)

/-- `iGetBmpHead`, il_bmp.cpp:69-87. -/
def iGetBmpHead (big : Bool) (junk : Nat → UInt8) (l : R) : C (Head × R) := do
  let (type, l) ← GetLittleUShort big junk l
  let (_, l) ← getInt big junk l
  let (_, l) ← GetLittleUInt big junk l
  let (off, l) ← getInt big junk l
  let (size, l) ← getInt big junk l
  let (width, l) ← getInt big junk l
  let (height, l) ← getInt big junk l
  let (planes, l) ← getShort big junk l
  let (bits, l) ← getShort big junk l
  let (comp, l) ← getInt big junk l
  let (_, l) ← getInt big junk l
  let (_, l) ← getInt big junk l
  let (_, l) ← getInt big junk l
  let (used, l) ← getInt big junk l
  let (_, l) ← getInt big junk l
  pure (⟨type, off, size, width, height, planes, bits, comp, used⟩, l)

/-- `iCheckBmp`, il_bmp.cpp:135-153. -/
def iCheckBmp (h : Head) : Bool :=
  if h.type ≠ 19778#16 ∨ h.size ≠ 40 then false
  else if h.height = 0 ∨ h.width < 1 then false
  else if h.planes > 1 then false
  else if h.comp ≠ 0 ∧ h.comp ≠ 1 ∧ h.comp ≠ 2 ∧ h.comp ≠ 3 then false
  else if h.comp = 3 ∧ h.bits ≠ 16 ∧ h.bits ≠ 32 then false
  else decide (h.bits = 1 ∨ h.bits = 4 ∨ h.bits = 8 ∨ h.bits = 16 ∨ h.bits = 24 ∨ h.bits = 32)

/-- `abs(Header->biHeight)`: the least `ILint` has no absolute value.  il_bmp.cpp:290, 558, 638. -/
def absHeight (h : Head) : C Nat := if h.height = -2147483648 then .error .overflow else pure h.height.natAbs

/-- `biClrUsed * 4` as an `ILint`, converted to `ILuint`.  il_bmp.cpp:314-315, 569. -/
def palBytes (used : Int) : C Nat :=
  if used * 4 < -2147483648 ∨ 2147483647 < used * 4 then .error .overflow else pure (ofInt (used * 4))

/-- The origin by the sign of the height, il_bmp.cpp:346-351, 578-579, 657-658. -/
def originOf (h : Head) : Nat := if h.height < 0 then IL_ORIGIN_UPPER_LEFT else IL_ORIGIN_LOWER_LEFT

/-- `PalSize` of an uncompressed bitmap, il_bmp.cpp:295-334; 0 if it has no palette. -/
def palSizeOf (h : Head) : C Nat :=
  if h.bits = 1 then pure 8
  else if h.bits = 4 ∨ h.bits = 8 then do
    let n ← (if h.used ≠ 0 then palBytes h.used else pure 1024)
    pure (if h.bits = 4 then 64 else n)
  else pure 0

/-- The pixel block being filled, the input, and whether reading failed.  Locals of `ilReadUncompBmp`, il_bmp.cpp:272-548. -/
structure S where
  data : List UInt8
  inp : R
  failed : Bool
  deriving DecidableEq

/-- The same within a row, with the column.  Locals of `ilReadUncompBmp`, il_bmp.cpp:371-392. -/
structure X where
  x : Nat
  data : List UInt8
  inp : R
  failed : Bool
  deriving DecidableEq

/-- The pixels of one byte, il_bmp.cpp:379-385: `k` is the mask, shifted right each time. -/
def putBits (w j : Nat) (b : UInt8) (s : Nat × List UInt8) : C (Nat × List UInt8) :=
  loopN 8 (fun c s =>
    if s.1 < w then do
      let d ← wr s.2 (u32 (j * w + s.1)) (if b.toNat &&& (128 >>> c) ≠ 0 then 1 else 0)
      pure (s.1 + 1, d)
    else pure s) s

/-- One round of the loop over a row of one-bit pixels, il_bmp.cpp:372-386. -/
def bitStep (w j : Nat) (s : X) : C X := do
  let (b, l) ← readByte s.inp
  match b with
  | none => pure { s with inp := l, failed := true }
  | some b => do
    let (x, d) ← putBits w j b (s.x, s.data)
    pure ⟨x, d, l, false⟩

/-- One round of the loop over a row of four-bit pixels, il_bmp.cpp:401-410. -/
def nibbleStep (w j : Nat) (s : X) : C X := do
  let (b, l) ← readByte s.inp
  match b with
  | none => pure { s with inp := l, failed := true }
  | some b => do
    let d ← wr s.data (u32 (j * w + s.x)) (UInt8.ofNat (b.toNat / 16))
    if s.x + 1 = w then pure ⟨s.x + 1, d, l, false⟩
    else do
      let d ← wr d (u32 (j * w + (s.x + 1))) (UInt8.ofNat (b.toNat % 16))
      pure ⟨s.x + 2, d, l, false⟩

/-- A row of small pixels, and the padding behind it, which may be missing: il_bmp.cpp:369-389 and 399-412. -/
def smallRow (step : Nat → Nat → X → C X) (pad w j : Nat) (s : S) : C S :=
  if s.failed then pure s
  else do
    let x ← whileF (fun x : X => !x.failed && decide (x.x < w)) (step w j) (w + 1) ⟨0, s.data, s.inp, false⟩
    if x.failed then pure ⟨x.data, x.inp, true⟩
    else do
      let (_, l) ← read x.inp 1 pad
      pure ⟨x.data, l, false⟩

/-- `GetShiftFromMask`, il_bmp.h:81-104: the number of zeros below the lowest set bit (at most 32), and 8 less the number of ones
that follow (at most 8). -/
def shiftR (mask : Nat) : Nat → Nat
  | 0 => 0
  | n + 1 => if mask % 2 = 1 then 0 else shiftR (mask / 2) n + 1

/-- The second loop of `GetShiftFromMask`, il_bmp.h:97-101. -/
def ones (mask : Nat) : Nat → Nat
  | 0 => 0
  | n + 1 => if mask % 2 = 1 then ones (mask / 2) n + 1 else 0

/-- Left and right shift.  il_bmp.h:81-104. -/
def GetShiftFromMask (mask : Nat) : Nat × Nat :=
  if mask = 0 then (0, 0) else (8 - ones (mask / 2 ^ shiftR mask 32) 8, shiftR mask 32)

/-- A mask with its shifts.  The locals `rMask`, `rShiftL`, `rShiftR` and so on of il_bmp.cpp:424-444. -/
structure Mask where
  mask : Nat
  left : Nat
  right : Nat
  deriving DecidableEq

/-- `((Read & mask) >> shiftR) << shiftL` stored into an `ILubyte`, il_bmp.cpp:460-462, 536-538. -/
def Mask.get (m : Mask) (v : Nat) : UInt8 := UInt8.ofNat (((v &&& m.mask) >>> m.right) <<< m.left)

/-- The masks in blue, green, red order without bit fields, il_bmp.cpp:424-432 and 500-508. -/
def masks16 : Mask × Mask × Mask := (⟨0x001F, 3, 0⟩, ⟨0x03E0, 3, 5⟩, ⟨0x7C00, 3, 10⟩)
/-- The same for 32 bits, il_bmp.cpp:500-508. -/
def masks32 : Mask × Mask × Mask := (⟨0x0000FF, 0, 0⟩, ⟨0x00FF00, 0, 8⟩, ⟨0xFF0000, 0, 16⟩)

/-- `iread(&mask, 4, 1); UInt(&mask)`: bytes that are not there keep the bytes of the initial value `init`, which are swapped with the
others on a big-endian host.  il_bmp.cpp:436-444, 512-520. -/
def readMask (big : Bool) (init : Nat) (l : R) : C (Mask × R) := do
  let (g, l) ← read l 4 1
  let v := leVal (g.bytes ++ (objBytes big 4 init).drop g.bytes.length)
  let s := GetShiftFromMask v
  pure (⟨v, s.1, s.2⟩, l)

/-- The masks from the file, il_bmp.cpp:433-445 and 509-521, with the seek to them.  `bfDataOff - 12` may overflow. -/
def readMasks (big : Bool) (h : Head) (init : Mask × Mask × Mask) (l : R) : C ((Mask × Mask × Mask) × R) :=
  if h.comp = 3 then
    if h.off - 12 < -2147483648 then .error .overflow
    else do
      let (_, l) ← seek l (h.off - 12) SEEK_SET
      let (r, l) ← readMask big init.2.2.mask l
      let (g, l) ← readMask big init.2.1.mask l
      let (b, l) ← readMask big init.1.mask l
      pure ((b, g, r), l)
  else pure (init, l)

/-- One pixel of 16 or 32 bits, il_bmp.cpp:456-462 and 531-538: `n` bytes as an object of the host, stored at `k`. -/
def wideStep (big : Bool) (m : Mask × Mask × Mask) (n k : Nat) (s : S) : C S :=
  if s.failed then pure s
  else do
    let (g, l) ← read s.inp n 1
    if g.ret ≠ 1 then pure { s with inp := l, failed := true }
    else do
      let v := objVal big g.bytes
      let d ← wr s.data k (m.1.get v)
      let d ← wr d (k + 1) (m.2.1.get v)
      let d ← wr d (k + 2) (m.2.2.get v)
      pure ⟨d, l, false⟩

/-- 16-bit pixels, il_bmp.cpp:454-465. -/
def rows16 (big : Bool) (m : Mask × Mask × Mask) (w h : Nat) (data : List UInt8) (l : R) : C S :=
  loopN h (fun j s => do
    let s ← loopN w (fun i s => wideStep big m 2 (u32 ((j * w + i) * 3)) s) s
    if s.failed then pure s
    else do
      let (_, l) ← read s.inp 1 ((4 - w * 2 % 4) % 4)
      pure { s with inp := l }) ⟨data, l, false⟩

/-- Rows of whole bytes, il_bmp.cpp:470-495. -/
def rowsBytes (bps plane : Nat) (data : List UInt8) (l : R) : C S :=
  if (4 - bps % 4) % 4 = 0 then do
    let (n, d, l) ← readAt l data 0 1 plane
    pure ⟨d, l, decide (n ≠ plane)⟩
  else forStep 0 plane bps (fun i s =>
    if s.failed then pure s
    else do
      let (n, d, l) ← readAt s.inp s.data i 1 bps
      if n ≠ bps then pure ⟨d, l, true⟩
      else do
        let (_, l) ← read l 1 (4 - bps % 4)
        pure ⟨d, l, false⟩) ⟨data, l, false⟩

/-- The pixels of an uncompressed bitmap, il_bmp.cpp:361-546.  Caching only changes how a file is read and is left out. -/
def readPixels (big : Bool) (h : Head) (m : Img) (l : R) : C S :=
  if h.bits = 1 then
    loopN m.height (smallRow bitStep ((32 - m.width % 32) / 8 % 4) m.width) ⟨m.data, l, false⟩
  else if h.bits = 4 then
    loopN m.height (smallRow nibbleStep ((8 - m.width % 8) / 2 % 4) m.width) ⟨m.data, l, false⟩
  else if h.bits = 16 then do
    let (k, l) ← readMasks big h masks16 l
    rows16 big k m.width m.height m.data l
  else if h.bits = 32 then do
    let (k, l) ← readMasks big h masks32 l
    forStep 0 m.size 3 (fun i s => wideStep big k 4 i s) ⟨m.data, l, false⟩
  else rowsBytes m.bps m.plane m.data l

/-- The format and the bytes per pixel, il_bmp.cpp:281-287, 295-329. -/
def kindOf (h : Head) : Nat × Nat := if h.bits ≤ 8 then (IL_COLOUR_INDEX, 1) else (IL_BGR, 3)

/-- `ilReadUncompBmp`, il_bmp.cpp:272-549, for a header that `iCheckBmp` accepts: the result, the new current image and its palette (`none`:
the old one), and the input. -/
def ilReadUncompBmp (big : Bool) (junk : Nat → UInt8) (h : Head) (l : R) : C (Bool × Option Loaded × R) := do
  let height ← absHeight h
  match ← ilInitImage junk h.width.toNat height 1 (kindOf h).2 0 IL_UNSIGNED_BYTE none with
  | none => pure (false, none, l)
  | some m => do
    let n ← palSizeOf h
    let m := { m with format := (kindOf h).1, origin := originOf h }
    let (_, l) ← seek l 54 SEEK_SET
    let (k, pd, l) ← readAt l (alloc junk n) 0 1 n
    let pal := if n = 0 then none else some (⟨pd, n, IL_PAL_BGR32⟩ : Pal)
    if k ≠ n then pure (false, some (m, pal), l)
    else do
      let (_, l) ← seek l h.off SEEK_SET
      let s ← readPixels big h m l
      pure (!s.failed, some ({ m with data := s.data }, pal), s.inp)

/-! ### Run-length encoded bitmaps -/

/-- The locals of the run-length decoders: `offset`, `endOfLine`, the pixel block, the input, and whether they have returned
`IL_FALSE`.  il_bmp.cpp:552-628, 631-722. -/
structure L where
  off : Nat
  eol : Nat
  data : List UInt8
  inp : R
  failed : Bool
  deriving DecidableEq

/-- `iread(Bytes, 2, 1) != 1`; `none` if it is true.  il_bmp.cpp:671, 683. -/
def read2 (l : R) : C (Option (UInt8 × UInt8) × R) := do
  let (g, l) ← read l 2 1
  pure (if g.ret = 1 then some (g.bytes.getD 0 0, g.bytes.getD 1 0) else none, l)

/-- What both decoders do for the first three codes, il_bmp.cpp:593-607 and 674-687. -/
def escape (w size : Nat) (code : UInt8) (s : L) : C L :=
  if code = 0 then pure { s with off := s.eol, eol := s.eol + w }
  else if code = 1 then pure { s with off := size }
  else do
    let (b, l) ← read2 s.inp
    match b with
    | none => pure { s with inp := l, failed := true }
    | some (dx, dy) =>
      pure { s with off := s.off + u32 (dx.toNat + u32 (dy.toNat * w)), eol := s.eol + u32 (dy.toNat * w), inp := l }

/-- A byte that pads to a word, il_bmp.cpp:613-615, 704-708. -/
def padByte (odd : Bool) (s : L) : C L :=
  if odd then do
    let (b, l) ← readByte s.inp
    match b with
    | none => pure { s with inp := l, failed := true }
    | some _ => pure { s with inp := l }
  else pure s

/-- One round of the loop of `ilReadRLE8Bmp`, il_bmp.cpp:590-622. -/
def step8 (w size : Nat) (s : L) : C L := do
  let (b, l) ← read2 s.inp
  match b with
  | none => pure { s with inp := l, failed := true }
  | some (n, v) =>
    let s := { s with inp := l }
    if n = 0 then
      if v.toNat ≤ 2 then escape w size v s
      else do
        let count := min v.toNat (size - s.off)
        let (k, d, l) ← readAt s.inp s.data s.off count 1
        if k ≠ 1 then pure { s with data := d, inp := l, failed := true }
        else padByte (decide (count % 2 = 1)) { s with off := s.off + count, data := d, inp := l }
    else do
      let count := min n.toNat (size - s.off)
      let d ← loopN count (fun i d => wr d (s.off + i) v) s.data
      pure { s with off := s.off + count, data := d }

/-- One pixel of a literal run of four-bit pixels, il_bmp.cpp:691-702; the last member is `Bytes[0]`. -/
def nibble (i : Nat) (t : L × UInt8) : C (L × UInt8) :=
  if t.1.failed then pure t
  else do
    let (b, l) ← (if i % 2 = 0 then readByte t.1.inp else pure (some t.2, t.1.inp))
    match b with
    | none => pure ({ t.1 with inp := l, failed := true }, t.2)
    | some b => do
      let d ← wr t.1.data t.1.off (UInt8.ofNat (if i % 2 = 0 then b.toNat / 16 else b.toNat % 16))
      pure ({ t.1 with off := t.1.off + 1, data := d, inp := l }, b)

/-- The pixels of such a run.  il_bmp.cpp:692-703. -/
def nibbles (count : Nat) (s : L) : C (L × UInt8) := loopN count nibble (s, 0)

/-- One round of the loop of `ilReadRLE4Bmp`, il_bmp.cpp:671-716. -/
def step4 (w size : Nat) (s : L) : C L := do
  let (b, l) ← read2 s.inp
  match b with
  | none => pure { s with inp := l, failed := true }
  | some (n, v) =>
    let s := { s with inp := l }
    if n = 0 then
      if v.toNat ≤ 2 then escape w size v s
      else do
        let (s, _) ← nibbles (min v.toNat (size - s.off)) s
        if s.failed then pure s
        else padByte (decide (v.toNat % 4 = 1 ∨ v.toNat % 4 = 2)) s
    else do
      let count := min n.toNat (size - s.off)
      let d ← loopN count (fun i d => wr d (s.off + i) (UInt8.ofNat (if i % 2 = 0 then v.toNat / 16 else v.toNat % 16))) s.data
      pure { s with off := s.off + count, data := d }

/-- The loop over the codes, il_bmp.cpp:589-623 and 669-717.  Every round takes two bytes from the input, so the fuel suffices. -/
def codes (step : Nat → Nat → L → C L) (m : Img) (l : R) : C L :=
  whileF (fun s : L => !s.failed && decide (s.off < m.size)) (step m.width m.size) (l.size + 2) ⟨0, m.width, m.data, l, false⟩

/-- `ilReadRLE8Bmp`, il_bmp.cpp:552-625 (`four` is false), and `ilReadRLE4Bmp`, il_bmp.cpp:631-720 (`four` is true). -/
def ilReadRleBmp (four : Bool) (junk : Nat → UInt8) (h : Head) (l : R) : C (Bool × Option Loaded × R) := do
  let height ← absHeight h
  match ← ilInitImage junk h.width.toNat height 1 1 0 IL_UNSIGNED_BYTE none with
  | none => pure (false, none, l)
  | some m => do
    let n ← (if four then pure 64 else do
      let n ← palBytes h.used
      pure (if n = 0 then 1024 else n))
    let m := { m with format := IL_COLOUR_INDEX, origin := originOf h }
    let (_, l) ← seek l 54 SEEK_SET
    let (k, pd, l) ← readAt l (alloc junk n) 0 n 1
    let pal : Pal := ⟨pd, n, IL_PAL_BGR32⟩
    if k ≠ 1 then pure (false, some (m, some pal), l)
    else do
      let (_, l) ← seek l h.off SEEK_SET
      let s ← codes (if four then step4 else step8) m l
      pure (!s.failed, some ({ m with data := s.data }, some pal), s.inp)

/-! ### OS/2 bitmaps -/

/-- The fields of `OS2_HEAD` (il_bmp.h:40-57) that are looked at. -/
structure Os2 where
  type : Nat
  off : Nat
  fix : Nat
  cx : Nat
  cy : Nat
  planes : Nat
  bits : Nat
  deriving DecidableEq

/-- `iGetOS2Head`, il_bmp.cpp:90-111.  Bytes that are not there have unknown content.  After a short read it returns without the
seek; the callers do not look at the result. -/
def iGetOS2Head (junk : Nat → UInt8) (l : R) : C (Os2 × R) := do
  let (g, l) ← read l 26 1
  let b := g.bytes ++ (alloc junk 26).drop g.bytes.length
  let at_ := fun i n => leVal ((b.drop i).take n)
  let h : Os2 := ⟨at_ 0 2, at_ 10 4, at_ 14 4, at_ 18 2, at_ 20 2, at_ 22 2, at_ 24 2⟩
  if g.ret ≠ 1 then pure (h, l)
  else if toInt h.fix - 12 < -2147483648 then .error .overflow
  else do
    let (_, l) ← seek l (toInt h.fix - 12) SEEK_CUR
    pure (h, l)

/-- `iCheckOS2`, il_bmp.cpp:156-170. -/
def iCheckOS2 (h : Os2) : Bool :=
  if h.type ≠ 19778 ∨ h.off < 26 ∨ h.fix < 12 then false
  else if h.planes ≠ 1 then false
  else if h.cx = 0 ∨ h.cy = 0 then false
  else decide (h.bits = 1 ∨ h.bits = 4 ∨ h.bits = 8 ∨ h.bits = 24)

/-- A row of small pixels and the seek behind it, il_bmp.cpp:750-766, 789-799. -/
def os2Row (step : Nat → Nat → X → C X) (pad w j : Nat) (s : S) : C S :=
  if s.failed then pure s
  else do
    let x ← whileF (fun x : X => !x.failed && decide (x.x < w)) (step w j) (w + 1) ⟨0, s.data, s.inp, false⟩
    if x.failed then pure ⟨x.data, x.inp, true⟩
    else do
      let (_, l) ← seek x.inp pad SEEK_CUR
      pure ⟨x.data, l, false⟩

/-- Rows of whole bytes, il_bmp.cpp:827-838. -/
def os2Bytes (m : Img) (l : R) : C S :=
  if (4 - m.bps % 4) % 4 = 0 then do
    let (n, d, l) ← readAt l m.data 0 1 m.size
    pure ⟨d, l, decide (n ≠ m.size)⟩
  else loopN m.height (fun i s =>
    if s.failed then pure s
    else do
      let (n, d, l) ← readAt s.inp s.data (u32 (i * m.bps)) 1 m.bps
      if n ≠ m.bps then pure ⟨d, l, true⟩
      else do
        let (_, l) ← seek l ((4 - m.bps % 4) % 4 : Nat) SEEK_CUR
        pure ⟨d, l, false⟩) ⟨m.data, l, false⟩

/-- `iGetOS2Bmp`, il_bmp.cpp:726-841. -/
def iGetOS2Bmp (junk : Nat → UInt8) (h : Os2) (l : R) : C (Bool × Option Loaded × R) := do
  match ← ilInitImage junk h.cx h.cy 1 (if h.bits = 24 then 3 else 1) (if h.bits = 24 then IL_BGR else IL_COLOUR_INDEX) IL_UNSIGNED_BYTE none with
  | none => pure (false, none, l)
  | some m => do
    let m := { m with origin := IL_ORIGIN_LOWER_LEFT }
    let n := if h.bits = 1 then 6 else if h.bits = 4 then 48 else if h.bits = 8 then 768 else 0
    let (k, pd, l) ← readAt l (alloc junk n) 0 1 n
    let pal := if n = 0 then none else some (⟨pd, n, IL_PAL_BGR24⟩ : Pal)
    if k ≠ n then pure (false, some (m, pal), l)
    else do
      let (_, l) ← seek l (toInt h.off) SEEK_SET
      let s ← (if h.bits = 1 then loopN m.height (os2Row bitStep ((32 - m.width % 32) / 8 % 4) m.width) ⟨m.data, l, false⟩
        else if h.bits = 4 then loopN m.height (os2Row nibbleStep ((8 - m.width % 8) / 2 % 4) m.width) ⟨m.data, l, false⟩
        else os2Bytes m l)
      pure (!s.failed, some ({ m with data := s.data }, pal), s.inp)

/-- `iLoadBitmapInternal`, il_bmp.cpp:214-266; `ilFixImage` is left out as for Targa. -/
def iLoadBitmapInternal (big : Bool) (junk : Nat → UInt8) (l : R) : C (Bool × Option Loaded × R) := do
  let (h, l) ← iGetBmpHead big junk l
  if !iCheckBmp h then do
    let (_, l) ← seek l (-54) SEEK_CUR
    let (o, l) ← iGetOS2Head junk l
    if !iCheckOS2 o then pure (false, none, l) else iGetOS2Bmp junk o l
  else if h.planes ≠ 1 then pure (false, none, l)
  else if h.comp = 0 ∨ h.comp = 3 then ilReadUncompBmp big junk h l
  else ilReadRleBmp (decide (h.comp = 2)) junk h l

/-! ### Saving -/

/-- `SaveLittleUInt`, `SaveLittleInt`.  il_endian.cpp:209-221. -/
def int (big : Bool) (v : Nat) : WOp := .write (SaveLittleUInt big (BitVec.ofNat 32 v)) 4 1
/-- `SaveLittleUShort`.  il_endian.cpp:195-200. -/
def short (big : Bool) (v : Nat) : WOp := .write (SaveLittleUShort big (BitVec.ofNat 16 v)) 2 1

/-- Whether the image is converted before saving, il_bmp.cpp:951-965. -/
def converts (m : Img) : Bool :=
  decide (m.format ≠ IL_BGR ∧ m.format ≠ IL_BGRA ∧ m.format ≠ IL_COLOUR_INDEX ∨ m.bpc > 1)

/-- `TempPal`, il_bmp.cpp:931-942: the outer `none` is a failed conversion, the inner one an image without a palette. -/
def tempPal (junk : Nat → UInt8) (pal : Option Pal) : C (Option (Option Pal)) :=
  match pal with
  | none => pure (some none)
  | some p =>
    if p.size ≠ 0 ∧ p.type ≠ IL_PAL_NONE ∧ p.type ≠ IL_PAL_BGR32 then do
      match ← Palette.iConvertPal junk p IL_PAL_BGR32 with
      | none => pure none
      | some q => pure (some (some q))
    else pure (some (some p))

/-- `ilGetInteger(IL_PALETTE_NUM_COLS)` for the current image, il_states.cpp:646-650. -/
def numCols (pal : Option Pal) : Nat :=
  match pal with
  | none => 0
  | some p => if p.size = 0 ∨ p.type = IL_PAL_NONE then 0 else p.size / ilGetBppPal p.type

/-- `iwrite(TempPal->Palette, 1, TempPal->PalSize)`.  il_bmp.cpp:1006. -/
def palOps (pal : Option Pal) : List WOp :=
  match pal with
  | none => [.write [] 1 0]
  | some p => [.write p.data 1 p.size]

/-- `TempPal->PalSize`.  il_bmp.cpp:944. -/
def palSize (pal : Option Pal) : Nat :=
  match pal with
  | none => 0
  | some p => p.size

/-- `biClrUsed`, il_bmp.cpp:1001-1005, by the palette of the image that is written and that of the current image. -/
def clrUsed (pal cur : Option Pal) : Nat :=
  match pal with
  | none => 0
  | some p => if p.type ≠ IL_PAL_NONE then numCols cur else 0

/-- The rows, il_bmp.cpp:1016-1025. -/
def rowOps (big : Bool) (t : Img) (data : List UInt8) : C (List WOp) :=
  if (4 - t.bps % 4) % 4 = 0 then
    if data.length < t.plane then .error .oobRead else pure [.write (data.take t.plane) 1 t.plane]
  else forStep 0 t.plane t.bps (fun i o =>
    if data.length < i + t.bps then .error .oobRead
    else pure (o ++ [.write ((data.drop i).take t.bps) 1 t.bps,
      .write ((objBytes big 4 0).take ((4 - t.bps % 4) % 4)) 1 ((4 - t.bps % 4) % 4)])) []

/-- `TempData`, il_bmp.cpp:967-975. -/
def bottomUp (junk : Nat → UInt8) (t : Img) : C (List UInt8) :=
  if t.origin ≠ IL_ORIGIN_LOWER_LEFT then Manip.iGetFlipped junk t else pure t.data

/-- `iSaveBitmapInternal`, il_bmp.cpp:897-1045 (`compress_rle8` is `IL_FALSE`), for the current image `cur`, to an output at position
`start` that takes every byte (so that `itellw` counts them all); `conv` is what `iConvertImage` makes of it in the cases where it is called (`none` if it fails).  The calls that write; `none` is
`IL_FALSE`. -/
def iSaveBitmapInternal (big : Bool) (junk : Nat → UInt8) (start : Nat) (cur : Loaded) (conv : Option Loaded) : C (Option (List WOp)) := do
  match ← tempPal junk cur.2 with
  | none => pure none
  | some pal =>
    match if converts cur.1 then conv else some cur with
    | none => pure none
    | some t => do
      let data ← bottomUp junk t.1
      let rows ← rowOps big t.1 data
      let ops := [.putc 66, .putc 77, int big 0, int big 0, int big (54 + palSize pal), int big 0x28,
        int big cur.1.width, int big t.1.height, short big 1, short big (t.1.bpp * 8), int big 0, int big 0, int big 0, int big 0,
        int big (clrUsed t.2 cur.2), int big 0] ++ palOps pal ++ rows
      let size := u32 (start + (ops.flatMap WOp.bytes).length)
      pure (some (ops ++ [.seek 2 SEEK_SET, int big size, .seek (toInt size) SEEK_SET]))

end DevIL.Bmp
