import Verif.Model.Endian
import Verif.Model.Image
import Verif.Model.Manip
import Verif.Model.Channels
import Verif.Model.Pal
import Verif.Model.Rle
/-! Model of DevIL/src-IL/src/il_targa.cpp.  The input is a memory lump. -/
set_option autoImplicit false
namespace DevIL.Targa
open DevIL.Lump DevIL.Endian DevIL.Image DevIL.Utility

/-- `TARGAHEAD`, il_targa.h:25-41; shorts by their bits. -/
structure Head where
  idLen : Nat
  colMapPresent : Nat
  imageType : Nat
  firstEntry : BitVec 16
  colMapLen : BitVec 16
  colMapEntSize : Nat
  originX : BitVec 16
  originY : BitVec 16
  width : Nat
  height : Nat
  bpp : Nat
  imageDesc : Nat
  deriving DecidableEq

/-- `iGetTgaHead`, il_targa.cpp:76-94. -/
def iGetTgaHead (big : Bool) (junk : Nat → UInt8) (l : R) : C (Head × R) := do
  let (idLen, l) ← getb l
  let (cmp, l) ← getb l
  let (type, l) ← getb l
  let (first, l) ← GetLittleUShort big junk l
  let (len, l) ← GetLittleUShort big junk l
  let (ent, l) ← getb l
  let (ox, l) ← GetLittleUShort big junk l
  let (oy, l) ← GetLittleUShort big junk l
  let (w, l) ← GetLittleUShort big junk l
  let (h, l) ← GetLittleUShort big junk l
  let (bpp, l) ← getb l
  let (desc, l) ← getb l
  pure (⟨idLen.toNat, cmp.toNat, type.toNat, first, len, ent.toNat, ox, oy, w.toNat, h.toNat, bpp.toNat, desc.toNat⟩, l)

/-- `iCheckTarga`, il_targa.cpp:111-136; it turns 15 bits per pixel into 16. -/
def iCheckTarga (h : Head) : Option Head :=
  if h.width = 0 ∨ h.height = 0 then none
  else if h.bpp ≠ 8 ∧ h.bpp ≠ 15 ∧ h.bpp ≠ 16 ∧ h.bpp ≠ 24 ∧ h.bpp ≠ 32 then none
  else if h.imageDesc &&& 0x10 ≠ 0 then none
  else if h.imageType ≠ 0 ∧ h.imageType ≠ 1 ∧ h.imageType ≠ 2 ∧ h.imageType ≠ 3 ∧ h.imageType ≠ 9 ∧ h.imageType ≠ 10 ∧
      h.imageType ≠ 11 then none
  else some (if h.bpp = 15 then { h with bpp := 16 } else h)

/-- The inner loop of a run, il_targa.cpp:464-466, from component `c` on: at most `k` components are stored, and none from the
first that falls outside the image. -/
def putPix (color : List UInt8) (at_ size : Nat) : Nat → Nat → List UInt8 → C (List UInt8)
  | 0, _, d => pure d
  | k + 1, c, d =>
    if u32 (at_ + c) < size then do
      let v ← rd color c
      let d ← wr d (u32 (at_ + c)) v
      putPix color at_ size k (c + 1) d
    else pure d

/-- The state of `iUncompressTgaData`: `BytesRead`, the pixel block, the input, and whether the function returned `IL_FALSE`.
il_targa.cpp:440-489. -/
structure D where
  done : Nat
  data : List UInt8
  inp : R
  failed : Bool
  deriving DecidableEq

/-- A run packet with header `h`, il_targa.cpp:453-469. -/
def runStep (junk : Nat → UInt8) (bpp size h : Nat) (s : D) (l : R) : C D := do
  let (n, color, l) ← readAt l (alloc junk 4) 0 1 bpp
  if n ≠ bpp then pure { s with inp := l, failed := true }
  else do
    let data ← loopN (h % 128 + 1) (fun i d => putPix color (s.done + i * bpp) size bpp 0 d) s.data
    pure { s with done := u32 (s.done + (h % 128 + 1) * bpp), data := data, inp := l }

/-- A raw packet with header `h`, il_targa.cpp:471-485. -/
def rawStep (bpp size h : Nat) (s : D) (l : R) : C D := do
  let run := (h + 1) * bpp
  let toRead := if u32 (s.done + run) > size then u32 (size - s.done) else run
  let (n, data, l) ← readAt l s.data s.done 1 toRead
  if n ≠ toRead then pure { s with data := data, inp := l, failed := true }
  else do
    let done := u32 (s.done + run)
    if u32 (done + run) > size then do
      let (_, l) ← seek l ((run : Int) - toRead) SEEK_CUR
      pure { s with done := done, data := data, inp := l }
    else pure { s with done := done, data := data, inp := l }

/-- One round of the loop of `iUncompressTgaData`, il_targa.cpp:451-486. -/
def tgaStep (junk : Nat → UInt8) (bpp size : Nat) (s : D) : C D := do
  let (h, l) ← getb s.inp
  if h.toNat ≥ 128 then runStep junk bpp size h.toNat s l else rawStep bpp size h.toNat s l

/-- `iUncompressTgaData`, il_targa.cpp:440-489: success, the pixel block, and the input.  The caching of line 448-449 is left
out: it only changes how a file is read.  `size + 1` rounds always suffice when `size + 512 ≤ 2^32`. -/
def iUncompressTgaData (junk : Nat → UInt8) (m : Img) (l : R) : C (Bool × List UInt8 × R) := do
  let size := u32 (m.width * m.height * m.depth * m.bpp)
  let s ← whileF (fun s : D => !s.failed && decide (s.done < size)) (tgaStep junk m.bpp size) (size + 1) ⟨0, m.data, l, false⟩
  pure (!s.failed, s.data, s.inp)

/-- The pixel data of a Targa file, il_targa.cpp:313-326, 390-398 and 426-434: `comp` says whether they are compressed. -/
def readPixels (junk : Nat → UInt8) (comp : Bool) (m : Img) (l : R) : C (Bool × Img × R) :=
  if comp then do
    let (ok, data, l) ← iUncompressTgaData junk m l
    pure (ok, { m with data := data }, l)
  else do
    let (n, data, l) ← readAt l m.data 0 1 m.size
    pure (decide (n = m.size), { m with data := data }, l)

/-- The 16-bit value of the `x`-th `ILushort` of the pixel data.  il_targa.cpp:493-535. -/
def shortAt (big : Bool) (data : List UInt8) (x : Nat) : C (BitVec 16) := do
  let a ← rd data (2 * x)
  let b ← rd data (2 * x + 1)
  pure (BitVec.ofNat 16 (objVal big [a, b]))

/-- `i16BitTarga`, il_targa.cpp:493-537. -/
def i16BitTarga (big : Bool) (junk : Nat → UInt8) (m : Img) : C (Option Img) := do
  let data ← loopN (u32 (m.width * m.height)) (fun x d => do
    let t ← shortAt big m.data x
    let d ← wr d (3 * x) (UInt8.ofNat ((t &&& 0x001F#16) <<< 3).toNat)
    let d ← wr d (3 * x + 1) (UInt8.ofNat ((t &&& 0x03E0#16) >>> 2).toNat)
    wr d (3 * x + 2) (UInt8.ofNat ((t &&& 0x7C00#16) >>> 7).toNat)) (alloc junk (u32 (m.width * m.height * 3)))
  ilInitImage junk m.width m.height 1 3 IL_BGR IL_UNSIGNED_BYTE (some data)

/-- `iread(ID, 1, Header->IDLen)` into an array of 255 bytes, il_targa.cpp:256-257, 337-338 and 415-416: `false` if short. -/
def readId (junk : Nat → UInt8) (idLen : Nat) (l : R) : C (Bool × R) := do
  let (n, _, l) ← readAt l (alloc junk 255) 0 1 idLen
  pure (decide (n = idLen), l)

/-- The 16-bit palette entries, il_targa.cpp:296-310: every entry is stored into the first one. -/
def read16Pal (big : Bool) (junk : Nat → UInt8) (n : Nat) (pal : List UInt8) (l : R) : C (Bool × List UInt8 × R) :=
  loopN n (fun _ (s : Bool × List UInt8 × R) =>
    if s.1 then do
      let (px, l) ← GetBigUShort big junk s.2.2
      if eof l then pure (false, s.2.1, l)
      else do
        let d ← wr s.2.1 3 (UInt8.ofNat ((px &&& 0x8000#16) >>> 12).toNat)
        let d ← wr d 0 (UInt8.ofNat ((px &&& 0xFC00#16) >>> 7).toNat)
        let d ← wr d 1 (UInt8.ofNat ((px &&& 0x03E0#16) >>> 2).toNat)
        let d ← wr d 2 (UInt8.ofNat ((px &&& 0x001F#16) <<< 3).toNat)
        pure (true, d, l)
    else pure s) (true, pal, l)

/-- The palette size and type, il_targa.cpp:266-286; `none` is the default case.  `ColMapLen` is a signed short. -/
def palShape (h : Head) : Option (Nat × Nat) :=
  if h.colMapEntSize = 16 then some (ofInt (h.colMapLen.toInt * 4), IL_PAL_BGRA32)
  else if h.colMapEntSize = 24 then some (ofInt (h.colMapLen.toInt * 3), IL_PAL_BGR24)
  else if h.colMapEntSize = 32 then some (ofInt (h.colMapLen.toInt * 4), IL_PAL_BGRA32)
  else none

/-- The palette, il_targa.cpp:291-310. -/
def readPal (big : Bool) (junk : Nat → UInt8) (h : Head) (psize : Nat) (l : R) : C (Bool × List UInt8 × R) :=
  if h.colMapEntSize ≠ 16 then do
    let (n, pal, l) ← readAt l (alloc junk psize) 0 1 psize
    pure (decide (n = psize), pal, l)
  else read16Pal big junk (psize / 4) (alloc junk psize) l

/-- What an image object holds after a load: the pixels, and the palette block if there is one.  Image fields, devil_internal_exports.h:62-74. -/
abbrev Loaded := Img × Option Pal

/-- `iReadColMapTga`, il_targa.cpp:250-329, on the current image `cur`: the result, the image afterwards, and the input.
Allocation succeeds.  A palette that was never allocated is `none`. -/
def iReadColMapTga (big : Bool) (junk : Nat → UInt8) (h : Head) (cur : Loaded) (l : R) : C (Bool × Loaded × R) := do
  let (ok, l) ← readId junk h.idLen l
  if !ok then pure (false, cur, l)
  else do
    match ← ilInitImage junk h.width h.height 1 (h.bpp / 8) 0 IL_UNSIGNED_BYTE none with
    | none => pure (false, cur, l)
    | some m => do
      let m := { m with format := IL_COLOUR_INDEX }
      match palShape h with
      | none => pure (false, (m, none), l)
      | some (psize, ptype) => do
        let (ok, pal, l) ← readPal big junk h psize l
        if !ok then pure (false, (m, some ⟨pal, psize, ptype⟩), l)
        else do
          let (ok, m, l) ← readPixels junk (decide (h.imageType = 9)) m l
          pure (ok, (m, some ⟨pal, psize, ptype⟩), l)

/-- The format by components per pixel, il_targa.cpp:350-383 (a file has 1, 2, 3 or 4). -/
def unmapFormat (bpp : Nat) : Nat := if bpp = 1 then IL_COLOUR_INDEX else if bpp = 4 then IL_BGRA else IL_BGR

/-- `iReadUnmapTga`, il_targa.cpp:332-408. -/
def iReadUnmapTga (big : Bool) (junk : Nat → UInt8) (h : Head) (cur : Loaded) (l : R) : C (Bool × Loaded × R) := do
  let (ok, l) ← readId junk h.idLen l
  if !ok then pure (false, cur, l)
  else do
    match ← ilInitImage junk h.width h.height 1 (h.bpp / 8) 0 IL_UNSIGNED_BYTE none with
    | none => pure (false, cur, l)
    | some m => do
      let m := { m with format := unmapFormat m.bpp }
      let (ok, m, l) ← readPixels junk (decide (h.imageType = 10)) m l
      if !ok then pure (false, (m, none), l)
      else if h.bpp = 16 then do
        match ← i16BitTarga big junk m with
        | none => pure (false, (m, none), l)
        | some m => pure (true, (m, none), l)
      else pure (true, (m, none), l)

/-- `iReadBwTga`, il_targa.cpp:411-437. -/
def iReadBwTga (junk : Nat → UInt8) (h : Head) (cur : Loaded) (l : R) : C (Bool × Loaded × R) := do
  let (ok, l) ← readId junk h.idLen l
  if !ok then pure (false, cur, l)
  else do
    match ← ilInitImage junk h.width h.height 1 (h.bpp / 8) IL_LUMINANCE IL_UNSIGNED_BYTE none with
    | none => pure (false, cur, l)
    | some m => do
      let (ok, m, l) ← readPixels junk (decide (h.imageType = 11)) m l
      pure (ok, (m, none), l)

/-- The dispatch on the image type, il_targa.cpp:200-219, for the types that hold an image. -/
def readBody (big : Bool) (junk : Nat → UInt8) (h : Head) (cur : Loaded) (l : R) : C (Bool × Loaded × R) :=
  if h.imageType = 1 ∨ h.imageType = 9 then iReadColMapTga big junk h cur l
  else if h.imageType = 2 ∨ h.imageType = 10 then iReadUnmapTga big junk h cur l
  else iReadBwTga junk h cur l

/-- The origin, il_targa.cpp:223-245: the two right-hand origins are refused by `iCheckTarga`. -/
def originOf (h : Head) : Nat := if h.imageDesc &&& 0x30 = 0x20 then IL_ORIGIN_UPPER_LEFT else IL_ORIGIN_LOWER_LEFT

/-- `iLoadTargaInternal`, il_targa.cpp:182-248, with `cur` as the current image: the result, the current image afterwards, and
the input.  The result of the reader (`bTarga`) is never looked at.  `ilFixImage` is left out: it returns true and does
nothing unless `IL_ORIGIN_SET`, `IL_TYPE_SET` or `IL_FORMAT_SET` is enabled (il_convert.cpp:986-1022). -/
def iLoadTargaInternal (big : Bool) (junk : Nat → UInt8) (cur : Loaded) (l : R) : C (Bool × Loaded × R) := do
  let (h, l) ← iGetTgaHead big junk l
  match iCheckTarga h with
  | none => pure (false, cur, l)
  | some h =>
    if h.imageType = 0 then pure (false, cur, l)
    else do
      let (_, (m, pal), l) ← readBody big junk h cur l
      pure (true, ({ m with origin := originOf h }, pal), l)

/-! ### Saving -/

/-- What a Targa save reads from the environment: `iGetInt(IL_TGA_RLE) == IL_TRUE` and the strings after `iGetString`, il_targa.cpp:594-596, 618;
`now` is the clock of line 784. -/
structure SaveEnv where
  id : List UInt8
  author : List UInt8
  comment : List UInt8
  now : List (BitVec 16)

/-- The type byte, il_targa.cpp:635-671, uncompressed or run-length encoded; `none` is the default case. -/
def typeOf (rle : Bool) (format : Nat) : Option UInt8 :=
  if format = IL_COLOUR_INDEX then some (if rle then 9 else 1)
  else if format = IL_BGR ∨ format = IL_BGRA ∨ format = IL_RGB ∨ format = IL_RGBA then some (if rle then 10 else 2)
  else if format = IL_LUMINANCE then some (if rle then 11 else 3)
  else none

/-- The image whose pixels are written: `ilSwapColours` for RGB and RGBA, il_targa.cpp:649-655. -/
def toBgr (m : Img) : C (Option Img) :=
  if m.format = IL_RGB ∨ m.format = IL_RGBA then Channels.ilSwapColours m else pure (some m)

/-- `TempData`, il_targa.cpp:723-727. -/
def tempData (junk : Nat → UInt8) (m : Img) : C (List UInt8) :=
  if m.origin ≠ IL_ORIGIN_LOWER_LEFT then Manip.iGetFlipped junk m else pure m.data

/-- `ipad(n)`, il_files.cpp:403-412. -/
def pad (n : Nat) : List WOp := List.replicate n (.putc 0)

/-- `SaveLittleUShort`.  il_endian.cpp:195-200. -/
def short (big : Bool) (v : BitVec 16) : WOp := .write (SaveLittleUShort big v) 2 1
/-- `SaveLittleUInt`.  il_endian.cpp:209-214. -/
def int (big : Bool) (v : BitVec 32) : WOp := .write (SaveLittleUInt big v) 4 1

/-- "Developer's Image Library (DevIL)", il_targa.cpp:609. -/
def idString : List UInt8 :=
  [68, 101, 118, 101, 108, 111, 112, 101, 114, 39, 115, 32, 73, 109, 97, 103, 101, 32, 76, 105, 98, 114, 97, 114, 121, 32, 40,
   68, 101, 118, 73, 76, 41]

/-- "TRUEVISION-XFILE." and its final zero, il_targa.cpp:608. -/
def footer : List UInt8 := [84, 82, 85, 69, 86, 73, 83, 73, 79, 78, 45, 88, 70, 73, 76, 69, 46, 0]

/-- The extension area and the footer, il_targa.cpp:773-820; `off` is `ExtOffset`. -/
def trailer (big : Bool) (env : SaveEnv) (off : Nat) : List WOp :=
  [short big 495#16, .write env.author 1 env.author.length] ++ pad (41 - env.author.length) ++
  [.write env.comment 1 env.comment.length] ++ pad (324 - env.comment.length) ++
  env.now.map (short big) ++ List.replicate 6 (short big 0#16) ++ pad 41 ++ List.replicate 3 (short big 0#16) ++
  [.write idString 1 idString.length] ++ pad (41 - idString.length) ++ [short big 180#16, .putc 32] ++
  List.replicate 6 (int big 0#32) ++ [.putc 3, int big (BitVec.ofNat 32 off), int big 0#32, .write footer 1 18]

/-- The header, il_targa.cpp:632-749; `n` is `PalSize` and `ent` is `PalEntSize`. -/
def header (big : Bool) (env : SaveEnv) (m : Img) (usePal : Bool) (type : UInt8) (n : BitVec 16) (ent : UInt8) : List WOp :=
  [.write [UInt8.ofNat env.id.length] 1 1, .write [if usePal then 1 else 0] 1 1, .write [type] 1 1, short big 0#16, short big n,
   .write [ent] 1 1, .write [0, 0] 2 1, .write [0, 0] 2 1, short big (BitVec.ofNat 16 m.width), short big (BitVec.ofNat 16 m.height),
   .write [UInt8.ofNat (m.bpp * 8)] 1 1,
   .write [(if m.bpp > 3 then 8 else 0) ||| (if m.origin = IL_ORIGIN_UPPER_LEFT then 0x20 else 0)] 1 1,
   .write env.id 1 (env.id.length % 256)]

/-- The palette to write, its number of entries and entry size, il_targa.cpp:673-706 and 754-755; `none` is `IL_FALSE`. -/
def palOps (junk : Nat → UInt8) (pal : Option Pal) : C (Option (List WOp × Bool × BitVec 16 × UInt8)) :=
  match pal with
  | none => pure (some ([], false, 0#16, 0))
  | some p =>
    if p.type = IL_PAL_NONE then pure (some ([], false, 0#16, 0))
    else if p.type = IL_PAL_BGR24 then
      pure (some (if p.size = 0 then [] else [.write p.data 1 p.size], decide (p.size ≠ 0), BitVec.ofNat 16 (p.size / 3), 24))
    else if p.size = 0 then pure none
    else do
      match ← Palette.iConvertPal junk p IL_PAL_BGR24 with
      | none => pure none
      | some q => pure (some ([.write q.data 1 q.size], true, BitVec.ofNat 16 (q.size / 3), 24))

/-- The pixel data, il_targa.cpp:758-771. -/
def dataOps (junk : Nat → UInt8) (rle : Bool) (m : Img) : C (List WOp) := do
  let t ← tempData junk m
  if !rle then pure [.write t 1 m.size]
  else do
    let (d, n) ← Rle.ilRleCompress t m.width m.height m.depth m.bpp (alloc junk (m.size + m.size / 2 + 1)) false
    pure [.write d 1 n]

/-- `iSaveTargaInternal`, il_targa.cpp:592-838, for a bound image of one byte per component, with output at position 0: the
calls that write; `none` is `IL_FALSE`.  `env` has the texts and the clock. -/
def iSaveTargaInternal (big : Bool) (junk : Nat → UInt8) (rle : Bool) (env : SaveEnv) (m : Img) (pal : Option Pal) :
    C (Option (List WOp)) := do
  match typeOf rle m.format with
  | none => pure none
  | some type => do
    match ← toBgr m with
    | none => pure none
    | some m => do
      match ← palOps junk pal with
      | none => pure none
      | some (pops, usePal, n, ent) => do
        let dops ← dataOps junk rle m
        let front := header big env m usePal type n ent ++ pops ++ dops
        pure (some (front ++ trailer big env (front.flatMap WOp.bytes).length))

/-- `iTargaSize`, il_targa.cpp:843-884. -/
def iTargaSize (env : SaveEnv) (m : Img) : Nat :=
  let rest := fun bpp => u32 (18 + env.id.length % 256 + m.width * m.height * bpp + 532)
  if m.format = IL_BGR ∨ m.format = IL_RGB then rest 3
  else if m.format = IL_BGRA ∨ m.format = IL_RGBA then rest 4
  else if m.format = IL_LUMINANCE then rest 1
  else 0

end DevIL.Targa
