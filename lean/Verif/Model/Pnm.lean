import Verif.Model.Image
import Verif.Model.Lump
import Verif.Model.Manip
import Verif.Model.Register
/-! Model of DevIL/src-IL/src/il_pnm.cpp.  The input is a memory lump.  Every loop that depends on the input has `fuel`: the code runs
for ever exactly if the outcome is `hang` for every `fuel`. -/
set_option autoImplicit false
namespace DevIL.Pnm
open DevIL.Lump DevIL.Image DevIL.Utility
open DevIL.Register (txt)

/-- `MAX_BUFFER`, il_pnm.cpp:28. -/
abbrev MAX_BUFFER : Nat := 180

/-- `isalnum` in the "C" locale; bytes above 127, negative as `ILbyte`, are taken not to be alphanumeric.  il_pnm.cpp:355, 358, 367, 599. -/
def isalnum (c : UInt8) : Bool :=
  (48 ≤ c && c ≤ 57) || (65 ≤ c && c ≤ 90) || (97 ≤ c && c ≤ 122)

/-- `isdigit`, for `atoi`.  il_pnm.cpp:225, 233, 244, 364. -/
def isdigit (c : UInt8) : Bool := 48 ≤ c && c ≤ 57

/-- The number that digits denote.  il_pnm.cpp:225. -/
def val (ds : List UInt8) : Nat := ds.foldl (fun a d => a * 10 + (d.toNat - 48)) 0

/-- `atoi` of the string in a block: the leading digits.  A word never starts with a sign or white space.  A number that is no `int` is
undefined behaviour.  il_pnm.cpp:225, 233, 244, 364. -/
def atoi (b : List UInt8) : C Nat :=
  let ds := b.takeWhile isdigit
  if ds.length = b.length then .error .oobRead
  else if val ds ≥ 2147483648 then .error .overflow
  else pure (val ds)

/-! ### Words of the header -/

/-- How the loop that collects a word ended: `full` if it returned from the function.  Locals of il_pnm.cpp:584-608. -/
structure Inner where
  word : List UInt8
  n : Nat
  cur : Option UInt8
  inp : R
  full : Bool
  deriving DecidableEq

/-- The loop of il_pnm.cpp:594-609 into `SmallBuff` from `WordPos = n` on; `cur` is `Current`, `none` for `IL_EOF`.  `Started` is never set. -/
def inner : Nat → List UInt8 → Nat → R → C Inner
  | 0, _, _, _ => .error .hang
  | fuel + 1, word, n, l => do
    let (c, l) ← getc l
    if c = none ∨ c = some 10 ∨ c = some 35 ∨ c = some 32 then pure ⟨word, n, c, l, false⟩
    else if n ≥ MAX_BUFFER then pure ⟨word, n, c, l, true⟩
    else if !isalnum (c.getD 0) ∧ c ≠ some 95 then inner fuel word n l
    else do
      let word ← wr word n (c.getD 0)
      inner fuel word (n + 1) l

/-- Reading until a value that satisfies `p` is read, il_pnm.cpp:620 and 624-627. -/
def readUntil (p : Option UInt8 → Bool) : Nat → R → C (Option UInt8 × R)
  | 0, _ => .error .hang
  | fuel + 1, l => do
    let (c, l) ← getc l
    if p c then pure (c, l) else readUntil p fuel l

/-- The rest of a comment, il_pnm.cpp:619-621. -/
def skipComment (fuel : Nat) (cur : Option UInt8) (l : R) : C R :=
  if cur = some 35 then do
    let (_, l) ← readUntil (fun c => decide (c = none ∨ c = some 10)) fuel l
    pure l
  else pure l

/-- The loop of `iGetWord`, il_pnm.cpp:592-632, and its end, 634-639: the result, `SmallBuff`, the input. -/
def outer (final : Bool) : Nat → List UInt8 → Nat → R → C (Bool × List UInt8 × R)
  | 0, _, _, _ => .error .hang
  | fuel + 1, word, n, l => do
    let s ← inner fuel word n l
    if s.full then pure (false, s.word, s.inp)
    else if s.cur = none then pure (false, s.word, s.inp)
    else do
      let word ← wr s.word s.n 0
      if final then pure (decide (s.n ≠ 0), word, s.inp)
      else do
        let l ← skipComment fuel s.cur s.inp
        let (c, l) ← readUntil (fun c => decide (c ≠ some 32)) fuel l
        let (_, l) ← seek l (-1) SEEK_CUR
        if s.n > 0 then pure (decide (c ≠ none), word, l)
        else outer final fuel word s.n l

/-- `iGetWord`, il_pnm.cpp:582-640. -/
def iGetWord (fuel : Nat) (final : Bool) (word : List UInt8) (l : R) : C (Bool × List UInt8 × R) :=
  if eof l then pure (false, word, l) else outer final fuel word 0 l

/-! ### Text pixels -/

/-- `iFgets`, il_internal.cpp:182-197, from `counter` on: whether it returned the buffer, the buffer, and the input. -/
def iFgets (maxlen : Nat) : Nat → List UInt8 → Nat → R → C (Bool × List UInt8 × R)
  | 0, _, _, _ => .error .hang
  | fuel + 1, buf, n, l => do
    let (c, l) ← getc l
    if c = none ∨ c = some 0 ∨ c = some 10 ∨ n ≥ maxlen then do
      let buf ← wr buf n 0
      pure (!decide (c = none ∧ n = 0), buf, l)
    else do
      let buf ← wr buf n (c.getD 0)
      iFgets maxlen fuel buf (n + 1) l

/-- `while (p(LineBuffer[LineInc])) LineInc++`, il_pnm.cpp:355-357 and 367-369. -/
def skipWhile (p : UInt8 → Bool) (line : List UInt8) : Nat → Nat → C Nat
  | 0, _ => .error .hang
  | fuel + 1, i => do
    let c ← rd line i
    if p c then skipWhile p line fuel (i + 1) else pure i

/-- Copying a number to `SmallBuff`, il_pnm.cpp:358-363: the buffer and `LineInc`. -/
def copyWord (line : List UInt8) : Nat → List UInt8 → Nat → Nat → C (List UInt8 × Nat)
  | 0, _, _, _ => .error .hang
  | fuel + 1, word, n, i => do
    let c ← rd line i
    if isalnum c then do
      let word ← wr word n c
      copyWord line fuel word (n + 1) (i + 1)
    else do
      let word ← wr word n 0
      pure (word, i)

/-- `SmallBuff`, the pixels, `LineInc` and `DataInc`.  Locals of il_pnm.cpp:324. -/
structure A where
  word : List UInt8
  data : List UInt8
  i : Nat
  d : Nat
  deriving DecidableEq

/-- The loop over the numbers of a line, il_pnm.cpp:352-376; `two` is `MaxColour > 255`.  A line has at most 180 bytes, so the fuel of the
inner loops suffices. -/
def lineLoop (line : List UInt8) (two : Bool) : Nat → A → C A
  | 0, _ => .error .hang
  | fuel + 1, s => do
    let c ← rd line s.i
    if c = 0 ∨ c = 10 then pure s
    else do
      let i ← skipWhile (fun c => !isalnum c) line 182 s.i
      let (word, i) ← copyWord line 182 s.word 0 i
      let v ← atoi word
      let data ← wr s.data s.d (UInt8.ofNat v)
      let i ← skipWhile (fun c => !isalnum c && c ≠ 0) line 182 i
      lineLoop line two fuel ⟨word, data, i, s.d + (if two then 2 else 1)⟩

/-- The loop over the lines, il_pnm.cpp:339-377, and the test of 380-385: whether all `size` bytes were reached, the pixels, and the
input.  `buf` is `LineBuffer`. -/
def lines (two : Bool) (size : Int) : Nat → List UInt8 → A → R → C (Bool × List UInt8 × R)
  | 0, _, _, _ => .error .hang
  | fuel + 1, buf, s, l =>
    if size ≤ s.d then pure (true, s.data, l)
    else do
      let (got, buf, l) ← iFgets MAX_BUFFER fuel buf 0 l
      if !got then pure (false, s.data, l)
      else do
        let c ← rd buf 0
        if c = 35 then lines two size fuel buf s l
        else do
          let s ← lineLoop buf two 182 { s with i := 0 }
          lines two size fuel buf s l

/-- `PPMINFO`, il_pnm.h:34-43, the fields the loader sets.  `type` is 1 to 6 (il_pnm.h:24-29). -/
structure Info where
  type : Nat
  width : Nat
  height : Nat
  maxColour : Nat
  bpp : Nat
  deriving DecidableEq

/-- What a reader returns: an image, `NULL` with the image it made, `NULL` without having made one, or `NULL` after it has freed the current
image.  il_pnm.cpp:322-440. -/
inductive Read where
  | image (m : Img)
  | short (m : Img)
  | refused
  | freed
  deriving DecidableEq

/-- `ilReadAsciiPpm`, il_pnm.cpp:322-388.  `Bpp` is an 8-bit number. -/
def ilReadAsciiPpm (fuel : Nat) (junk : Nat → UInt8) (info : Info) (line word : List UInt8) (l : R) : C (Read × R) := do
  let two := decide (info.maxColour > 255)
  let bpp := if two then info.bpp * 2 else info.bpp
  let size := toInt (u32 (u32 (info.width * info.height) * bpp))
  match ← ilInitImage junk info.width info.height 1 bpp 0 IL_UNSIGNED_BYTE none with
  | none => pure (.refused, l)
  | some m => do
    let m := { m with origin := IL_ORIGIN_UPPER_LEFT, type := if two then IL_UNSIGNED_SHORT else m.type }
    let (ok, data, l) ← lines two size fuel line ⟨word, m.data, 0, 0⟩ l
    pure (if ok then .image { m with data := data } else .short { m with data := data }, l)

/-- `ilReadBinaryPpm`, il_pnm.cpp:391-417. -/
def ilReadBinaryPpm (junk : Nat → UInt8) (info : Info) (l : R) : C (Read × R) := do
  let size := u32 (u32 (info.width * info.height) * info.bpp)
  match ← ilInitImage junk info.width info.height 1 info.bpp 0 IL_UNSIGNED_BYTE none with
  | none => pure (.refused, l)
  | some m => do
    let (n, data, l) ← readAt l m.data 0 1 size
    if n ≠ size then pure (.freed, l)
    else pure (.image { m with origin := IL_ORIGIN_UPPER_LEFT, data := data }, l)

/-- The bits of a byte, il_pnm.cpp:432-434: `x` columns are done, `j` bytes of the block. -/
def bits (w : Nat) (cur : Nat) : Nat → Nat → Nat → List UInt8 → C (Nat × Nat × List UInt8)
  | 0, x, j, d => pure (x, j, d)
  | k + 1, x, j, d =>
    if x < w then do
      let d ← wr d j (if cur / 2 ^ k % 2 = 1 then 255 else 0)
      bits w cur k (x + 1) (j + 1) d
    else pure (x, j, d)

/-- The loop of il_pnm.cpp:430-437.  The end of the input is read as -1, all bits set. -/
def bitLoop (w size : Nat) : Nat → Nat → Nat → List UInt8 → R → C (List UInt8 × R)
  | 0, _, _, _, _ => .error .hang
  | fuel + 1, x, j, d, l =>
    if size ≤ j then pure (d, l)
    else do
      let (b, l) ← getb l
      let (x, j, d) ← bits w b.toNat 8 x j d
      bitLoop w size fuel (if x = w then 0 else x) j d l

/-- `ilReadBitPbm`, il_pnm.cpp:420-440. -/
def ilReadBitPbm (fuel : Nat) (junk : Nat → UInt8) (info : Info) (l : R) : C (Read × R) := do
  match ← ilInitImage junk info.width info.height 1 info.bpp 0 IL_UNSIGNED_BYTE none with
  | none => pure (.refused, l)
  | some m => do
    let (data, l) ← bitLoop info.width m.size fuel 0 0 m.data l
    pure (.image { m with origin := IL_ORIGIN_UPPER_LEFT, data := data }, l)

/-- `PbmMaximize`, il_pnm.cpp:855-863. -/
def PbmMaximize (m : Img) : C Img := do
  let data ← loopN m.plane (fun i d => do
    let b ← rd d i
    if b = 1 then wr d i 0xFF else pure d) m.data
  pure { m with data := data }

/-- The current image after a load: as it was, a new one, or freed although it is still the current one.  il_pnm.cpp:292-297, 554-558. -/
inductive Cur where
  | same
  | made (m : Img)
  | freed
  deriving DecidableEq

/-- `Info.Type` of the magic number, il_pnm.cpp:190-220; 7 is a PAM file, 0 the default case. -/
def typeOf (word : List UInt8) : Nat :=
  let c := word.getD 1 0
  if word.head? ≠ some 80 then 0
  else if 49 ≤ c ∧ c ≤ 55 then c.toNat - 48 else 0

/-- `Info.Bpp`, il_pnm.cpp:255-270. -/
def bppOf (type maxColour : Nat) : Nat :=
  if type = 2 then (if maxColour < 256 then 1 else 2)
  else if type = 1 ∨ type = 4 ∨ type = 5 then 1
  else 3

/-- Choosing the reader, il_pnm.cpp:272-290. -/
def reader (fuel : Nat) (junk : Nat → UInt8) (info : Info) (line word : List UInt8) (l : R) : C (Read × R) :=
  if info.type ≤ 3 then ilReadAsciiPpm fuel junk info line word l
  else if info.type = 4 then ilReadBitPbm fuel junk info l
  else ilReadBinaryPpm junk info l

/-- The end of `iLoadPnmInternal`, il_pnm.cpp:292-317.  A reader that returned `NULL` after it freed the current image makes line 294 use
freed memory. -/
def finish (info : Info) (r : Read) (l : R) : C (Bool × Cur × R) :=
  match r with
  | .refused => pure (false, .same, l)
  | .short m => pure (false, .made { m with format := ilGetFormatBpp m.bpp }, l)
  | .freed => .error .useAfterFree
  | .image m => do
    let m ← if info.type = 1 then PbmMaximize m else pure m
    let m := if info.maxColour > 255 then { m with type := IL_UNSIGNED_SHORT } else m
    let f := if info.type = 1 ∨ info.type = 4 ∨ info.type = 2 ∨ info.type = 5 then IL_LUMINANCE else IL_RGB
    pure (true, .made { m with origin := IL_ORIGIN_UPPER_LEFT, format := f }, l)

/-! ### PAM -/

/-- `PPMINFO` as `ilReadPam` uses it.  il_pnm.h:34-43. -/
structure PamInfo where
  width : Nat
  height : Nat
  depth : Nat
  maxColour : Nat
  tuple : Nat
  deriving DecidableEq

/-- A string, up to the zero.  il_pnm.cpp:458, 471. -/
def str (word : List UInt8) : List UInt8 := word.takeWhile (· ≠ 0)

/-- `DecodeTupleType`, il_pnm.cpp:563-579. -/
def DecodeTupleType (s : List UInt8) : Nat :=
  if s = txt ['B','L','A','C','K','A','N','D','W','H','I','T','E'] then 1 else if s = txt ['G','R','A','Y','S','C','A','L','E'] then 2 else if s = txt ['R','G','B'] then 3
  else if s = txt ['B','L','A','C','K','A','N','D','W','H','I','T','E','_','A','L','P','H','A'] then 4 else if s = txt ['G','R','A','Y','S','C','A','L','E','_','A','L','P','H','A'] then 5 else if s = txt ['R','G','B','_','A','L','P','H','A'] then 6 else 0

/-- The value of a header line, il_pnm.cpp:461-473; `key` is `TempStr`.  (`atoi` is only called for a known key.) -/
def pamField (key word : List UInt8) (i : PamInfo) : C PamInfo :=
  if key.take 5 = txt ['W','I','D','T','H'] then do let v ← atoi word; pure { i with width := v }
  else if key.take 6 = txt ['H','E','I','G','H','T'] then do let v ← atoi word; pure { i with height := v }
  else if key.take 5 = txt ['D','E','P','T','H'] then do let v ← atoi word; pure { i with depth := v }
  else if key.take 6 = txt ['M','A','X','V','A','L'] then do let v ← atoi word; pure { i with maxColour := v }
  else if key.take 8 = txt ['T','U','P','L','T','Y','P','E'] then pure { i with tuple := DecodeTupleType (str word) }
  else pure i

/-- The loop of il_pnm.cpp:451-474; `none` if it returned `IL_FALSE`. -/
def pamLoop : Nat → List UInt8 → PamInfo → R → C (Option PamInfo × R)
  | 0, _, _, _ => .error .hang
  | fuel + 1, word, i, l =>
    if eof l then pure (some i, l)
    else do
      let (ok, word, l) ← iGetWord fuel false word l
      if !ok then pure (none, l)
      else if word.take 6 = txt ['E','N','D','H','D','R'] then pure (some i, l)
      else do
        let key := str word
        let (ok, word, l) ← iGetWord fuel false word l
        if !ok then pure (none, l)
        else do
          let i ← pamField key word i
          pamLoop fuel word i l

/-- The number of components and the format of a tuple type, il_pnm.cpp:497-550; `none` is the default case. -/
def pamFormat (tuple : Nat) : Option (Nat × Nat) :=
  if tuple = 2 then some (1, IL_LUMINANCE) else if tuple = 5 then some (2, IL_LUMINANCE_ALPHA)
  else if tuple = 3 then some (3, IL_RGB) else if tuple = 6 then some (4, IL_RGBA) else none

/-- The component type of `MAXVAL`, il_pnm.cpp:482-495, with the size of a component; `none` is the default case. -/
def pamType (maxColour : Nat) : Option (Nat × Nat) :=
  if maxColour = 255 then some (IL_UNSIGNED_BYTE, 1) else if maxColour = 65535 then some (IL_UNSIGNED_SHORT, 2) else none

/-- The pixels, il_pnm.cpp:505-560. -/
def pamPixels (junk : Nat → UInt8) (i : PamInfo) (type comp format : Nat) (l : R) : C (Bool × Cur × R) := do
  match ← ilInitImage junk i.width i.height 1 i.depth 0 type none with
  | none => pure (false, .same, l)
  | some m => do
    let size := u32 (comp * u32 (u32 (i.width * i.height) * i.depth))
    let (n, data, l) ← readAt l m.data 0 1 size
    if n ≠ size then pure (false, .freed, l)
    else pure (true, .made { m with format := format, origin := IL_ORIGIN_UPPER_LEFT, data := data }, l)

/-- `ilReadPam`, il_pnm.cpp:443-560.  The tuple type of a file that gives none is 0 (`memset`). -/
def ilReadPam (fuel : Nat) (junk : Nat → UInt8) (word : List UInt8) (l : R) : C (Bool × Cur × R) := do
  let (i, l) ← pamLoop fuel word ⟨0, 0, 0, 0, 0⟩ l
  match i with
  | none => pure (false, .same, l)
  | some i =>
    if i.width = 0 ∨ i.height = 0 ∨ i.depth = 0 ∨ i.depth > 4 ∨ i.tuple = 0 then pure (false, .same, l)
    else match pamType i.maxColour, pamFormat i.tuple with
      | some (type, comp), some (depth, format) =>
        if i.depth ≠ depth then pure (false, .same, l) else pamPixels junk i type comp format l
      | _, _ => pure (false, .same, l)

/-! ### Loading -/

/-- The numbers of the header, il_pnm.cpp:223-253: `none` if the file is refused; `SmallBuff`; the input. -/
def numbers (fuel : Nat) (type : Nat) (word : List UInt8) (l : R) : C (Option Info × List UInt8 × R) := do
  let (ok, word, l) ← iGetWord fuel false word l
  if !ok then pure (none, word, l)
  else do
    let w ← atoi word
    if w = 0 then pure (none, word, l)
    else do
      let (ok, word, l) ← iGetWord fuel false word l
      if !ok then pure (none, word, l)
      else do
        let h ← atoi word
        if h = 0 then pure (none, word, l)
        else if type = 1 ∨ type = 4 then pure (some ⟨type, w, h, 1, bppOf type 1⟩, word, l)
        else do
          let (ok, word, l) ← iGetWord fuel true word l
          if !ok then pure (none, word, l)
          else do
            let m ← atoi word
            if m = 0 then pure (none, word, l) else pure (some ⟨type, w, h, m, bppOf type m⟩, word, l)

/-- `iLoadPnmInternal`, il_pnm.cpp:168-318, with a current image: the result, the current image and the input.  `line` and `word` are the
contents of `LineBuffer` and `SmallBuff` before.  `ilFixImage` is left out as for Targa. -/
def iLoadPnmInternal (fuel : Nat) (junk : Nat → UInt8) (line word : List UInt8) (l : R) : C (Bool × Cur × R) := do
  let (ok, word, l) ← iGetWord fuel false word l
  if !ok then pure (false, .same, l)
  else
    let type := typeOf word
    if type = 0 then pure (false, .same, l)
    else if type = 7 then ilReadPam fuel junk word l
    else do
      let (info, word, l) ← numbers fuel type word l
      match info with
      | none => pure (false, .same, l)
      | some info => do
        let (r, l) ← reader fuel junk info line word l
        finish info r l

/-! ### Saving -/

/-- The decimal digits of a number below `10 ^ k`.  For the `%d` of il_pnm.cpp:808-831. -/
def dec : Nat → Nat → List UInt8
  | 0, _ => []
  | k + 1, n => if n < 10 then [UInt8.ofNat (48 + n)] else dec k (n / 10) ++ [UInt8.ofNat (48 + n % 10)]

/-- `%d` of an `ILuint`: as an `int`, negative from 2^31 on.  il_pnm.cpp:808-831. -/
def printD (n : Nat) : List UInt8 :=
  if n < 2147483648 then dec 10 n else 45 :: dec 10 (4294967296 - n)

/-- `ilprintf`, il_files.cpp:385-399. -/
def ilprintf (s : List UInt8) : WOp := .write s 1 s.length

/-- The bytes of a pixel or its text, il_pnm.cpp:813-838; the component type is `IL_UNSIGNED_BYTE` after the conversion. -/
def pixel (binary : Bool) (data : List UInt8) (i : Nat) (s : List WOp × Nat) : C (List WOp × Nat) :=
  loopN 3 (fun j s => do
    let b ← rd data (i + j)
    if binary then pure (s.1 ++ [.putc b], s.2)
    else
      let t := printD b.toNat ++ [32]
      pure (s.1 ++ [ilprintf t], s.2 + t.length)) s

/-- `LinePos > 65`, il_pnm.cpp:840-843. -/
def endLine (s : List WOp × Nat) : List WOp × Nat := if s.2 > 65 then (s.1 ++ [ilprintf [10]], 0) else s

/-- The loop of il_pnm.cpp:812-844 with three components per pixel. -/
def pixels (binary : Bool) (plane : Nat) (data : List UInt8) : C (List WOp × Nat) :=
  forStep 0 plane 3 (fun i s => do
    let s ← pixel binary data i s
    pure (endLine s)) ([], 0)

/-- The pixels from the top row on, il_pnm.cpp:797-806. -/
def upright (junk : Nat → UInt8) (t : Img) : C (List UInt8) :=
  if t.origin ≠ IL_ORIGIN_UPPER_LEFT then Manip.iGetFlipped junk t else pure t.data

/-- `iSavePnmInternal`, il_pnm.cpp:699-852, for the current image `cur`; `conv` is what `iConvertImage` makes of it (to `IL_RGB`, `IL_UNSIGNED_BYTE`;
`none` if it fails); `binary` is the compression hint.  `FName` is never set (il_pnm.cpp:643), so the type is always that of a PPM file.  The
calls that write; `none` is `IL_FALSE`. -/
def iSavePnmInternal (junk : Nat → UInt8) (binary : Bool) (cur : Img) (conv : Option Img) : C (Option (List WOp)) :=
  if cur.type ≠ IL_UNSIGNED_BYTE ∧ cur.type ≠ IL_UNSIGNED_SHORT then pure none
  else if cur.type = IL_UNSIGNED_SHORT ∧ binary then pure none
  else match conv with
    | none => pure none
    | some t =>
      if t.bpp ≠ 3 then pure none
      else do
        let data ← upright junk t
        let px ← pixels binary t.plane data
        pure (some ([ilprintf [80, if binary then 54 else 51, 10],
          ilprintf (printD t.width ++ [32] ++ printD t.height ++ [10]),
          ilprintf (printD (if cur.type = IL_UNSIGNED_BYTE then 255 else 65535) ++ [10])] ++ px.1))

end DevIL.Pnm
