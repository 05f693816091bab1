import Verif.Model.Image
import Verif.Model.Lump
import Verif.Model.Endian
import Verif.Model.Pal
/-! Model of DevIL/src-IL/src/il_gif.cpp.  The input is a memory lump.  Loops that depend on the input have `fuel`: the code runs for ever
exactly if the outcome is `hang` for every `fuel`. -/
set_option autoImplicit false
namespace DevIL.Gif
open DevIL.Lump DevIL.Image DevIL.Utility DevIL.Endian

/-- `MAX_CODES`, il_gif.cpp:442. -/
abbrev MAX_CODES : Nat := 4096

/-! ### Codes -/

/-- Where the bits come from, il_gif.cpp:444-447: `navail_bytes`, `nbits_left`, `b1`, `byte_buff`, the offset of `pbytes` in it, and the input. -/
structure Src where
  navail : Int
  nbits : Nat
  b1 : UInt8
  buf : List UInt8
  p : Nat
  inp : R
  deriving DecidableEq

/-- The globals of il_gif.cpp:444-447: `curr_size`, `clear`, `ending`, `newcodes`, `top_slot`, `slot`, and the source of the bits.  `success` is never read. -/
structure Z where
  cur : Nat
  clear : Nat
  ending : Nat
  newcodes : Nat
  top : Nat
  slot : Nat
  src : Src
  deriving DecidableEq

/-- The loop that reads a block, il_gif.cpp:486-492 and 512-518: `n` bytes are left to read and `i` are read; false if the input ended. -/
def fillLoop : Nat → Nat → List UInt8 → R → C (Bool × List UInt8 × R)
  | 0, _, buf, l => pure (true, buf, l)
  | n + 1, i, buf, l => do
    let (t, l) ← getc l
    match t with
    | none => pure (false, buf, l)
    | some t => do
      let buf ← wr buf i t
      fillLoop n (i + 1) buf l

/-- Reading the next block if there is no byte left, il_gif.cpp:476-494 and 502-520; false if the function is to return `ending`. -/
def fill (z : Src) : C (Bool × Src) :=
  if z.navail ≤ 0 then do
    let (n, l) ← getc z.inp
    match n with
    | none => pure (false, { z with p := 0, navail := -1, inp := l })
    | some n => do
      let (ok, buf, l) ← fillLoop n.toNat 0 z.buf l
      pure (ok, { z with p := 0, navail := n.toNat, buf := buf, inp := l })
  else pure (true, z)

/-- The next byte into `b1`, il_gif.cpp:476-497 and 502-524. -/
def byte (z : Src) : C (Bool × Src) := do
  let (ok, z) ← fill z
  if !ok then pure (false, z)
  else do
    let b ← rd z.buf z.p
    pure (true, { z with b1 := b, p := z.p + 1, navail := z.navail - 1 })

/-- The loop of il_gif.cpp:501-525; `none` for `return ending`.  `cur` is at most 12, so it runs at most twice. -/
def more (cur : Nat) : Nat → Nat → Src → C (Option Nat × Src)
  | 0, _, _ => .error .hang
  | fuel + 1, ret, z =>
    if cur > z.nbits then do
      let (ok, z) ← byte z
      if !ok then pure (none, z) else more cur fuel (ret ||| z.b1.toNat <<< z.nbits) { z with nbits := z.nbits + 8 }
    else pure (some ret, z)

/-- The first byte of a code, il_gif.cpp:475-498; false for `return ending`. -/
def first (z : Src) : C (Bool × Src) :=
  if z.nbits = 0 then do
    let (ok, z) ← byte z
    pure (ok, if ok then { z with nbits := 8 } else z)
  else pure (true, z)

/-- `get_next_code`, il_gif.cpp:466-529, with `curr_size` bits; `none` for `return ending`. -/
def nextCode (cur : Nat) (z : Src) : C (Option Nat × Src) := do
  let (ok, z) ← first z
  if !ok then pure (none, z)
  else do
    let (r, z) ← more cur 3 (z.b1.toNat >>> (8 - z.nbits)) z
    match r with
    | none => pure (none, z)
    | some ret => pure (some (ret % 2 ^ cur), { z with nbits := z.nbits - cur })

/-- `get_next_code`, il_gif.cpp:466-529. -/
def get_next_code (z : Z) : C (Nat × Z) := do
  let (c, src) ← nextCode z.cur z.src
  pure (c.getD z.ending, { z with src := src })

/-! ### Decoding -/

/-- A graphic control extension, il_gif.h:45-55; the structure with `Used` set is no extension. -/
structure Gfx where
  packed : UInt8
  delay : Nat
  transparent : UInt8
  deriving DecidableEq

/-- `(Gfx.Packed & 0x1C) >> 2`, il_gif.cpp:253, 549. -/
def Gfx.disposal (g : Gfx) : Nat := g.packed.toNat / 4 % 8

/-- `Gfx.Packed & 0x1`, il_gif.cpp:287, 305, 345, 588, 653. -/
def Gfx.hasTransparent (g : Gfx) : Bool := g.packed.toNat % 2 = 1

/-- The pixels that are left as they are: the condition of il_gif.cpp:588, 653. -/
def skips (g : Option Gfx) (c : Nat) : Bool :=
  match g with
  | none => false
  | some g => decide (g.disposal = 1) && decide (g.transparent.toNat = c) && g.hasTransparent

/-- What `GifGetData` is called with: the extension, the offset of `Data` in the image's block, `Width`, `Height`, `Stride` and `PalOffset`.  il_gif.cpp:539. -/
structure Job where
  gfx : Option Gfx
  base : Nat
  w : Nat
  h : Nat
  stride : Nat
  pal : Nat
  deriving DecidableEq

/-- The locals of `GifGetData` and the tables: `suffix`, `prefix`, `oc`, `fc` (only its low byte is used), `i`, `Read`, `j`, the offset of `DataPtr` in the image's
block, and the block.  il_gif.cpp:448-450, 541-546. -/
structure S where
  suffix : List UInt8
  pre : List Int
  oc : Nat
  fc : UInt8
  i : Nat
  read : Nat
  j : Nat
  dp : Nat
  data : List UInt8
  deriving DecidableEq

/-- Storing a pixel `c`, il_gif.cpp:588-591 and 653-656: `i` and the block. -/
def put (k : Job) (c : Nat) (s : S) : C S :=
  if skips k.gfx c then pure { s with i := s.i + 1 }
  else if s.i < k.w then do
    let d ← wr s.data (s.dp + s.i) (UInt8.ofNat (c + k.pal))
    pure { s with data := d, i := s.i + 1 }
  else pure s

/-- `while (sp > stack)`, il_gif.cpp:650-666; the list is the stack, its top first. -/
def popAll (k : Job) : List UInt8 → S → C S
  | [], s => pure s
  | b :: t, s => do
    let s ← put k b.toNat s
    if s.i = k.w then
      let j := (s.j + 1) % k.h
      popAll k t { s with i := 0, read := s.read + 1, j := j, dp := k.base + j * k.stride }
    else popAll k t s

/-- `while (code >= newcodes)` and the push after it, il_gif.cpp:621-637: the last `code` and the stack, its top first; `none` if the function returns
`IL_FALSE`.  The stack limits the number of turns. -/
def expand (newcodes : Nat) (s : S) : Nat → Int → List UInt8 → C (Option (Int × List UInt8))
  | 0, _, _ => .error .hang
  | fuel + 1, code, stk =>
    if (newcodes : Int) ≤ code then
      if stk.length ≥ MAX_CODES then pure none
      else do
        let b ← rd s.suffix code.toNat
        let q ← rd s.pre code.toNat
        expand newcodes s fuel q (b :: stk)
    else if stk.length ≥ MAX_CODES then pure none
    else pure (some (code, UInt8.ofNat (code % 256).toNat :: stk))

/-- The new table entry, il_gif.cpp:638-644, and the size of the next code, 645-649. -/
def learn (c : Nat) (code : Int) (z : Z) (s : S) : C (Z × S) := do
  let (z, s) ← (if z.slot < z.top then do
      let fc := UInt8.ofNat (code % 256).toNat
      let suffix ← wr s.suffix z.slot fc
      let pre ← wr s.pre z.slot (s.oc : Int)
      pure ({ z with slot := z.slot + 1 }, { s with fc := fc, suffix := suffix, pre := pre, oc := c })
    else pure (z, s))
  pure (if z.slot ≥ z.top ∧ z.cur < 12 then { z with top := z.top * 2, cur := z.cur + 1 } else z, s)

/-- The branch of a code that is not `clear`, il_gif.cpp:605-667; `none` if the function returns `IL_FALSE`. -/
def useCode (k : Job) (c : Nat) (z : Z) (s : S) : C (Option (Z × S)) := do
  let code := if c ≥ z.slot then s.oc else c
  let stk := if c ≥ z.slot then [s.fc] else []
  if code ≥ MAX_CODES then pure none
  else do
    let r ← expand z.newcodes s 4098 code stk
    match r with
    | none => pure none
    | some (code, stk) => do
      let (z, s) ← learn c code z s
      let s ← popAll k stk s
      pure (some (z, s))

/-- `while ((c = get_next_code()) == clear)`, il_gif.cpp:581. -/
def skipClears : Nat → Z → C (Nat × Z)
  | 0, _ => .error .hang
  | fuel + 1, z => do
    let (c, z) ← get_next_code z
    if c = z.clear then skipClears fuel z else pure (c, z)

/-- The pixel after a `clear`, il_gif.cpp:584-603; `none` if the function returns `IL_FALSE`. -/
def restart (k : Job) (c : Nat) (z : Z) (s : S) : C (Option S) := do
  let c := if c ≥ z.slot then 0 else c
  let s ← put k c { s with oc := c, fc := UInt8.ofNat c }
  if s.i = k.w then
    if s.j + 1 ≥ k.h then pure none
    else pure (some { s with dp := s.dp + k.stride, i := 0, read := s.read + 1, j := s.j + 1 })
  else pure (some s)

/-- The loop of `GifGetData`, il_gif.cpp:575-668: its result, the image's block and the globals. -/
def dataLoop (k : Job) (size : Nat) : Nat → Z → S → C (Bool × List UInt8 × Z)
  | 0, _, _ => .error .hang
  | fuel + 1, z, s => do
    let (c, z) ← get_next_code z
    if c = z.ending ∨ k.h ≤ s.read then pure (true, s.data, z)
    else if c = z.clear then do
      let (c, z) ← skipClears fuel { z with cur := size + 1, slot := z.newcodes, top := 2 ^ (size + 1) }
      if c = z.ending then pure (true, s.data, z)
      else do
        let r ← restart k c z s
        match r with
        | none => pure (false, s.data, z)
        | some s => dataLoop k size fuel z s
    else do
      let r ← useCode k c z s
      match r with
      | none => pure (false, s.data, z)
      | some (z, s) => dataLoop k size fuel z s

/-- The uninitialised contents of `suffix` and `prefix`, il_gif.cpp:558-559. -/
structure Junk where
  suffix : Nat → UInt8
  pre : Nat → Int

/-- The globals at the start of the loop, il_gif.cpp:566-571; `buf` is the content of `byte_buff`, `b1` is not read before it is set. -/
def startZ (size : Nat) (buf : List UInt8) (l : R) : Z :=
  { cur := size + 1, clear := 2 ^ size, ending := 2 ^ size + 1, newcodes := 2 ^ size + 2, top := 2 ^ (size + 1), slot := 2 ^ size + 2,
    src := { navail := 0, nbits := 0, b1 := 0, buf := buf, p := 0, inp := l } }

/-- The locals at the start of the loop, il_gif.cpp:545-546, 557-559, 572-573. -/
def startS (junk : Junk) (base : Nat) (data : List UInt8) : S :=
  { suffix := (List.range (MAX_CODES + 1)).map junk.suffix, pre := (List.range (MAX_CODES + 1)).map junk.pre, oc := 0, fc := 0, i := 0, read := 0, j := 0,
    dp := base, data := data }

/-- `GifGetData`, il_gif.cpp:539-671; `data` is the image's block: the result, the block, `byte_buff` and the input.  On `IL_FALSE` the caller clears the block
(il_gif.cpp:333), so its content is not followed there. -/
def GifGetData (fuel : Nat) (junk : Junk) (k : Job) (data buf : List UInt8) (l : R) : C (Bool × List UInt8 × List UInt8 × R) := do
  let (size, l) ← getc l
  match size with
  | none => pure (false, data, buf, l)
  | some size =>
    if size < 2 ∨ 9 < size then pure (false, data, buf, l)
    else do
      let (ok, data, z) ← dataLoop k size.toNat fuel (startZ size.toNat buf l) (startS junk k.base data)
      pure (ok, data, z.src.buf, z.src.inp)

/-! ### Images -/

/-- One pass of `RemoveInterlace`, il_gif.cpp:695-713: rows from `start` on, every `step`th; `j` is the next row of the source. -/
def pass (bps height start step : Nat) (src : List UInt8) (s : Nat × List UInt8) : C (Nat × List UInt8) :=
  forStep start height step (fun i s => do
    let d ← memcpy s.2 (i * bps) src (s.1 * bps) bps
    pure (s.1 + 1, d)) s

/-- `RemoveInterlace`, il_gif.cpp:684-719, on the image's block. -/
def RemoveInterlace (junk : Nat → UInt8) (m : Img) (offY : Nat) : C Img := do
  let s ← pass m.bps offY 0 1 m.data (0, alloc junk m.size)
  let s ← pass m.bps m.height offY 8 m.data s
  let s ← pass m.bps m.height (4 + offY) 8 m.data s
  let s ← pass m.bps m.height (2 + offY) 4 m.data s
  let s ← pass m.bps m.height (1 + offY) 2 m.data s
  pure { m with data := s.2 }

/-- `ConvertTransparent`, il_gif.cpp:723-753; `none` if it returns `IL_FALSE`. -/
def ConvertTransparent (junk : Nat → UInt8) (pal : Option Pal) (trans : UInt8) : C (Option Pal) :=
  match pal with
  | none => pure none
  | some pal =>
    if pal.size = 0 then pure none
    else do
      let d ← loopN ((pal.size + 2) / 3) (fun k d => do
        let r ← rd pal.data (3 * k)
        let d ← wr d (4 * k) r
        let g ← rd pal.data (3 * k + 1)
        let d ← wr d (4 * k + 1) g
        let b ← rd pal.data (3 * k + 2)
        let d ← wr d (4 * k + 2) b
        wr d (4 * k + 3) (if k = trans.toNat then 0 else 255)) (alloc junk (pal.size / 3 * 4))
      pure (some ⟨d, pal.size / 3 * 4, IL_PAL_RGBA32⟩)

/-- The old colours in front of the new ones, il_gif.cpp:216-220: the block of 768 bytes. -/
def keepPal (junk : Nat → UInt8) (prev : Option Pal) : C (List UInt8) :=
  match prev with
  | none => pure (alloc junk 768)
  | some p => memcpy (alloc junk 768) 0 p.data 0 p.size

/-- `iGetPalette`, il_gif.cpp:189-228; `prev` is the palette of the image before if it is to be used.  `none` if it returns `IL_FALSE`. -/
def iGetPalette (junk : Nat → UInt8) (info : UInt8) (prev : Option Pal) (l : R) : C (Option Pal × R) := do
  let old := match prev with | none => 0 | some p => p.size
  let size := 2 ^ (info.toNat % 8 + 1) * 3 + old
  if size > 768 then pure (none, l)
  else do
    let d ← keepPal junk prev
    let (n, d, l) ← readAt l d old 1 size
    if n ≠ size then pure (none, l) else pure (some ⟨d, size, IL_PAL_RGB24⟩, l)

/-- `iCopyPalette`, il_pal.cpp:545-560; `none` for `IL_FALSE`. -/
def iCopyPalette (src : Option Pal) : C (Option Pal) :=
  match src with
  | none => pure none
  | some p =>
    if p.size = 0 then pure none
    else if p.size ≤ p.data.length then pure (some ⟨p.data.take p.size, p.size, p.type⟩)
    else .error .oobRead

/-- The data blocks of an extension, il_gif.cpp:424-428; false if the function returns `IL_FALSE`. -/
def skipBlocks : Nat → R → C (Bool × R)
  | 0, _ => .error .hang
  | fuel + 1, l => do
    let (n, l) ← getc l
    match n with
    | none => pure (false, l)
    | some n => do
      let (_, l) ← seek l n.toNat SEEK_CUR
      if !eof l ∧ n ≠ 0 then skipBlocks fuel l else pure (true, l)

/-- The body of a graphic control extension, il_gif.cpp:409-413. -/
def readGfx (big : Bool) (junk : Nat → UInt8) (l : R) : C (Gfx × R) := do
  let (_, l) ← getb l
  let (packed, l) ← getb l
  let (delay, l) ← GetLittleUShort big junk l
  let (transparent, l) ← getb l
  let (_, l) ← getb l
  pure (⟨packed, delay.toNat, transparent⟩, l)

/-- `SkipExtensions`, il_gif.cpp:384-439: the result, the extension and the input. -/
def SkipExtensions (big : Bool) (junk : Nat → UInt8) : Nat → Option Gfx → R → C (Bool × Option Gfx × R)
  | 0, _, _ => .error .hang
  | fuel + 1, g, l => do
    let (code, l) ← getc l
    match code with
    | none => pure (false, g, l)
    | some code =>
      if code ≠ 0x21 then do
        let (_, l) ← seek l (-1) SEEK_CUR
        pure (true, g, l)
      else do
        let (label, l) ← getc l
        match label with
        | none => pure (false, g, l)
        | some label =>
          if label = 0xF9 then do
            let (x, l) ← readGfx big junk l
            if eof l then pure (false, g, l) else SkipExtensions big junk fuel (some x) l
          else do
            let (ok, l) ← skipBlocks fuel l
            if !ok then pure (false, g, l) else if eof l then pure (false, g, l) else SkipExtensions big junk fuel g l

/-- `GIFHEAD`, il_gif.h:25-33. -/
structure Head where
  sig : List UInt8
  width : Nat
  height : Nat
  info : UInt8
  background : UInt8
  deriving DecidableEq

/-- `IMAGEDESC` after the separator, il_gif.h:35-43. -/
structure Desc where
  offX : Nat
  offY : Nat
  width : Nat
  height : Nat
  info : UInt8
  deriving DecidableEq

/-- An image of the chain with the fields the loader sets.  il_gif.cpp:311-312, 341. -/
structure Frame where
  img : Img
  pal : Option Pal
  offX : Nat
  offY : Nat
  duration : Nat
  deriving DecidableEq

/-- The image descriptor after the separator, il_gif.cpp:259-263. -/
def readDesc (big : Bool) (junk : Nat → UInt8) (l : R) : C (Desc × R) := do
  let (x, l) ← GetLittleUShort big junk l
  let (y, l) ← GetLittleUShort big junk l
  let (w, l) ← GetLittleUShort big junk l
  let (h, l) ← GetLittleUShort big junk l
  let (info, l) ← getb l
  pure (⟨x.toNat, y.toNat, w.toNat, h.toNat, info⟩, l)

/-- The colour around the frame, il_gif.cpp:287-290 and 305-308. -/
def backdrop (g : Option Gfx) (bg : UInt8) : UInt8 :=
  match g with
  | some g => if g.hasTransparent then g.transparent else bg
  | none => bg

/-- `DisposalMethod`, il_gif.cpp:245, 252-253. -/
def disposalOf (g : Option Gfx) : Nat := match g with | none => 1 | some g => g.disposal

/-- Taking the interlacing out of the image before, il_gif.cpp:294-297, and out of the last one, 363-366. -/
def straighten (junk : Nat → UInt8) (info : UInt8) (f : Frame) : C Frame :=
  if info.toNat / 64 % 2 = 1 then do
    let m ← RemoveInterlace junk f.img f.offY
    pure { f with img := m }
  else pure f

/-- The block of a further image, il_gif.cpp:281-292. -/
def nextData (g : Option Gfx) (bg : UInt8) (m : Img) (fresh : List UInt8) : C (List UInt8) :=
  if disposalOf g = 2 ∨ disposalOf g = 3 then
    if m.size ≤ fresh.length then pure (List.replicate m.size (backdrop g bg) ++ fresh.drop m.size) else .error .oobWrite
  else if disposalOf g = 1 ∨ disposalOf g = 0 then memcpy fresh 0 m.data 0 m.size
  else pure fresh

/-- A further image, il_gif.cpp:271-302: the finished images and the new one.  `ilNewImage` succeeds. -/
def nextFrame (junk : Nat → UInt8) (g : Option Gfx) (bg old : UInt8) (head cur : Frame) : C (Option (Frame × Frame)) := do
  match ← ilNewImage junk head.img.width head.img.height 1 1 1 with
  | none => pure none
  | some m => do
    let d ← nextData g bg cur.img m.data
    let cur ← straighten junk old cur
    pure (some (cur, { img := { m with data := d, format := IL_COLOUR_INDEX, origin := IL_ORIGIN_UPPER_LEFT }, pal := none, offX := 0, offY := 0, duration := 0 }))

/-- The palette of an image, il_gif.cpp:313-329; `prev` is the image before.  The result has `PalOffset`. -/
def framePal (junk : Nat → UInt8) (g : Option Gfx) (global : Option Pal) (info : UInt8) (prev : Option Frame) (l : R) : C (Option Pal × Nat × R) :=
  if info.toNat / 128 % 2 = 1 then
    let use := if disposalOf g = 1 then (prev.bind (·.pal)) else none
    do
      let (p, l) ← iGetPalette junk info use l
      pure (p, (match use with | none => 0 | some p => p.size), l)
  else do
    let p ← iCopyPalette global
    pure (p, 0, l)

/-- The duration and the transparent colour, il_gif.cpp:339-349; `none` if the function fails. -/
def control (junk : Nat → UInt8) (g : Option Gfx) (f : Frame) : C (Option Frame) :=
  match g with
  | none => pure (some f)
  | some g =>
    if g.hasTransparent then do
      let p ← ConvertTransparent junk f.pal g.transparent
      match p with
      | none => pure none
      | some p => pure (some { f with duration := g.delay * 10, pal := some p })
    else pure (some { f with duration := g.delay * 10 })

/-- The byte after the data, il_gif.cpp:351-356; false if the function fails. -/
def terminator (l : R) : C (Bool × R) := do
  let (c, l) ← getc l
  match c with
  | none => pure (false, l)
  | some c => if c ≠ 0 then seek l (-1) SEEK_CUR >>= fun r => pure (true, r.2) else pure (true, l)

/-- The palette, the pixels and the rest of one image, il_gif.cpp:311-356; the image before it is `prev`.  The frame, whether the function goes on,
`byte_buff` and the input.  `ilSetError` is left out. -/
def oneImage (fuel : Nat) (junk : Nat → UInt8) (jz : Junk) (g : Option Gfx) (global : Option Pal) (desc : Desc) (prev : Option Frame) (cur : Frame) (buf : List UInt8)
    (l : R) : C (Bool × Frame × List UInt8 × R) := do
  let cur := { cur with offX := desc.offX, offY := desc.offY }
  let (pal, off, l) ← framePal junk g global desc.info prev l
  match pal with
  | none => pure (false, cur, buf, l)
  | some pal => do
    let cur := { cur with pal := some pal }
    let (ok, data, buf, l) ← GifGetData fuel jz ⟨g, desc.offX + desc.offY * cur.img.width, desc.width, desc.height, cur.img.width, off⟩ cur.img.data buf l
    if !ok then pure (false, { cur with img := { cur.img with data := List.replicate cur.img.size 0 } }, buf, l)
    else do
      let r ← control junk g { cur with img := { cur.img with data := data } }
      match r with
      | none => pure (false, { cur with img := { cur.img with data := data } }, buf, l)
      | some cur => do
        let (ok, l) ← terminator l
        pure (ok, cur, buf, l)

/-- The state of the loop of `GetImages`: the finished images, the last one, whether no image has been read, `OldImageDesc.ImageInfo`, `Gfx`, `byte_buff` and
the input.  il_gif.cpp:233-242. -/
structure G where
  done : List Frame
  cur : Frame
  none_ : Bool
  old : UInt8
  gfx : Option Gfx
  buf : List UInt8
  inp : R
  deriving DecidableEq

/-- The images of the chain.  il_gif.cpp:273. -/
def G.all (s : G) : List Frame := s.done ++ [s.cur]

/-- The end of `GetImages`, il_gif.cpp:362-371. -/
def lastly (junk : Nat → UInt8) (s : G) : C (Bool × List Frame × R) := do
  let cur ← straighten junk s.old s.cur
  pure (!s.none_, s.done ++ [cur], s.inp)

/-- The image that is read next, il_gif.cpp:271-309: with the finished ones. -/
def openFrame (junk : Nat → UInt8) (bg : UInt8) (s : G) : C (Option G) :=
  if s.none_ then
    pure (some { s with none_ := false, cur := { s.cur with img := { s.cur.img with data := List.replicate s.cur.img.size (backdrop s.gfx bg) } } })
  else do
    let r ← nextFrame junk s.gfx bg s.old (s.done.headD s.cur) s.cur
    match r with
    | none => pure none
    | some (cur, next) => pure (some { s with done := s.done ++ [cur], cur := next })

/-- The loop of `GetImages`, il_gif.cpp:244-360: its result and the chain. -/
def imagesLoop (big : Bool) (junk : Nat → UInt8) (jz : Junk) (global : Option Pal) (bg : UInt8) : Nat → G → C (Bool × List Frame × R)
  | 0, _ => .error .hang
  | fuel + 1, s =>
    if eof s.inp then lastly junk s
    else do
      let (ok, gfx, l) ← SkipExtensions big junk fuel s.gfx s.inp
      if !ok then pure (false, s.all, l)
      else do
        let (sep, l) ← getb l
        if sep ≠ 0x2C then lastly junk { s with gfx := gfx, inp := l }
        else do
          let (desc, l) ← readDesc big junk l
          if eof l then lastly junk { s with gfx := gfx, inp := l }
          else do
            let r ← openFrame junk bg { s with gfx := gfx, inp := l }
            match r with
            | none => pure (false, s.all, l)
            | some s => do
              let (ok, cur, buf, l) ← oneImage fuel junk jz s.gfx global desc s.done.getLast? s.cur s.buf l
              if !ok then pure (false, s.done ++ [cur], l)
              else imagesLoop big junk jz global bg fuel { s with cur := cur, buf := buf, inp := l, old := desc.info, gfx := none }

/-- Reading the header, il_gif.cpp:148-153; a short signature keeps unknown bytes. -/
def readHead (big : Bool) (junk : Nat → UInt8) (l : R) : C (Head × R) := do
  let (_, sig, l) ← readAt l (alloc junk 6) 0 1 6
  let (w, l) ← GetLittleUShort big junk l
  let (h, l) ← GetLittleUShort big junk l
  let (info, l) ← getb l
  let (bg, l) ← getb l
  let (_, l) ← getb l
  pure (⟨sig, w.toNat, h.toNat, info, bg⟩, l)

/-- `strnicmp(Header.Sig, "GIF87A", 6)` and the same for 89, il_gif.cpp:155-164. -/
def goodSig (sig : List UInt8) : Bool :=
  (sig[0]? = some 71 || sig[0]? = some 103) && (sig[1]? = some 73 || sig[1]? = some 105) && (sig[2]? = some 70 || sig[2]? = some 102) && sig[3]? = some 56 &&
    (sig[4]? = some 55 || sig[4]? = some 57) && (sig[5]? = some 65 || sig[5]? = some 97)

/-- The global palette, il_gif.cpp:171-175: false if the function fails. -/
def globalPal (junk : Nat → UInt8) (info : UInt8) (l : R) : C (Bool × Option Pal × R) :=
  if info.toNat / 128 % 2 = 1 then do
    let (p, l) ← iGetPalette junk info none l
    pure (p.isSome, p, l)
  else pure (true, none, l)

/-- `iLoadGifInternal`, il_gif.cpp:134-186, with a current image: the result, the images of the chain, starting with the current one (`[]` if it is as before), and the
input.  `buf` is the content of `byte_buff` before.  `ilFixImage` is left out as for Targa. -/
def iLoadGifInternal (fuel : Nat) (big : Bool) (junk : Nat → UInt8) (jz : Junk) (buf : List UInt8) (l : R) : C (Bool × List Frame × R) := do
  let (h, l) ← readHead big junk l
  if !goodSig h.sig then pure (false, [], l)
  else match ← ilInitImage junk h.width h.height 1 1 IL_COLOUR_INDEX IL_UNSIGNED_BYTE none with
    | none => pure (false, [], l)
    | some m => do
      let f : Frame := { img := { m with origin := IL_ORIGIN_UPPER_LEFT }, pal := none, offX := 0, offY := 0, duration := 0 }
      let (ok, pal, l) ← globalPal junk h.info l
      if !ok then pure (false, [f], l)
      else imagesLoop big junk jz pal h.background fuel { done := [], cur := f, none_ := true, old := 0, gfx := none, buf := buf, inp := l }

end DevIL.Gif
