import Verif.Model.Games
import Verif.Model.Manip
import Verif.Model.Pnm
/-! Model of DevIL/src-IL/src/il_hdr.cpp: Radiance pictures.
An image is bound; allocation and writing succeed; `ilFixImage` and the cache hint are left out (as in Model/Games.lean).  Arithmetic of
floats is not modelled: `enc` stands for `float2rgbe` (il_hdr.cpp:417-436), which makes four bytes of the twelve bytes of a pixel, and `flt` for
the conversion back (il_hdr.cpp:242-253), which makes twelve bytes of four.  The theorems hold for every choice of the two. -/
set_option autoImplicit false
namespace DevIL.Hdr

open DevIL.Lump (WOp)
open DevIL.Detect DevIL.Image DevIL.Games
open DevIL.Pnm (ilprintf printD isdigit val)
open DevIL.Register (txt)

/-- Four bytes of a pixel: red, green, blue, exponent.  il_hdr.cpp:417-436. -/
abbrev Rgbe := UInt8 × UInt8 × UInt8 × UInt8

section
variable {σ : Type} (o : Ops σ) (junk : Nat → UInt8)

/-! ### The header -/

/-- The loop that looks for an empty line, il_hdr.cpp:88-95; `a` is the byte before.  `none` is `IL_FALSE`. -/
def skip : Nat → UInt8 → σ → C (Option σ)
  | 0, _, _ => .error .hang
  | fuel + 1, a, s => do
    let (g, _, s) ← o.read s 1 1
    match g with
    | [] => pure none
    | b :: _ => if b = 10 ∧ a = 10 then pure (some s) else skip fuel b s

/-- The loop that reads the line with the dimensions into `buff`, il_hdr.cpp:98-107; `a` is the byte read last.  `none` is `IL_FALSE`. -/
def line : Nat → List UInt8 → Nat → UInt8 → σ → C (Option (List UInt8 × Nat × σ))
  | 0, _, _, _, _ => .error .hang
  | fuel + 1, buff, count, a, s =>
    if a = 10 then pure (some (buff, count, s))
    else if count ≥ 80 then pure none
    else do
      let buff ← wr buff count a
      let (g, _, s) ← o.read s 1 1
      match g with
      | [] => pure none
      | a :: _ => line fuel buff (count + 1) a s

/-- White space for `sscanf`, il_hdr.cpp:120. -/
def space (c : UInt8) : Bool := c = 32 || (9 ≤ c && c ≤ 13)

/-- `%2s` in a format for `sscanf`: what is left of the text, or `none`.  il_hdr.cpp:120. -/
def word2 (t : List UInt8) : Option (List UInt8) :=
  match t.dropWhile space with
  | [] => none
  | _ :: [] => some []
  | _ :: b :: t => if space b then some (b :: t) else some t

/-- The digits of a number for `%d`, with its sign.  A number that is no `int` is undefined behaviour.  il_hdr.cpp:120. -/
def digits (neg : Bool) (t : List UInt8) : C (Option (Nat × List UInt8)) :=
  let ds := t.takeWhile isdigit
  if ds = [] then pure none
  else if val ds ≥ 2147483648 then .error .overflow
  else pure (some (if neg then Lump.ofInt (-(val ds : Int)) else val ds, t.dropWhile isdigit))

/-- `%d` in a format for `sscanf`, read as an `ILuint`.  il_hdr.cpp:120. -/
def scanD (t : List UInt8) : C (Option (Nat × List UInt8)) :=
  match t.dropWhile space with
  | [] => pure none
  | c :: t => if c = 45 then digits true t else if c = 43 then digits false t else digits false (c :: t)

/-- `sscanf(buff, "%2s %d %2s %d", y, &Height, x, &Width)`, il_hdr.cpp:120: `none` for a number that is not set. -/
def dims (t : List UInt8) : C (Option Nat × Option Nat) :=
  match word2 t with
  | none => pure (none, none)
  | some t => do
    match ← scanD t with
    | none => pure (none, none)
    | some (h, t) =>
      match word2 t with
      | none => pure (some h, none)
      | some t => do
        match ← scanD t with
        | none => pure (some h, none)
        | some (w, _) => pure (some h, some w)

/-- `HDRHEADER`, il_hdr.h:24-28. -/
structure Head where
  sig : List UInt8
  width : Option Nat
  height : Option Nat

/-- `iGetHdrHead`, il_hdr.cpp:68-123.  `none` is `IL_FALSE`; how far the input has been read by then is left out. -/
def iGetHdrHead (fuel : Nat) (s : σ) : C (Option (Head × σ)) := do
  let (_, sig, s) ← into o s (alloc junk 10) 1 10
  let (g, _, s) ← o.read s 1 1
  match g with
  | [] => pure none
  | a :: _ => do
    match ← skip o fuel a s with
    | none => pure none
    | some s => do
      let (g, _, s) ← o.read s 1 1
      match g with
      | [] => pure none
      | a :: _ => do
        match ← line o fuel (alloc junk 81) 0 a s with
        | none => pure none
        | some (buff, count, s) => do
          let buff ← wr buff count 0
          let (h, w) ← dims (buff.takeWhile (· ≠ 0))
          pure (some (⟨sig, w, h⟩, s))

/-- `iCheckHdr`, il_hdr.cpp:144-149. -/
def iCheckHdr (sig : List UInt8) : Bool :=
  same sig [0x23, 0x3F, 0x72, 0x61, 0x64, 0x69, 0x61, 0x6E, 0x63, 0x65] || same sig [0x23, 0x3F, 0x72, 0x67, 0x62, 0x65]

/-! ### Scan lines -/

/-- `igetc()` stored into an `ILuint`: -1 becomes 2^32 - 1.  il_hdr.cpp:267-270. -/
def geti (s : σ) : C (Nat × σ) := do
  let (b, s) ← o.getc s
  pure (match b with | some b => b.toNat | none => 4294967295, s)

/-- The state inside a channel: `j`, the scan line, the input.  il_hdr.cpp:281-305. -/
structure Chan (σ : Type) where
  j : Nat
  buf : List UInt8
  inp : σ

/-- One piece of a channel, il_hdr.cpp:284-304; `runner` is at `4 * j + k`.  The loops run `min t (length - j)` times. -/
def piece (length k : Nat) (s : Chan σ) : C (Chan σ) := do
  let (t, inp) ← geti o s.inp
  if t > 128 then do
    let (v, inp) ← getb o inp
    let n := min (t % 128) (length - s.j)
    let buf ← loopN n (fun i buf => wr buf ((s.j + i) * 4 + k) v) s.buf
    pure ⟨s.j + n, buf, inp⟩
  else
    loopN (min t (length - s.j)) (fun _ s => do
      let (v, inp) ← getb o s.inp
      let buf ← wr s.buf (s.j * 4 + k) v
      pure ⟨s.j + 1, buf, inp⟩) { s with inp := inp }

/-- The state inside an old-style scan line: `read`, `shift`, the scan line, the input, and `r`, `g`, `b`, `e`.  il_hdr.cpp:311-348. -/
structure Old (σ : Type) where
  read : Nat
  shift : Nat
  buf : List UInt8
  inp : σ
  px : Nat × Nat × Nat × Nat

/-- A four-byte value of an old-style scan line, il_hdr.cpp:267-270, 316-319. -/
def next4 (s : σ) : C ((Nat × Nat × Nat × Nat) × σ) := do
  let (r, s) ← geti o s
  let (g, s) ← geti o s
  let (b, s) ← geti o s
  let (e, s) ← geti o s
  pure ((r, g, b, e), s)

/-- Storing a pixel, il_hdr.cpp:339-346. -/
def put4 (s : Old σ) (p : Nat × Nat × Nat × Nat) : C (Old σ) := do
  let d ← wr s.buf (s.read * 4) (UInt8.ofNat p.1)
  let d ← wr d (s.read * 4 + 1) (UInt8.ofNat p.2.1)
  let d ← wr d (s.read * 4 + 2) (UInt8.ofNat p.2.2.1)
  let d ← wr d (s.read * 4 + 3) (UInt8.ofNat p.2.2.2)
  pure { s with read := s.read + 1, shift := 0, buf := d, px := p }

/-- Repeating the pixel before, il_hdr.cpp:325-336.  A shift by 32 or more is undefined. -/
def repeat4 (w : Nat) (s : Old σ) (e : Nat) : C (Old σ) :=
  if s.shift ≥ 32 then .error .overflow
  else do
    let (read, buf) ← loopN (min (u32 (e * 2 ^ s.shift)) (w - s.read)) (fun _ (t : Nat × List UInt8) =>
      if t.1 = 0 then .error .oobRead
      else do
        let d ← memcpy t.2 (t.1 * 4) t.2 (t.1 * 4 - 4) 4
        pure (t.1 + 1, d)) (s.read, s.buf)
    pure { s with read := read, shift := s.shift + 8, buf := buf }

/-- The next value of an old-style scan line: the first has been read already.  il_hdr.cpp:315-322. -/
def fetch (s : Old σ) : C ((Nat × Nat × Nat × Nat) × σ) := if s.read ≠ 0 then next4 o s.inp else pure (s.px, s.inp)

/-- One round of the loop for old-style scan lines, il_hdr.cpp:315-347. -/
def oldStep (w : Nat) (s : Old σ) : C (Old σ) := do
  let (p, inp) ← fetch o s
  let s := { s with inp := inp, px := p }
  if p.1 = 1 ∧ p.2.1 = 1 ∧ p.2.2.1 = 1 then repeat4 w s p.2.2.2
  else put4 s p

/-- `ReadScanline`, il_hdr.cpp:263-349. -/
def readScanline (fuel w : Nat) (buf : List UInt8) (s : σ) : C (List UInt8 × σ) := do
  let (p, s) ← next4 o s
  if p.1 = 2 ∧ p.2.1 = 2 then do
    let length := min (u32 (p.2.2.1 * 256) ||| p.2.2.2) w
    loopN 4 (fun k (t : List UInt8 × σ) => do
      let c ← whileF (fun c : Chan σ => decide (c.j < length)) (piece o length k) fuel ⟨0, t.1, t.2⟩
      pure (c.buf, c.inp)) (buf, s)
  else do
    let r ← whileF (fun c : Old σ => decide (c.read < w)) (oldStep o w) fuel ⟨0, 0, buf, s, p⟩
    pure (r.buf, r.inp)

/-- The state of the loop over the scan lines: `data` as an offset in bytes, the pixel block, `scanline`, the input.  il_hdr.cpp:227-256. -/
structure Rows (σ : Type) where
  off : Nat
  data : List UInt8
  buf : List UInt8
  inp : σ

/-- One scan line, il_hdr.cpp:230-255. -/
def row (flt : Rgbe → List UInt8) (fuel w : Nat) (s : Rows σ) : C (Rows σ) := do
  let (buf, inp) ← readScanline o fuel w s.buf s.inp
  let (off, data) ← forStep 0 (u32 (4 * w)) 4 (fun j (t : Nat × List UInt8) => do
    let e ← rd buf (j + 3)
    let r ← rd buf j
    let g ← rd buf (j + 1)
    let b ← rd buf (j + 2)
    let d ← memcpy t.2 t.1 (flt (r, g, b, e)) 0 12
    pure (t.1 + 12, d)) (s.off, s.data)
  pure ⟨off, data, buf, inp⟩

/-- `ilTexImage(w, h, 1, 3, IL_RGB, IL_FLOAT, NULL)`, il_hdr.cpp:218-221, il_devil.cpp:126-165. -/
def texF (w h : Nat) : Img :=
  let g := geometry w h 1 3 IL_RGB IL_FLOAT []
  { g with data := alloc junk g.size, origin := IL_ORIGIN_UPPER_LEFT }

/-- `iLoadHdrInternal`, il_hdr.cpp:195-261.  `fuel` bounds the rounds of each loop that depends on the input. -/
def iLoadHdrInternal (flt : Rgbe → List UInt8) (fuel : Nat) (cur : Loaded) (s : σ) : C (Bool × Loaded × σ) := do
  match ← iGetHdrHead o junk fuel s with
  | none => pure (false, cur, s)
  | some (h, s) =>
    if !iCheckHdr h.sig then pure (false, cur, s)
    else match h.width, h.height with
      | some w, some h => do
        let m := texF junk w h
        let r ← loopN h (fun _ t => row o flt fuel w t) ⟨0, m.data, alloc junk (u32 (w * 4)), s⟩
        pure (true, ({ m with data := r.data }, none), r.inp)
      | _, _ => .error .uninit

end

/-! ### Saving -/

/-- Extending a run, il_hdr.cpp:525-530. -/
def grow (d : List UInt8) (n beg : Nat) : Nat → Nat → C Nat
  | 0, _ => .error .hang
  | fuel + 1, run =>
    if beg + run < n ∧ run < 127 then do
      let a ← rd d beg
      let b ← rd d (beg + run)
      if a = b then grow d n beg fuel (run + 1) else pure run
    else pure run

/-- `beg_run`, `run_count` and `old_run_count`, il_hdr.cpp:514-531. -/
structure Find where
  beg : Nat
  run : Nat
  old : Nat

/-- One round of the loop that looks for a run, il_hdr.cpp:523-530. -/
def findStep (d : List UInt8) (n : Nat) (f : Find) : C Find := do
  let run ← grow d n (f.beg + f.run) 128 1
  pure ⟨f.beg + f.run, run, f.run⟩

/-- `cur` and what has been written, il_hdr.cpp:514-560. -/
structure Enc where
  cur : Nat
  out : List WOp

/-- A run, il_hdr.cpp:534-537, 554-557. -/
def putRun (d : List UInt8) (at_ n : Nat) (out : List WOp) : C (List WOp) := do
  let v ← rd d at_
  pure (out ++ [.write [UInt8.ofNat (128 + n), v] 2 1])

/-- Up to 128 bytes as they are, il_hdr.cpp:542-550. -/
def putLit (d : List UInt8) (beg : Nat) (s : Enc) : C Enc :=
  let n := min (beg - s.cur) 128
  if s.cur + n ≤ d.length then
    pure ⟨s.cur + n, s.out ++ [.write [UInt8.ofNat n] 1 1, .write ((d.drop s.cur).take n) n 1]⟩
  else .error .oobRead

/-- One round of `RGBE_WriteBytes_RLE`, il_hdr.cpp:519-559. -/
def encStep (d : List UInt8) (n : Nat) (s : Enc) : C Enc := do
  let f ← whileF (fun f : Find => decide (f.run < 4 ∧ f.beg < n)) (findStep d n) (n + 2) ⟨s.cur, 0, 0⟩
  let s ← if f.old > 1 ∧ f.old = f.beg - s.cur then do
      let out ← putRun d s.cur f.old s.out
      pure ⟨f.beg, out⟩
    else pure s
  let s ← whileF (fun s : Enc => decide (s.cur < f.beg)) (putLit d f.beg) (n + 1) s
  if f.run ≥ 4 then do
    let out ← putRun d f.beg f.run s.out
    pure ⟨s.cur + f.run, out⟩
  else pure s

/-- `RGBE_WriteBytes_RLE(data, numbytes)`, il_hdr.cpp:511-563.  Each round of the loop writes at least one byte, so there are no more than `numbytes`. -/
def writeRle (d : List UInt8) (n : Nat) (out : List WOp) : C (List WOp) := do
  let s ← whileF (fun s : Enc => decide (s.cur < n)) (encStep d n) (n + 1) ⟨0, out⟩
  pure s.out

/-- The twelve bytes of a pixel, il_hdr.cpp:497, 631. -/
def pixel (d : List UInt8) (off : Nat) : C (List UInt8) :=
  if off + 12 ≤ d.length then pure ((d.drop off).take 12) else .error .oobRead

/-- `RGBE_WriteHeader`, il_hdr.cpp:464-486, with `valid` 0. -/
def header (w h : Nat) : List WOp :=
  [ilprintf (txt ['#', '?', 'R', 'G', 'B', 'E', '\n']),
   ilprintf (txt ['F', 'O', 'R', 'M', 'A', 'T', '=', '3', '2', '-', 'b', 'i', 't', '_', 'r', 'l', 'e', '_', 'r', 'g', 'b', 'e', '\n', '\n']),
   ilprintf (txt ['-', 'Y', ' '] ++ printD h ++ txt [' ', '+', 'X', ' '] ++ printD w ++ [10])]

/-- `RGBE_WritePixels`, il_hdr.cpp:492-503: the number of pixels is an `int`. -/
def writePixels (enc : List UInt8 → Rgbe) (data : List UInt8) (n : Nat) : C (List WOp) :=
  loopN (Lump.toInt n).toNat (fun i out => do
    let p ← pixel data (i * 12)
    let (r, g, b, e) := enc p
    pure (out ++ [.write [r, g, b, e] 4 1])) []

/-- One scan line, il_hdr.cpp:619-647; `y` counts from the top.  The four parts of `buffer` are passed to `RGBE_WriteBytes_RLE` as blocks of their
own, so that a read outside one is a fault. -/
def writeRow (enc : List UInt8 → Rgbe) (w : Nat) (data : List UInt8) (y : Nat) (s : List UInt8 × List WOp) : C (List UInt8 × List WOp) := do
  let buf ← loopN w (fun i b => do
    let p ← pixel data ((y * w + i) * 12)
    let (r, g, bl, e) := enc p
    let b ← wr b i r
    let b ← wr b (i + w) g
    let b ← wr b (i + 2 * w) bl
    wr b (i + 3 * w) e) s.1
  let out ← loopN 4 (fun i out => writeRle ((buf.drop (i * w)).take w) w out)
    (s.2 ++ [.write [2, 2, UInt8.ofNat (w / 256), UInt8.ofNat (w % 256)] 4 1])
  pure (buf, out)

/-- The pixels from the top row on, il_hdr.cpp:598-600. -/
def upright (t : Img) : C (List UInt8) :=
  if t.origin = IL_ORIGIN_LOWER_LEFT then Manip.iFlipBuffer t.data t.depth t.bps t.height else pure t.data

/-- `iSaveHdrInternal`, il_hdr.cpp:567-654; `t` is what `iConvertImage` makes of the current image: a copy with three floats per pixel (it is
called for every image, since the format of an image is never `IL_UNSIGNED_BYTE`). -/
def iSaveHdrInternal (junk : Nat → UInt8) (enc : List UInt8 → Rgbe) (t : Img) : C (List WOp) := do
  let data ← upright t
  if t.width < 8 ∨ t.width > 0x7fff then do
    let px ← writePixels enc data (u32 (t.width * t.height))
    pure (header t.width t.height ++ px)
  else do
    let r ← loopN t.height (writeRow enc t.width data) (alloc junk (u32 (4 * t.width)), header t.width t.height)
    pure r.2

end DevIL.Hdr
