import Verif.Model.Games
/-! Model of the Softimage PIC loader, il_pic.cpp.  As in Model/Games.lean an image is bound, allocation succeeds and `ilFixImage` is left out. -/
set_option autoImplicit false
namespace DevIL.Pic
open DevIL.Games DevIL.Detect DevIL.Image DevIL.DetectSpec

/-- `CHANNEL`, il_pic.h:34-40: a packet of components.  `Size` is read and not used. -/
structure Chan where
  size : UInt8
  type : UInt8
  chan : UInt8
deriving DecidableEq

/-- The offsets in a pixel of the components of a packet, il_pic.cpp:272-291.  The return for alpha in a picture of three bytes per pixel (289-290) is
left out: pictures with alpha in a packet have four. -/
def offs (c : UInt8) : List Nat :=
  (if c &&& 0x80 ≠ 0 then [0] else []) ++ (if c &&& 0x40 ≠ 0 then [1] else []) ++ (if c &&& 0x20 ≠ 0 then [2] else []) ++ (if c &&& 0x10 ≠ 0 then [3] else [])

section
variable {σ : Type} (o : Ops σ) (junk : Nat → UInt8)

/-- The packets so far, the input, whether another follows, and whether all went well.  il_pic.cpp:159-163. -/
structure Chans (σ : Type) where
  list : List Chan
  inp : σ
  more : Bool
  ok : Bool

/-- One packet, il_pic.cpp:178-212. -/
def chanStep (t : Chans σ) : C (Chans σ) := do
  let (chained, s) ← getb o t.inp
  let (size, s) ← getb o s
  let (type, s) ← getb o s
  let (chan, s) ← getb o s
  let (e, s) := o.eof s
  if e then pure ⟨t.list ++ [⟨size, type, chan⟩], s, false, false⟩
  else pure ⟨t.list ++ [⟨size, type, chan⟩], s, decide (chained ≠ 0), true⟩

/-- The image data, the input, and whether all went well so far.  il_pic.cpp:245-262. -/
structure Scan (σ : Type) where
  data : List UInt8
  inp : σ
  ok : Bool

/-- `iread(&scan[off[j]], 1, 1)` for all `j`, il_pic.cpp:321-323, 411-415. -/
def readPx : List Nat → Nat → Scan σ → C (Scan σ)
  | [], _, t => pure t
  | j :: js, at_, t => do
    let (g, r, s) ← o.read t.inp 1 1
    let d ← memcpy t.data (at_ + j) g 0 g.length
    if r ≠ 1 then pure ⟨d, s, false⟩ else readPx js at_ ⟨d, s, true⟩

/-- `channelReadRaw`, il_pic.cpp:314-327; `at_` is the offset of `scan`, `bytes` the size of a pixel. -/
def readRaw (w : Nat) (off : List Nat) (bytes at_ : Nat) (t : Scan σ) : C (Scan σ) :=
  loopN w (fun i t =>
    if !t.ok then pure t
    else
      let (e, s) := o.eof t.inp
      if e then pure { t with inp := s, ok := false }
      else readPx o off (at_ + i * bytes) { t with inp := s }) t

/-- `iread(&col[j], 1, 1)` for `n` values of `j`, il_pic.cpp:347-349, 392-396: the bytes (`none`: one is missing) and the input. -/
def readCol : Nat → σ → C (Option (List UInt8) × σ)
  | 0, s => pure (some [], s)
  | n + 1, s => do
    let (g, r, s) ← o.read s 1 1
    if r ≠ 1 then pure (none, s)
    else do
      let (c, s) ← readCol n s
      pure (c.map (g ++ ·), s)

/-- `scan[off[j] + k] = col[j]` for all `j`, il_pic.cpp:352-353, 399-400 (with `k` = 0). -/
def putPx : List Nat → List UInt8 → Nat → List UInt8 → C (List UInt8)
  | j :: js, c :: cs, at_, d => do
    let d ← wr d (at_ + j) c
    putPx js cs at_ d
  | _, _, _, d => pure d

/-- The state of `channelReadPure` and of `channelReadMixed`: `i`, the number of pixels that `scan` has moved on by, and the rest.  il_pic.cpp:330-336, 360-366. -/
structure Runs (σ : Type) where
  i : Int
  px : Nat
  scan : Scan σ

/-- One run, il_pic.cpp:337-354. -/
def pureStep (w : Nat) (off : List Nat) (bytes at_ : Nat) (t : Runs σ) : C (Runs σ) := do
  let (c, s) ← o.getc t.scan.inp
  match c with
  | none => pure { t with scan := ⟨t.scan.data, s, false⟩ }
  | some c =>
    let count := if c.toNat > w then w else c.toNat
    let i := t.i - count
    let (e, s) := o.eof s
    if e then pure { t with scan := ⟨t.scan.data, s, false⟩ }
    else do
      let (col, s) ← readCol o off.length s
      match col with
      | none => pure { t with scan := ⟨t.scan.data, s, false⟩ }
      | some col => do
        let d ← loopN count (fun k d => putPx off col (at_ + (t.px + k) * bytes + k) d) t.scan.data
        pure ⟨i, t.px + count, ⟨d, s, true⟩⟩

/-- `channelReadPure`, il_pic.cpp:330-357. -/
def readPure (fuel w : Nat) (off : List Nat) (bytes at_ : Nat) (t : Scan σ) : C (Scan σ) := do
  let r ← whileF (fun t : Runs σ => t.scan.ok && decide (0 < t.i)) (pureStep o w off bytes at_) fuel ⟨w, 0, t⟩
  pure r.scan

/-- The length of a repeated sequence, il_pic.cpp:375-383: `none` if the input ends. -/
def longRun (c : UInt8) (s : σ) : C (Option Nat × σ) :=
  if c = 128 then do
    let (h, s) ← head o junk [u16] s
    let (e, s) := o.eof s
    if e then pure (none, s) else pure (some (fbe h 0), s)
  else pure (some (c.toNat - 127), s)

/-- A repeated sequence, il_pic.cpp:374-401. -/
def repSeq (w : Nat) (off : List Nat) (bytes at_ : Nat) (c : UInt8) (t : Runs σ) (s : σ) : C (Runs σ) := do
  let (count, s) ← longRun o junk c s
  match count with
  | none => pure { t with scan := ⟨t.scan.data, s, false⟩ }
  | some count =>
    if t.px + count > w then pure { t with scan := ⟨t.scan.data, s, false⟩ }
    else do
      let (col, s) ← readCol o off.length s
      match col with
      | none => pure { t with scan := ⟨t.scan.data, s, false⟩ }
      | some col => do
        let d ← loopN count (fun k d => putPx off col (at_ + (t.px + k) * bytes) d) t.scan.data
        pure ⟨t.i + count, t.px + count, ⟨d, s, true⟩⟩

/-- A raw sequence, il_pic.cpp:402-417. -/
def rawSeq (w : Nat) (off : List Nat) (bytes at_ : Nat) (c : UInt8) (t : Runs σ) (s : σ) : C (Runs σ) :=
  let count := c.toNat + 1
  if t.px + count > w then pure { t with scan := ⟨t.scan.data, s, false⟩ }
  else do
    let r ← loopN count (fun k (t' : Scan σ) => if !t'.ok then pure t' else readPx o off (at_ + (t.px + k) * bytes) t') ⟨t.scan.data, s, true⟩
    pure ⟨t.i + count, t.px + count, r⟩

/-- One sequence, il_pic.cpp:366-418. -/
def mixedStep (w : Nat) (off : List Nat) (bytes at_ : Nat) (t : Runs σ) : C (Runs σ) := do
  let (e, s) := o.eof t.scan.inp
  if e then pure { t with scan := ⟨t.scan.data, s, false⟩ }
  else do
    let (c, s) ← o.getc s
    match c with
    | none => pure { t with scan := ⟨t.scan.data, s, false⟩ }
    | some c => if c.toNat ≥ 128 then repSeq o junk w off bytes at_ c t s else rawSeq o w off bytes at_ c t s

/-- `channelReadMixed`, il_pic.cpp:360-421. -/
def readMixed (fuel w : Nat) (off : List Nat) (bytes at_ : Nat) (t : Scan σ) : C (Scan σ) := do
  let r ← whileF (fun t : Runs σ => t.scan.ok && decide (t.i < w)) (mixedStep o junk w off bytes at_) fuel ⟨0, 0, t⟩
  pure r.scan

/-- `readScanline`, il_pic.cpp:265-311; `t.ok` is `status`.  A packet of another kind leaves `status` as it was (293-304), so it is an error only at the beginning. -/
def readScanline (fuel w bytes at_ : Nat) : List Chan → Bool → Scan σ → C (Scan σ)
  | [], status, t => pure { t with ok := status }
  | c :: cs, status, t => do
    let r ← (if c.type &&& 0x0F = 0 then readRaw o w (offs c.chan) bytes at_ { t with ok := true }
      else if c.type &&& 0x0F = 1 then readPure o fuel w (offs c.chan) bytes at_ { t with ok := true }
      else if c.type &&& 0x0F = 2 then readMixed o junk fuel w (offs c.chan) bytes at_ { t with ok := true }
      else pure { t with ok := status } : C (Scan σ))
    if !r.ok then pure r else readScanline fuel w bytes at_ cs true r

/-- `readScanlines`, il_pic.cpp:245-262: `scan` moves on by `ILuint`s, four bytes each, whatever the size of a pixel is. -/
def readScanlines (fuel w h bytes : Nat) (chans : List Chan) (t : Scan σ) : C (Scan σ) :=
  loopN h (fun r t => if !t.ok then pure t else readScanline o junk fuel w bytes ((h - 1 - r) * w * 4) chans false t) t

/-- An `ILshort`, as the number of times a loop up to it is run, il_pic.cpp:75-76: 0 if it is negative. -/
def short (v : Nat) : Nat := if v < 32768 then v else 0

/-- An `ILshort` as an `ILuint`, il_pic.cpp:215, 221. -/
def wide (v : Nat) : Nat := if v < 32768 then v else v + 4294901760

/-- `iLoadPicInternal`, il_pic.cpp:156-242. -/
def iLoadPicInternal (fuel : Nat) (cur : Loaded) (s : σ) : C (Bool × Loaded × σ) := do
  let (h, s) ← head o junk [u32f, u32f, arr 80, arr 4, u16, u16, u32f, u16, u16] s
  if !iCheckPic h then pure (false, cur, s)
  else do
    let r ← whileF (fun t : Chans σ => t.more) (chanStep o) fuel ⟨[], s, true, true⟩
    if !r.ok then pure (false, cur, r.inp)
    else do
      let alpha := r.list.any (fun c => decide (c.chan &&& 0x10 ≠ 0))
      let bytes := if alpha then 4 else 3
      let m := { tex junk (wide (fbe h 4)) (wide (fbe h 5)) bytes IL_RGBA with origin := IL_ORIGIN_LOWER_LEFT }
      let t ← readScanlines o junk fuel (short (fbe h 4)) (short (fbe h 5)) bytes r.list ⟨m.data, r.inp, true⟩
      pure (t.ok, ({ m with data := t.data }, none), t.inp)

end

end DevIL.Pic
