import Verif.Model.Bits
import Verif.Model.Image
import Verif.Model.Manip
/-! Model of DevIL/src-IL/src/il_wbmp.cpp. -/
set_option autoImplicit false
namespace DevIL.Wbmp
open DevIL.Lump DevIL.Utility

/-- The loop of `WbmpGetMultibyte`, il_wbmp.cpp:128-134, with `k` rounds left.  `(Val << 7) | (Cur & 0x7F)` is written as a sum:
the seven low bits of the shifted value are zero. -/
def multiLoop : Nat → Nat → R → C (Nat × R)
  | 0, v, l => pure (v, l)
  | k + 1, v, l => do
    let (b, l) ← getb l
    let v := u32 (v * 128) + b.toNat % 128
    if b.toNat < 128 then pure (v, l) else multiLoop k v l

/-- `WbmpGetMultibyte`, il_wbmp.cpp:123-137. -/
def getMulti (l : R) : C (Nat × R) := multiLoop 5 0 l

/-- The `do`-loop of `WbmpPutMultibyte`, il_wbmp.cpp:145-148: `NumBytes` for a value of at most 32 bits; five rounds suffice. -/
def numBytes : Nat → Nat → Nat
  | 0, _ => 0
  | k + 1, v => if v / 128 ≠ 0 then numBytes k (v / 128) + 1 else 1

/-- `WbmpPutMultibyte`, il_wbmp.cpp:140-158. -/
def putMulti (v : Nat) : List WOp :=
  (List.range (numBytes 5 v)).reverse.map fun i => .putc (UInt8.ofNat (v / 2 ^ (i * 7) % 128 + (if i ≠ 0 then 128 else 0)))

/-- `bread(&Data[at], 1, n, File)`, il_wbmp.cpp:107 and 109: the bits read are stored as 0 or 1 from `at` on. -/
def breadAt (data : List UInt8) (at_ n : Nat) (s : Bits.B) : C (List UInt8 × Bits.B) := do
  let (bits, s) ← Bits.bread 1 n s
  let src : List UInt8 := bits.map fun b => if b then 1 else 0
  let data ← loopN src.length (fun i d => do let b ← rd src (0 + i); wr d (at_ + i) b) data
  pure (data, s)

/-- The loop over the rows, il_wbmp.cpp:106-110. -/
def readRows (junk : Nat → UInt8) (w h : Nat) (data : List UInt8) (s : Bits.B) : C (List UInt8 × Bits.B) :=
  loopN h (fun i t => do
    let (data, s) ← breadAt t.1 (u32 (w * i)) w t.2
    let (_, s) ← breadAt (alloc junk 8) 0 ((8 - w % 8) % 8) s
    pure (data, s)) (data, s)

/-- The loop of il_wbmp.cpp:112-115. -/
def whiten (size : Nat) (data : List UInt8) : C (List UInt8) :=
  loopN size (fun i d => do
    let b ← rd d i
    if b = 1 then wr d i 0xFF else pure d) data

/-- `iLoadWbmpInternal`, il_wbmp.cpp:69-120, with a current image: the result, the new image if it was created, and the input.
`handle` tells whether `iGetFile()` is not null: it is the handle of the last *file* the library read from, also when the input is a lump
(il_files.cpp:318-328, 658-661). -/
def iLoadWbmpInternal (junk : Nat → UInt8) (handle : Bool) (l : R) : C (Bool × Option Img × R) := do
  let (a, l) ← getc l
  if a ≠ some 0 then pure (false, none, l)
  else do
    let (b, l) ← getc l
    if b ≠ some 0 then pure (false, none, l)
    else do
      let (w, l) ← getMulti l
      let (h, l) ← getMulti l
      if w = 0 ∨ h = 0 then pure (false, none, l)
      else do
        match ← Image.ilInitImage junk w h 1 1 IL_LUMINANCE IL_UNSIGNED_BYTE none with
        | none => pure (false, none, l)
        | some m => do
          let m := { m with origin := IL_ORIGIN_UPPER_LEFT }
          if !handle then pure (false, some m, l)
          else do
            let (data, s) ← readRows junk m.width m.height m.data (Bits.bfile l)
            let data ← whiten m.size data
            pure (true, some { m with data := data }, s.inp)

/-- The byte of eight pixels, il_wbmp.cpp:253-260. -/
def packByte (data : List UInt8) (w i j : Nat) : C UInt8 :=
  loopN 8 (fun k v =>
    if j + k < w then do
      let b ← rd data (u32 (w * i + j + k))
      pure (v ||| (if b = 1 then 0x80 >>> UInt8.ofNat k else 0))
    else pure v) 0

/-- The loop over rows and bytes, il_wbmp.cpp:251-263. -/
def packRows (data : List UInt8) (w h : Nat) : C (List WOp) :=
  loopN h (fun i ops => forStep 0 w 8 (fun j ops => do
    let v ← packByte data w i j
    pure (ops ++ [.putc v])) ops) []

/-- `TempData`, il_wbmp.cpp:240-249: the pixels, top row first. -/
def topDown (junk : Nat → UInt8) (q : Img) : C (List UInt8) :=
  if q.origin ≠ IL_ORIGIN_UPPER_LEFT then Manip.iGetFlipped junk q else pure q.data

/-- `iSaveWbmpInternal`, il_wbmp.cpp:220-271: the calls that write; `q` is the image `iQuantizeImage` or `iNeuQuant` made of the
current image `m` (not modelled; `none` if they fail). -/
def iSaveWbmpInternal (junk : Nat → UInt8) (m : Img) (q : Option Img) : C (Option (List WOp)) :=
  match q with
  | none => pure none
  | some q => do
    let t ← topDown junk q
    let rows ← packRows t q.width q.height
    pure (some ([.putc 0, .putc 0] ++ putMulti m.width ++ putMulti m.height ++ rows))

end DevIL.Wbmp
