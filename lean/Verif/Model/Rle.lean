import Verif.Model.Lump
import Verif.Buf
/-! Model of the run-length encoder, DevIL/src-IL/src/il_rle.cpp and DevIL/src-IL/include/il_rle.h, in its Targa and SGI
modes (the BMP mode is only reached from code that is switched off, il_bmp.cpp:901).  `data` and `dest` are the memory blocks
behind the pointers `p` and `q`, which are offsets here. -/
set_option autoImplicit false
namespace DevIL.Rle

/-- `GetPix`, il_rle.h:29-38. -/
def getPix (data : List UInt8) (p bpp : Nat) : C Nat := do
  let b ← rd data p
  loopN (bpp - 1) (fun k acc => do
    let b ← rd data (p + 1 + k)
    pure (u32 (acc * 256) + b.toNat)) b.toNat

/-- The loop of `CountDiffPixels`, il_rle.h:50-58, with `pixCnt - 1` iterations at most. -/
def diffLoop (data : List UInt8) (bpp : Nat) : Nat → Nat → Nat → Nat → Nat → C Nat
  | 0, _, pixel, next, n => pure (if next = pixel then n else n + 1)
  | k + 1, p, pixel, _, n => do
    let q ← getPix data (p + bpp) bpp
    if q = pixel then pure n else diffLoop data bpp k (p + bpp) q q (n + 1)

/-- `CountDiffPixels`, il_rle.h:40-63. -/
def countDiff (data : List UInt8) (p bpp cnt : Nat) : C Nat :=
  if cnt = 1 then pure 1
  else do
    let pixel ← getPix data p bpp
    diffLoop data bpp (cnt - 1) p pixel 0 0

/-- The loop of `CountSamePixels`, il_rle.h:75-82. -/
def sameLoop (data : List UInt8) (bpp pixel : Nat) : Nat → Nat → Nat → C Nat
  | 0, _, n => pure n
  | k + 1, p, n => do
    let q ← getPix data (p + bpp) bpp
    if q ≠ pixel then pure n else sameLoop data bpp pixel k (p + bpp) (n + 1)

/-- `CountSamePixels`, il_rle.h:66-85. -/
def countSame (data : List UInt8) (p bpp cnt : Nat) : C Nat := do
  let pixel ← getPix data p bpp
  sameLoop data bpp pixel (cnt - 1) p 1

/-- `n` times `*q++ = *p++`.  il_rle.cpp:76-81. -/
def copyBytes (data : List UInt8) (p : Nat) (dest : List UInt8) (q n : Nat) : C (List UInt8) :=
  loopN n (fun i d => do let b ← rd data (p + i); wr d (q + i) b) dest

/-- How many bytes the `switch(bpp)` of il_rle.cpp:76-81 and 108-113 copies. -/
def casesOf (bpp : Nat) : Nat := if bpp ≤ 4 then bpp else 0

/-- The locals of `ilRleCompressLine`: the pointers, the pixels left, `RLEBufSize`, and the destination block.  il_rle.cpp:13-40. -/
structure E where
  p : Nat
  q : Nat
  n : Nat
  size : Nat
  dest : List UInt8
  deriving DecidableEq

/-- `TGA_MAX_RUN`, `SGI_MAX_RUN` (il_rle.h:18-19). -/
def maxRun (sgi : Bool) : Nat := if sgi then 127 else 128

/-- il_rle.cpp:59-90: the raw packet. -/
def rawPacket (data : List UInt8) (bpp : Nat) (sgi : Bool) (d : Nat) (s : E) : C E :=
  if d > 0 then do
    let dest ← wr s.dest s.q (if sgi then UInt8.ofNat (d ||| 0x80) else UInt8.ofNat (d - 1))
    let dest ← copyBytes data s.p dest (s.q + 1) (d * casesOf bpp)
    pure { p := s.p + d * casesOf bpp, q := s.q + 1 + d * casesOf bpp, n := s.n - d, size := s.size + d * bpp + 1,
           dest := dest }
  else pure s

/-- il_rle.cpp:92-114: the run packet. -/
def runPacket (data : List UInt8) (bpp : Nat) (sgi : Bool) (r : Nat) (s : E) : C E :=
  if r > 1 then do
    let dest ← wr s.dest s.q (if sgi then UInt8.ofNat r else UInt8.ofNat ((r - 1) ||| 0x80))
    let p := s.p + (r - 1) * bpp
    let dest ← copyBytes data p dest (s.q + 1) (1 + casesOf bpp)
    pure { p := p + (1 + casesOf bpp), q := s.q + 1 + (1 + casesOf bpp), n := s.n - r, size := s.size + bpp + 1, dest := dest }
  else pure s

/-- One round of `while( n > 0 )`, il_rle.cpp:37-115. -/
def lineStep (data : List UInt8) (bpp : Nat) (sgi : Bool) (s : E) : C E := do
  let k := if Lump.toInt s.n > maxRun sgi then maxRun sgi else s.n
  let d ← countDiff data s.p bpp k
  let r ← countSame data s.p bpp k
  let s ← rawPacket data bpp sgi d s
  runPacket data bpp sgi r s

/-- `ilRleCompressLine`, il_rle.cpp:13-128, in the Targa (`sgi = false`) or SGI mode: the destination block and `*DestWidth`.
The loop ends after at most `n` rounds, since every round emits a packet. -/
def ilRleCompressLine (data : List UInt8) (p n bpp : Nat) (dest : List UInt8) (q : Nat) (sgi : Bool) : C (List UInt8 × Nat) := do
  let s ← whileF (fun s : E => decide (s.n > 0)) (lineStep data bpp sgi) (n + 1) ⟨p, q, n, 0, dest⟩
  if sgi then do
    let d ← wr s.dest s.q 0
    pure (d, s.size + 1)
  else pure (s.dest, s.size)

/-- `ilRleCompress`, il_rle.cpp:132-153, without a scan table: the destination block and the total length. -/
def ilRleCompress (data : List UInt8) (w h d bpp : Nat) (dest : List UInt8) (sgi : Bool) : C (List UInt8 × Nat) :=
  loopN d (fun j t => loopN h (fun i t => do
    let (dest, len) ← ilRleCompressLine data (j * (w * h * bpp) + i * (w * bpp)) w bpp t.1 t.2 sgi
    pure (dest, t.2 + len)) t) (dest, 0)

end DevIL.Rle
