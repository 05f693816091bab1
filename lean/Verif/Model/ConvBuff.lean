import Verif.Buf
import Verif.Model.Utility
/-! Model of pixel-buffer conversion: DevIL/src-IL/src/il_convbuff.cpp:28-1961 (`ilConvertBuffer`) and 1963-2311
(`iSwitchTypes`).

Buffers are lists of components.  A component is the unsigned number whose bits are stored; component `i` of a block
of `n` bytes exists iff `(i+1)*bpc ≤ n`, i.e. iff `i < n / bpc`, so a block of `n` bytes is a list of `n / bpc`
components.  All loops below are the same text once per component type (byte, short/half, int, float, double), which
is why one model serves all of them. -/
set_option autoImplicit false
namespace DevIL.Conv
open Utility

/-- `n` rounded to `p` significant bits, to nearest, ties to even: the result of an IEEE-754 operation whose exact
result is `n` units, when neither overflow nor underflow occurs.  For il_convbuff.cpp:300-345. -/
def rnd (p n : Nat) : Nat :=
  if n < 2 ^ p then n
  else
    let e := n.log2 + 1 - p
    let q := n / 2 ^ e
    let r := n % 2 ^ e
    let up := decide (2 ^ e < 2 * r) || (decide (2 ^ e = 2 * r) && decide (q % 2 = 1))
    (if up then q + 1 else q) * 2 ^ e

/-- `LumFactor`, il_convbuff.cpp:39, as IEEE single-precision numbers in units of `2^-27`
(0x1.b38cdap-3, 0x1.6e2974p-1, 0x1.279aaep-4). -/
def lumFactor : Nat → Nat
  | 0 => 0xd9c66d * 2
  | 1 => 0xb714ba * 8
  | _ => 0x93cd57

/-- Precision of the accumulator: `Resultd` (double) or `Resultf` (float).  il_convbuff.cpp:43-44. -/
def accBits (wide : Bool) : Nat := if wide then 53 else 24

/-- `Result += Data[i+c] * LumFactor[w]`: the component is converted to float, the product is a float, the sum has the
accumulator's precision.  il_convbuff.cpp:304, 315, 325. -/
def lumStep (wide : Bool) (acc : Nat) (t : Nat × Nat) : Nat :=
  rnd (accBits wide) (acc + rnd 24 (rnd 24 t.1 * lumFactor t.2))

/-- `(ILubyte)Result`: conversion to an unsigned type whose largest value is `max`; out of range is undefined
behaviour (C++ [conv.fpint]).  il_convbuff.cpp:306, 317, 327. -/
def toUInt (max : Nat) (acc : Nat) : C Nat :=
  if acc / 2 ^ 27 ≤ max then pure (acc / 2 ^ 27) else .error .overflow

/-- Floating-point operations on `IL_FLOAT` and `IL_DOUBLE` components, left uninterpreted (the theorems hold
whatever they are): the luminance of a list of weighted components, and conversions to and from float, half and double
types.  il_convbuff.cpp:332-345. -/
structure FloatOps where
  lum : Bool → Nat → List (Nat × Nat) → Nat
  cast : Nat → Nat → Nat → Nat

/-- The luminance computed for components of type `type` (il_convbuff.cpp:293-350 and its seven repetitions).
`IL_HALF` shares the `IL_UNSIGNED_SHORT` case: the weights are applied to the bit pattern.  `wide` says whether the
`IL_UNSIGNED_INT`, `IL_INT` and `IL_FLOAT` cases of this arm accumulate in `Resultd`. -/
def lumOf (fl : FloatOps) (wide : Bool) (type : Nat) (ts : List (Nat × Nat)) : C Nat :=
  if type = IL_UNSIGNED_BYTE ∨ type = IL_BYTE then toUInt 255 (ts.foldl (lumStep false) 0)
  else if type = IL_UNSIGNED_SHORT ∨ type = IL_SHORT ∨ type = IL_HALF then toUInt 65535 (ts.foldl (lumStep false) 0)
  else if type = IL_UNSIGNED_INT ∨ type = IL_INT then toUInt 4294967295 (ts.foldl (lumStep wide) 0)
  else pure (fl.lum wide type ts)

/-- The constant stored for "opaque": `UCHAR_MAX`, `USHRT_MAX` (also for `IL_HALF`), `UINT_MAX`, `1.0f`, `1.0`,
il_convbuff.cpp:200, 209, 218, 227, 236 and repetitions. -/
def fullOf (type : Nat) : Nat :=
  if type = IL_UNSIGNED_BYTE ∨ type = IL_BYTE then 255
  else if type = IL_UNSIGNED_SHORT ∨ type = IL_SHORT ∨ type = IL_HALF then 65535
  else if type = IL_UNSIGNED_INT ∨ type = IL_INT then 4294967295
  else if type = IL_FLOAT then 0x3F800000
  else 0x3FF0000000000000

/-- What a conversion loop stores in one component of the destination pixel: a component of the source pixel, the
opaque constant, zero, or the sum of source components 0, 1, 2 weighted by `LumFactor[w0]`, `[w1]`, `[w2]`.
The loops of il_convbuff.cpp:119-1960. -/
inductive Cell where
  | comp (k : Nat)
  | full
  | zero
  | lum (w0 w1 w2 : Nat)
  deriving DecidableEq

/-- One `case` of the two nested format switches.
`loop bytes sStep dStep whole wide cells`: allocate `bytes NumPix BpcDest` bytes; iteration `i` fills the `dStep`
destination components from `i*dStep` on with `cells`, reading source components from `i*sStep` on; the loop runs
while `i*sStep < NumPix` or, when `whole`, `NumPix / sStep` times.
`fill bytes set`: allocate `bytes NumPix BpcDest` bytes and `memset` the first `set NumPix BpcDest` to 0.  il_convbuff.cpp:119-1960. -/
inductive Arm where
  | loop (bytes : Nat → Nat → Nat) (sStep dStep : Nat) (whole wide : Bool) (cells : List Cell)
  | fill (bytes set : Nat → Nat → Nat)

/-- Reads and computes one cell from the source component at `base` on.  il_convbuff.cpp:119-1960. -/
def evalCell (fl : FloatOps) (type : Nat) (wide : Bool) (src : List Nat) (base : Nat) : Cell → C Nat
  | .comp k => rd src (base + k)
  | .full => pure (fullOf type)
  | .zero => pure 0
  | .lum w0 w1 w2 => do
      let a ← rd src base
      let b ← rd src (base + 1)
      let c ← rd src (base + 2)
      lumOf fl wide type [(a, w0), (b, w1), (c, w2)]

/-- The stores of one iteration, in order.  il_convbuff.cpp:119-1960. -/
def storeCells (fl : FloatOps) (type : Nat) (wide : Bool) (src : List Nat) (base : Nat) :
    List Cell → Nat → List Nat → C (List Nat)
  | [], _, d => pure d
  | c :: cs, j, d => do
      let v ← evalCell fl type wide src base c
      let d ← wr d j v
      storeCells fl type wide src base cs (j + 1) d

/-- Number of iterations of the loop of an arm over `n` components.  For example il_convbuff.cpp:132, 301. -/
def iters (whole : Bool) (sStep n : Nat) : Nat := if whole then n / sStep else (n + sStep - 1) / sStep

/-- Runs one arm on `src` (all components in `Data`).  il_convbuff.cpp:119-1960. -/
def Arm.run (fl : FloatOps) (junk : Nat → Nat) (type : Nat) (src : List Nat) : Arm → C (List Nat)
  | .loop bytes sStep dStep whole wide cells =>
      let bpc := ilGetBpcType type
      loopN (iters whole sStep src.length)
        (fun i d => storeCells fl type wide src (i * sStep) cells (i * dStep) d)
        (alloc junk (bytes src.length bpc / bpc))
  | .fill bytes set =>
      let bpc := ilGetBpcType type
      loopN (set src.length bpc / bpc) (fun i d => wr d i 0) (alloc junk (bytes src.length bpc / bpc))

/-- `NumPix * BpcDest` in 32-bit arithmetic.  il_convbuff.cpp:63. -/
def nb (n b : Nat) : Nat := u32 (n * b)

/-- The arms of `case IL_RGB`, il_convbuff.cpp:119-426. -/
def armRGB (dst : Nat) : Option Arm :=
  if dst = IL_BGR then some (.loop nb 3 3 false false [.comp 2, .comp 1, .comp 0])                    -- 122-187
  else if dst = IL_RGBA then
    some (.loop (fun n b => u32 (nb n b * 4) / 3) 3 4 false false [.comp 0, .comp 1, .comp 2, .full]) -- 189-239
  else if dst = IL_BGRA then
    some (.loop (fun n b => u32 (nb n b * 4) / 3) 3 4 false false [.comp 2, .comp 1, .comp 0, .full]) -- 241-291
  else if dst = IL_LUMINANCE then some (.loop (fun n b => nb n b / 3) 3 1 true false [.lum 0 1 2])    -- 293-349
  else if dst = IL_LUMINANCE_ALPHA then
    some (.loop (fun n b => u32 (nb n b / 3 * 2)) 3 2 true false [.lum 0 1 2, .full])                 -- 351-412
  else if dst = IL_ALPHA then some (.fill (fun n b => nb n b / 3) nb)                                 -- 414-418
  else none                                                                                           -- 420-424

/-- The arms of `case IL_RGBA`, il_convbuff.cpp:428-762. -/
def armRGBA (dst : Nat) : Option Arm :=
  if dst = IL_BGRA then some (.loop nb 4 4 false false [.comp 2, .comp 1, .comp 0, .comp 3])          -- 431-501
  else if dst = IL_RGB then
    some (.loop (fun n b => u32 (nb n b * 3) / 4) 4 3 false false [.comp 0, .comp 1, .comp 2])        -- 503-548
  else if dst = IL_BGR then
    some (.loop (fun n b => u32 (nb n b * 3) / 4) 4 3 false false [.comp 2, .comp 1, .comp 0])        -- 550-595
  else if dst = IL_LUMINANCE then some (.loop (fun n b => nb n b / 4) 4 1 true true [.lum 0 1 2])     -- 597-653
  else if dst = IL_LUMINANCE_ALPHA then
    some (.loop (fun n b => u32 (nb n b / 4 * 2)) 4 2 true true [.lum 0 1 2, .comp 3])                -- 655-716
  else if dst = IL_ALPHA then some (.loop (fun n b => nb n b / 4) 4 1 true false [.comp 3])           -- 718-754
  else none                                                                                           -- 756-760

/-- The arms of `case IL_BGR`, il_convbuff.cpp:764-1071. -/
def armBGR (dst : Nat) : Option Arm :=
  if dst = IL_RGB then some (.loop nb 3 3 false false [.comp 2, .comp 1, .comp 0])                    -- 767-832
  else if dst = IL_BGRA then
    some (.loop (fun n b => u32 (nb n b * 4) / 3) 3 4 false false [.comp 0, .comp 1, .comp 2, .full]) -- 834-884
  else if dst = IL_RGBA then
    some (.loop (fun n b => u32 (nb n b * 4) / 3) 3 4 false false [.comp 2, .comp 1, .comp 0, .full]) -- 886-936
  else if dst = IL_LUMINANCE then some (.loop (fun n b => nb n b / 3) 3 1 true true [.lum 2 1 0])     -- 938-994
  else if dst = IL_LUMINANCE_ALPHA then
    some (.loop (fun n b => u32 (nb n b / 3 * 2)) 3 2 true false [.lum 0 1 2, .full])                 -- 996-1057
  else if dst = IL_ALPHA then some (.fill (fun n b => nb n b / 3) (fun n b => nb n b / 3))            -- 1059-1063
  else none                                                                                           -- 1065-1069

/-- The arms of `case IL_BGRA`, il_convbuff.cpp:1073-1407. -/
def armBGRA (dst : Nat) : Option Arm :=
  if dst = IL_RGBA then some (.loop nb 4 4 false false [.comp 2, .comp 1, .comp 0, .comp 3])          -- 1076-1146
  else if dst = IL_BGR then
    some (.loop (fun n b => u32 (nb n b * 3) / 4) 4 3 false false [.comp 0, .comp 1, .comp 2])        -- 1148-1193
  else if dst = IL_RGB then
    some (.loop (fun n b => u32 (nb n b * 3) / 4) 4 3 false false [.comp 2, .comp 1, .comp 0])        -- 1195-1240
  else if dst = IL_LUMINANCE then some (.loop (fun n b => nb n b / 4) 4 1 true true [.lum 2 1 0])     -- 1242-1298
  else if dst = IL_LUMINANCE_ALPHA then
    some (.loop (fun n b => u32 (nb n b / 4 * 2)) 4 2 true true [.lum 0 1 2, .comp 3])                -- 1300-1361
  else if dst = IL_ALPHA then some (.loop (fun n b => nb n b / 4) 4 1 true false [.comp 3])           -- 1363-1399
  else none                                                                                           -- 1401-1405

/-- The arms of `case IL_LUMINANCE`, il_convbuff.cpp:1410-1591 (the `IL_COLOUR_INDEX` arm is commented out). -/
def armLum (dst : Nat) : Option Arm :=
  if dst = IL_RGB ∨ dst = IL_BGR then
    some (.loop (fun n b => u32 (nb n b * 3)) 1 3 false false [.comp 0, .comp 0, .comp 0])            -- 1413-1460
  else if dst = IL_RGBA ∨ dst = IL_BGRA then
    some (.loop (fun n b => u32 (nb n b * 4)) 1 4 false false [.comp 0, .comp 0, .comp 0, .full])     -- 1462-1514
  else if dst = IL_LUMINANCE_ALPHA then
    some (.loop (fun n b => u32 (nb n b * 2)) 1 2 false false [.comp 0, .full])                       -- 1516-1557
  else if dst = IL_ALPHA then some (.fill nb nb)                                                      -- 1559-1563
  else none                                                                                           -- 1585-1589

/-- The arms of `case IL_LUMINANCE_ALPHA`, il_convbuff.cpp:1594-1802. -/
def armLumA (dst : Nat) : Option Arm :=
  if dst = IL_RGB ∨ dst = IL_BGR then
    some (.loop (fun n b => u32 (nb n b / 2 * 3)) 2 3 false false [.comp 0, .comp 0, .comp 0])        -- 1597-1644
  else if dst = IL_RGBA ∨ dst = IL_BGRA then
    some (.loop (fun n b => u32 (nb n b / 2 * 4)) 2 4 false false [.comp 0, .comp 0, .comp 0, .comp 1]) -- 1646-1698
  else if dst = IL_LUMINANCE then some (.loop (fun n b => nb n b / 2) 2 1 false false [.comp 0])      -- 1700-1736
  else if dst = IL_ALPHA then some (.loop (fun n b => nb n b / 2) 2 1 true false [.comp 3])           -- 1738-1774
  else none                                                                                           -- 1796-1800

/-- The arms of `case IL_ALPHA`, il_convbuff.cpp:1805-1953. -/
def armAlpha (dst : Nat) : Option Arm :=
  if dst = IL_RGB ∨ dst = IL_BGR then
    some (.fill (fun n b => u32 (nb n b * 3)) (fun n b => u32 (nb n b * 3)))                          -- 1808-1828
  else if dst = IL_RGBA ∨ dst = IL_BGRA then
    some (.loop (fun n b => u32 (nb n b * 4)) 1 4 false false [.zero, .zero, .zero, .comp 0])         -- 1830-1882
  else if dst = IL_LUMINANCE_ALPHA then
    some (.loop (fun n b => u32 (nb n b * 2)) 1 2 false false [.zero, .comp 0])                       -- 1884-1925
  else none                                                                                           -- 1948-1952

/-- `switch (SrcFormat)`, il_convbuff.cpp:117-1954.  `none` is `NULL`, with `IL_INVALID_CONVERSION` from the inner
`default`. -/
def arm (src dst : Nat) : Option Arm :=
  if src = IL_RGB then armRGB dst
  else if src = IL_RGBA then armRGBA dst
  else if src = IL_BGR then armBGR dst
  else if src = IL_BGRA then armBGRA dst
  else if src = IL_LUMINANCE then armLum dst
  else if src = IL_LUMINANCE_ALPHA then armLumA dst
  else if src = IL_ALPHA then armAlpha dst
  else none

/-- The component-wise function of one `case` pair of `iSwitchTypes`, il_convbuff.cpp:1995-2307, on stored bits.
`none`: the pair has no case and the loop that fills the result does not run.  Conversions that involve `IL_FLOAT`,
`IL_DOUBLE` or `IL_HALF` are uninterpreted (`cast`). -/
def switchOne (fl : FloatOps) (src dst : Nat) : Option (Nat → Nat) :=
  if dst = IL_UNSIGNED_BYTE ∨ dst = IL_BYTE then
    if src = IL_UNSIGNED_SHORT ∨ src = IL_SHORT then some (fun v => v >>> 8)                          -- 2001-2006
    else if src = IL_UNSIGNED_INT ∨ src = IL_INT then some (fun v => v >>> 24)                        -- 2007-2012
    else if src = IL_FLOAT ∨ src = IL_HALF ∨ src = IL_DOUBLE then some (fl.cast src dst)              -- 2013-2046
    else none
  else if dst = IL_UNSIGNED_SHORT ∨ dst = IL_SHORT then
    if src = IL_UNSIGNED_BYTE ∨ src = IL_BYTE then some (fun v => v <<< 8 ||| v)                      -- 2055-2060
    else if src = IL_UNSIGNED_INT ∨ src = IL_INT then some (fun v => v >>> 16)                        -- 2061-2066
    else if src = IL_FLOAT ∨ src = IL_HALF ∨ src = IL_DOUBLE then some (fl.cast src dst)              -- 2067-2099
    else none
  else if dst = IL_UNSIGNED_INT ∨ dst = IL_INT then
    if src = IL_UNSIGNED_BYTE ∨ src = IL_BYTE then
      some (fun v => v <<< 24 ||| v <<< 16 ||| v <<< 8 ||| v)                                         -- 2108-2114
    else if src = IL_UNSIGNED_SHORT ∨ src = IL_SHORT then some (fun v => v <<< 16 ||| v)              -- 2115-2120
    else if src = IL_FLOAT ∨ src = IL_HALF ∨ src = IL_DOUBLE then some (fl.cast src dst)              -- 2121-2153
    else none
  else if dst = IL_FLOAT ∨ dst = IL_DOUBLE ∨ dst = IL_HALF then
    if ilGetBpcType src = 0 ∨ src = dst then none else some (fl.cast src dst)                         -- 2157-2306
  else none

/-- `iSwitchTypes` after its parameter checks, il_convbuff.cpp:1968-2311: the components of the returned block. -/
def iSwitchTypes (fl : FloatOps) (junk : Nat → Nat) (srcType dstType : Nat) (src : List Nat) : C (List Nat) :=
  if srcType = dstType then pure src
  else
    let bpc := ilGetBpcType dstType
    let new := alloc junk (nb src.length bpc / bpc)
    match switchOne fl srcType dstType with
    | none => pure new
    | some f => loopN src.length (fun i d => do let v ← rd src i; wr d i (f v)) new

/-- `ilConvertBuffer` on a buffer that is not colour-indexed, il_convbuff.cpp:34-1961.  `junk` fills the
block of the type conversion, `junk'` the result's.  `none` is NULL.  Allocation succeeds. -/
def ilConvertBuffer (fl : FloatOps) (junk junk' : Nat → Nat) (srcFmt dstFmt srcType dstType : Nat) (buffer : List Nat) :
    C (Option (List Nat)) := do
  if buffer = [] ∨ ilGetBpcType srcType = 0 ∨ ilGetBpcType dstType = 0 then pure none
  else
    let data ← iSwitchTypes fl junk srcType dstType buffer
    if dstFmt = srcFmt then
      let new ← memcpy (alloc junk' (nb data.length (ilGetBpcType dstType) / ilGetBpcType dstType)) 0 data 0
        (nb data.length (ilGetBpcType dstType) / ilGetBpcType dstType)
      pure (some new)
    else
      match arm srcFmt dstFmt with
      | none => pure none
      | some a => do
          let new ← a.run fl junk' dstType data
          pure (some new)

end DevIL.Conv
