import Verif.Model.Image
import Verif.Model.Enums
import Verif.Model.Pal
/-! Model of the functions of the utility library that change the colours of every pixel by itself: ilu_filter.cpp:714-1248, 1322-1381, ilu_noise.cpp:22-114
and ilu_manip.cpp:688-905.  The current image is a parameter.  Arithmetic on floating-point numbers is a parameter wherever its rounding would matter. -/
set_option autoImplicit false
namespace DevIL.Colour
open Utility

/-- `case IL_RGB: case IL_RGBA:`, for example ilu_filter.cpp:1357-1358. -/
def isRgb (format : Nat) : Bool := format = IL_RGB ∨ format = IL_RGBA

/-- `case IL_BGR: case IL_BGRA:`, for example ilu_filter.cpp:1339-1340. -/
def isBgr (format : Nat) : Bool := format = IL_BGR ∨ format = IL_BGRA

/-! ### Sepia and alienify -/

/-- The three expressions `(ILubyte)IL_MIN(255, r * c1 + g * c2 + b * c3)` of ilu_filter.cpp:1351-1353.  They are computed with `double`s. -/
structure Tones where
  red : UInt8 → UInt8 → UInt8 → UInt8
  green : UInt8 → UInt8 → UInt8 → UInt8
  blue : UInt8 → UInt8 → UInt8 → UInt8

/-- One pixel, ilu_filter.cpp:1342-1353. -/
def sepiaBgr (T : Tones) (i : Nat) (d : List UInt8) : C (List UInt8) := do
  let r ← rd d (i + 2)
  let g ← rd d (i + 1)
  let b ← rd d i
  let d ← wr d (i + 2) (T.red r g b)
  let d ← wr d (i + 1) (T.green r g b)
  wr d i (T.blue r g b)

/-- One pixel, ilu_filter.cpp:1360-1371. -/
def sepiaRgb (T : Tones) (i : Nat) (d : List UInt8) : C (List UInt8) := do
  let r ← rd d i
  let g ← rd d (i + 1)
  let b ← rd d (i + 2)
  let d ← wr d i (T.red r g b)
  let d ← wr d (i + 1) (T.green r g b)
  wr d (i + 2) (T.blue r g b)

/-- `iluSepia`, ilu_filter.cpp:1322-1381; `none` is `IL_FALSE`. -/
def iluSepia (T : Tones) (m : Img) : C (Option Img) :=
  if m.type ≠ IL_UNSIGNED_BYTE then pure none
  else if isBgr m.format then do
    let d ← forStep 0 m.size m.bpp (sepiaBgr T) m.data
    pure (some { m with data := d })
  else if isRgb m.format then do
    let d ← forStep 0 m.size m.bpp (sepiaRgb T) m.data
    pure (some { m with data := d })
  else pure none

/-- `iIdentity`, ilu_filter.cpp:1043-1061: the matrix it leaves in `Mat[3][3]`. -/
def identity : List (List Nat) := [[1, 0, 0], [0, 1, 0], [0, 0, 1]]

/-- `(ILubyte)(Data[i] * Mat[0][k] + Data[i+1] * Mat[1][k] + Data[i+2] * Mat[2][k])`, ilu_filter.cpp:1129-1134, which is exact. -/
def dotI (d : List UInt8) (i k : Nat) : C UInt8 := do
  let a ← rd d i
  let b ← rd d (i + 1)
  let c ← rd d (i + 2)
  let m0 ← rd identity 0 >>= fun row => rd row k
  let m1 ← rd identity 1 >>= fun row => rd row k
  let m2 ← rd identity 2 >>= fun row => rd row k
  pure (UInt8.ofNat (a.toNat * m0 + b.toNat * m1 + c.toNat * m2))

/-- One pixel, ilu_filter.cpp:1129-1134.  The stores come between the reads. -/
def alienBgr (i : Nat) (d : List UInt8) : C (List UInt8) := do
  let d ← dotI d i 0 >>= wr d (i + 2)
  let d ← dotI d i 1 >>= wr d (i + 1)
  dotI d i 2 >>= wr d i

/-- One pixel, ilu_filter.cpp:1141-1146. -/
def alienRgb (i : Nat) (d : List UInt8) : C (List UInt8) := do
  let d ← dotI d i 2 >>= wr d i
  let d ← dotI d i 1 >>= wr d (i + 1)
  dotI d i 0 >>= wr d (i + 2)

/-- `iluAlienify`, ilu_filter.cpp:1109-1156; `none` is `IL_FALSE`. -/
def iluAlienify (m : Img) : C (Option Img) :=
  if isBgr m.format then do
    let d ← forStep 0 m.size m.bpp alienBgr m.data
    pure (some { m with data := d })
  else if isRgb m.format then do
    let d ← forStep 0 m.size m.bpp alienRgb m.data
    pure (some { m with data := d })
  else pure none

/-! ### Saturation -/

/-- Arithmetic of `ILfloat`s for `iluSaturate4f`: `diag w s` is `(1.0f - s) * w + s` and `off w s` is `(1.0f - s) * w`, ilu_filter.cpp:1075-1087, and
`dot a b c x y z` is `(ILubyte)(a * x + b * y + c * z)`, 1005-1010, which is undefined for values outside 0 to 255. -/
structure Sat (F : Type) where
  diag : F → F → F
  off : F → F → F
  dot : UInt8 → UInt8 → UInt8 → F → F → F → C UInt8

/-- The part of `Mat` that is used, ilu_filter.cpp:1075-1087, by columns. -/
def satCols {F : Type} (A : Sat F) (r g b s : F) : List (F × F × F) :=
  [(A.diag r s, A.off g s, A.off b s), (A.off r s, A.diag g s, A.off b s), (A.off r s, A.off g s, A.diag b s)]

/-- One pixel of `iApplyMatrix`, ilu_filter.cpp:1005-1013. -/
def matRgb {F : Type} (A : Sat F) (cols : List (F × F × F)) (i : Nat) (d : List UInt8) : C (List UInt8) := do
  let x ← rd d i
  let y ← rd d (i + 1)
  let z ← rd d (i + 2)
  let c0 ← rd cols 0
  let c1 ← rd cols 1
  let c2 ← rd cols 2
  let r ← A.dot x y z c0.1 c0.2.1 c0.2.2
  let g ← A.dot x y z c1.1 c1.2.1 c1.2.2
  let b ← A.dot x y z c2.1 c2.2.1 c2.2.2
  let d ← wr d i r
  let d ← wr d (i + 1) g
  wr d (i + 2) b

/-- One pixel of `iApplyMatrix`, ilu_filter.cpp:1021-1029. -/
def matBgr {F : Type} (A : Sat F) (cols : List (F × F × F)) (i : Nat) (d : List UInt8) : C (List UInt8) := do
  let x ← rd d i
  let y ← rd d (i + 1)
  let z ← rd d (i + 2)
  let c0 ← rd cols 0
  let c1 ← rd cols 1
  let c2 ← rd cols 2
  let r ← A.dot x y z c2.1 c2.2.1 c2.2.2
  let g ← A.dot x y z c1.1 c1.2.1 c1.2.2
  let b ← A.dot x y z c0.1 c0.2.1 c0.2.2
  let d ← wr d i b
  let d ← wr d (i + 1) g
  wr d (i + 2) r

/-- `iluSaturate4f`, ilu_filter.cpp:1070-1104 with `iApplyMatrix`, 994-1040: the value returned, whether an error is recorded, and the image. -/
def iluSaturate4f {F : Type} (A : Sat F) (m : Img) (r g b s : F) : C (Bool × Bool × Img) :=
  if isRgb m.format then do
    let d ← forStep 0 m.size m.bpp (matRgb A (satCols A r g b s)) m.data
    pure (true, false, { m with data := d })
  else if isBgr m.format then do
    let d ← forStep 0 m.size m.bpp (matBgr A (satCols A r g b s)) m.data
    pure (true, false, { m with data := d })
  else pure (true, true, m)

/-! ### Contrast -/

/-- `if (d < 0) d = 0; else if (d > 255) d = 255;`, ilu_filter.cpp:1179-1182. -/
def clamp (v : Int) : UInt8 := if v < 0 then 0 else if v > 255 then 255 else UInt8.ofNat v.toNat

/-- `iIntExtImg`, ilu_filter.cpp:1167-1190; `mix x y` is `(ILint)((1 - a) * x + a * y)`, 1177, which is undefined when the value is no `int`. -/
def iIntExtImg (mix : UInt8 → UInt8 → C Int) (n : Nat) (d1 d2 : List UInt8) : C (List UInt8) :=
  loopN n (fun i d2 => do
    let a ← rd d1 i
    let b ← rd d2 i
    let v ← mix a b
    wr d2 i (clamp v)) d2

/-- `iluContrast`, ilu_filter.cpp:1223-1248; `none` is `IL_FALSE`. -/
def iluContrast (mix : UInt8 → UInt8 → C Int) (junk : Nat → UInt8) (m : Img) : C (Option Img) := do
  match ← Image.ilNewImage junk m.width m.height m.depth m.bpp m.bpc with
  | none => pure none
  | some g => do
    let grey ← loopN g.size (fun i d => wr d i 127) g.data
    let d ← iIntExtImg mix m.size grey m.data
    pure (some { m with data := d })

/-! ### Noise -/

/-- The number in the `k` bytes from `i` on, the lowest byte first, as on the usual machines; for example `ShortPtr[i]`, ilu_noise.cpp:78. -/
def getN (k i : Nat) (d : List UInt8) : C Nat :=
  loopN k (fun j v => do let b ← rd d (i + j); pure (v + b.toNat * 256 ^ j)) 0

/-- Storing a number, for example ilu_noise.cpp:83. -/
def putN (k i v : Nat) (d : List UInt8) : C (List UInt8) :=
  loopN k (fun j d => wr d (i + j) (UInt8.ofNat (v / 256 ^ j))) d

/-- The new value of a component of one or two bytes, ilu_noise.cpp:56-61, 78-83; `max` is the greatest value. -/
def noisy (max : Nat) (v : Nat) (val : Int) : Nat :=
  if (v : Int) + val > max then max else if (v : Int) + val < 0 then 0 else ((v : Int) + val).toNat

/-- A `ILuint` as an `ILint`, ilu_noise.cpp:102. -/
def asInt (v : Nat) : Int := if v < 2147483648 then v else (v : Int) - 4294967296

/-- The new value of a component of four bytes, ilu_noise.cpp:100-105: the first test is never true. -/
def noisy32 (v : Nat) (val : Int) : C Nat :=
  let s := asInt v + val
  if s < -2147483648 ∨ 2147483647 < s then .error .overflow
  else if s < 0 then pure 0
  else pure (((v : Int) + val) % 4294967296).toNat

/-- The new value for components of `k` bytes, ilu_noise.cpp:42-109. -/
def noisyN (k v : Nat) (val : Int) : C Nat :=
  if k = 1 then pure (noisy 255 v val) else if k = 2 then pure (noisy 65535 v val) else noisy32 v val

/-- One pixel, whose first component has the number `i`.  ilu_noise.cpp:55-62. -/
def noisePixel (k bpp i : Nat) (val : Int) (d : List UInt8) : C (List UInt8) :=
  loopN bpp (fun c d => do
    let v ← getN k ((i + c) * k) d
    let v ← noisyN k v val
    putN k ((i + c) * k) v d) d

/-- `if (RegionMask) if (!RegionMask[j]) continue;`, ilu_noise.cpp:50-53: whether the pixel `j` is to be changed. -/
def inRegion (mask : Option (List UInt8)) (j : Nat) : C Bool :=
  match mask with
  | some r => rd r j >>= fun v => pure (v != 0)
  | none => pure true

/-- The loop, ilu_noise.cpp:48-63; `rand` are the values of the generator, and the second part of the state is the number of values that have been used.  A remainder
of a division by 0 is undefined. -/
def noiseLoop (k n bpp factor : Nat) (rand : Nat → Nat) (mask : Option (List UInt8)) (d : List UInt8) : C (List UInt8 × Nat) :=
  forStep 0 n bpp (fun i s =>
    inRegion mask (i / bpp) >>= fun inside =>
    if inside then
      if u32 (factor + factor) = 0 then .error .overflow
      else do
        let val : Int := (rand s.2 % u32 (factor + factor) : Nat) - (factor : Int)
        let d ← noisePixel k bpp i val s.1
        pure (d, s.2 + 1)
    else pure s) (d, 0)

/-- `iluNoisify`, ilu_noise.cpp:22-114: `factor` is the `Factor` of the three cases, `mask` the result of `iScanFill`. -/
def iluNoisify (m : Img) (factor : Nat) (rand : Nat → Nat) (mask : Option (List UInt8)) : C Img :=
  if m.bpc = 1 ∨ m.bpc = 2 ∨ m.bpc = 4 then
    if factor = 0 then pure m
    else do
      let s ← noiseLoop m.bpc (m.size / m.bpc) m.bpp factor rand mask m.data
      pure { m with data := s.1 }
  else pure m

/-! ### Replacing a colour -/

/-- `Dist * Dist` for `Dist = (ILint)Data[i] - (ILint)ClearCol[0]`, ilu_manip.cpp:716-719. -/
def sq (a b : UInt8) : Nat := ((a.toNat : Int) - b.toNat).natAbs ^ 2

/-- The test of ilu_manip.cpp:719-720: the distance is `(ILint)sqrt(...)`, exact for the sums that occur. -/
def within (tol : Nat) (x y z r g b : UInt8) : Bool := Nat.sqrt (sq x r + sq y g + sq z b) ≤ tol

/-- One pixel, ilu_manip.cpp:716-724; `clear` are the first three bytes of `ClearCol`. -/
def replRgb (tol : Nat) (clear new : UInt8 × UInt8 × UInt8) (i : Nat) (d : List UInt8) : C (List UInt8) := do
  let x ← rd d i
  let y ← rd d (i + 1)
  let z ← rd d (i + 2)
  if within tol x y z clear.1 clear.2.1 clear.2.2 then do
    let d ← wr d i new.1
    let d ← wr d (i + 1) new.2.1
    wr d (i + 2) new.2.2
  else pure d

/-- One pixel, ilu_manip.cpp:730-738. -/
def replBgr (tol : Nat) (clear new : UInt8 × UInt8 × UInt8) (i : Nat) (d : List UInt8) : C (List UInt8) := do
  let x ← rd d i
  let y ← rd d (i + 1)
  let z ← rd d (i + 2)
  if within tol x y z clear.1 clear.2.1 clear.2.2 then do
    let d ← wr d (i + 2) new.1
    let d ← wr d (i + 1) new.2.1
    wr d i new.2.2
  else pure d

/-- One pixel, ilu_manip.cpp:744-747. -/
def replLum (tol : Nat) (clear new : UInt8 × UInt8 × UInt8) (i : Nat) (d : List UInt8) : C (List UInt8) := do
  let x ← rd d i
  if ((x.toNat : Int) - clear.1.toNat).natAbs ≤ tol then wr d i new.2.2 else pure d

/-- `iluReplaceColour`, ilu_manip.cpp:688-755.  `tiny` is `Tolerance <= FLT_EPSILON && Tolerance >= 0`, 706, and `tol` is `TolVal`, 703. -/
def iluReplaceColour (tiny : Bool) (tol : Nat) (clear new : UInt8 × UInt8 × UInt8) (m : Img) : C Img :=
  if tiny then pure m
  else if isRgb m.format then do
    let d ← forStep 0 m.size m.bpp (replRgb tol clear new) m.data
    pure { m with data := d }
  else if isBgr m.format then do
    let d ← forStep 0 m.size m.bpp (replBgr tol clear new) m.data
    pure { m with data := d }
  else if m.format = IL_LUMINANCE ∨ m.format = IL_LUMINANCE_ALPHA then do
    let d ← forStep 0 m.size m.bpp (replLum tol clear new) m.data
    pure { m with data := d }
  else pure m

/-! ### Scaling colours -/

/-- `x = (ILint)(d[i] * s); if (x > UCHAR_MAX) ...; if (x < 0) ...; d[i] = x;`, ilu_filter.cpp:735-738; `mul` is `(ILint)(v * s)`, undefined when the value is no `int`. -/
def scaleAt (mul : UInt8 → C Int) (i : Nat) (d : List UInt8) : C (List UInt8) := do
  let v ← rd d i
  let x ← mul v
  wr d i (clamp x)

/-- One colour whose first component is red, ilu_filter.cpp:798-809, 879-890.  The code computes all three values before it stores them. -/
def scaleRgb (r g b : UInt8 → C Int) (i : Nat) (d : List UInt8) : C (List UInt8) := do
  let x ← rd d i >>= r
  let y ← rd d (i + 1) >>= g
  let z ← rd d (i + 2) >>= b
  let d ← wr d i (clamp x)
  let d ← wr d (i + 1) (clamp y)
  wr d (i + 2) (clamp z)

/-- One colour whose first component is blue, ilu_filter.cpp:816-827, 898-909. -/
def scaleBgr (r g b : UInt8 → C Int) (i : Nat) (d : List UInt8) : C (List UInt8) := do
  let x ← rd d (i + 2) >>= r
  let y ← rd d (i + 1) >>= g
  let z ← rd d i >>= b
  let d ← wr d (i + 2) (clamp x)
  let d ← wr d (i + 1) (clamp y)
  wr d i (clamp z)

/-- The palettes whose first component is red, ilu_filter.cpp:875-877. -/
def palRgb (t : Nat) : Bool := t = IL_PAL_RGB24 ∨ t = IL_PAL_RGB32 ∨ t = IL_PAL_RGBA32
/-- The palettes whose first component is blue, ilu_filter.cpp:894-896. -/
def palBgr (t : Nat) : Bool := t = IL_PAL_BGR24 ∨ t = IL_PAL_BGR32 ∨ t = IL_PAL_BGRA32

/-- `iluScaleColours`, ilu_filter.cpp:775-926; `none` is `IL_FALSE`.  The type of an image that is not colour-indexed must be `IL_BYTE`, so of the sizes of components
only one occurs. -/
def iluScaleColours (r g b : UInt8 → C Int) (m : Img) (p : Pal) : C (Option (Img × Pal)) :=
  if m.format ≠ IL_COLOUR_INDEX ∧ m.type ≠ IL_BYTE then pure none
  else if isRgb m.format then do
    let d ← forStep 0 m.size m.bpp (scaleRgb r g b) m.data
    pure (some ({ m with data := d }, p))
  else if isBgr m.format then do
    let d ← forStep 0 m.size m.bpp (scaleBgr r g b) m.data
    pure (some ({ m with data := d }, p))
  else if m.format = IL_LUMINANCE ∨ m.format = IL_LUMINANCE_ALPHA then do
    let d ← forStep 0 (m.size / (m.bpc * m.bpp)) m.bpp (scaleAt r) m.data
    pure (some ({ m with data := d }, p))
  else if m.format = IL_COLOUR_INDEX then
    if palRgb p.type then do
      let d ← forStep 0 p.size (ilGetBppPal p.type) (scaleRgb r g b) p.data
      pure (some (m, { p with data := d }))
    else if palBgr p.type then do
      let d ← forStep 0 p.size (ilGetBppPal p.type) (scaleBgr r g b) p.data
      pure (some (m, { p with data := d }))
    else pure none
  else pure none

/-- `iluScaleAlpha`, ilu_filter.cpp:714-767; `none` is `IL_FALSE`. -/
def iluScaleAlpha (s : UInt8 → C Int) (m : Img) (p : Pal) : C (Option (Img × Pal)) :=
  if m.format ≠ IL_COLOUR_INDEX ∧ m.type ≠ IL_BYTE then pure none
  else if m.format = IL_BGRA ∨ m.format = IL_RGBA then do
    let d ← forStep 0 m.size m.bpp (fun i d => scaleAt s (i + 3) d) m.data
    pure (some ({ m with data := d }, p))
  else if m.format = IL_COLOUR_INDEX then
    if p.type = IL_PAL_RGBA32 ∨ p.type = IL_PAL_BGRA32 then do
      let d ← forStep 0 p.size (ilGetBppPal p.type) (fun i d => scaleAt s (i + 3) d) p.data
      pure (some (m, { p with data := d }))
    else pure none
  else pure none

/-! ### Gamma -/

/-- The number of binary digits of `n`, which is not 0, and 0 for 0.  Not in the code: part of the arithmetic of floating-point numbers, for ilu_filter.cpp:949. -/
def bits (n : Nat) : Nat := if n = 0 then 0 else Nat.log2 n + 1

/-- A number that is not negative rounded to `p` binary digits, to the nearest and to even; the number is `a / b`, the result is `a' / b'`.  Not in the code: what the host does in
ilu_filter.cpp:949, 955. -/
def fl (p : Nat) (q : Nat × Nat) : Nat × Nat :=
  if q.1 = 0 then (0, 1) else
  -- `e` digits after the point leave at least `p` digits and one more
  let e := p + 1 + bits q.2 - bits q.1
  let f := bits q.1 - (p + 1 + bits q.2)
  let n := q.1 * 2 ^ e / (q.2 * 2 ^ f)
  let k := bits n - p
  let u := 2 ^ k
  let t := n / u
  let rest := (q.1 * 2 ^ e) - t * u * (q.2 * 2 ^ f)
  let half := u * (q.2 * 2 ^ f)
  let t := if 2 * rest > half ∨ (2 * rest = half ∧ t % 2 = 1) then t + 1 else t
  (t * u * 2 ^ f, 2 ^ e)

/-- `Table[i]` for `Gamma = 1`, ilu_filter.cpp:949: `i / 255.0` is a `double`, `pow(x, 1.0)` is `x`, and the result becomes a `float`. -/
def table1 (i : Nat) : Nat × Nat := fl 24 (fl 53 (i, 255))

/-- `(ILubyte)(Table[v] * 255)`, ilu_filter.cpp:955, 964 and, with 65535, 971: the product is a `float`. -/
def times (t : Nat × Nat) (k : Nat) : Nat :=
  let q := fl 24 (t.1 * k, t.2)
  q.1 / q.2

/-- `(ILuint)(t * UINT_MAX)`, ilu_filter.cpp:978: `UINT_MAX` becomes the `float` 4294967296, and a value that is no `ILuint` is undefined. -/
def times32 (t : Nat × Nat) : C Nat :=
  let q := fl 24 (t.1 * 4294967296, t.2)
  if q.1 / q.2 < 4294967296 then pure (q.1 / q.2) else .error .overflow

/-- `iluGammaCorrect`, ilu_filter.cpp:935-985; `table` is `Table`. -/
def iluGammaCorrect (table : Nat → Nat × Nat) (m : Img) (p : Pal) : C (Img × Pal) :=
  if m.format = IL_COLOUR_INDEX then do
    let d ← loopN p.size (fun i d => rd d i >>= fun v => wr d i (UInt8.ofNat (times (table v.toNat) 255))) p.data
    pure (m, { p with data := d })
  else if m.bpc = 1 then do
    let d ← loopN m.size (fun i d => rd d i >>= fun v => wr d i (UInt8.ofNat (times (table v.toNat) 255))) m.data
    pure ({ m with data := d }, p)
  else if m.bpc = 2 then do
    let d ← loopN (m.size / 2) (fun i d => getN 2 (i * 2) d >>= fun v => putN 2 (i * 2) (times (table (v / 2 ^ 8)) 65535) d) m.data
    pure ({ m with data := d }, p)
  else if m.bpc = 4 then do
    let d ← loopN (m.size / 4) (fun i d => getN 4 (i * 4) d >>= fun v => times32 (table (v / 2 ^ 24)) >>= fun v => putN 4 (i * 4) v d) m.data
    pure ({ m with data := d }, p)
  else pure (m, p)

/-! ### Equalizing -/

/-- The histogram, ilu_manip.cpp:804-806. -/
def histogram (n : Nat) (lum : List UInt8) : C (List Nat) :=
  loopN n (fun i h => do
    let v ← rd lum i
    let c ← rd h v.toNat
    wr h v.toNat (u32 (c + 1))) (List.replicate 256 0)

/-- `SumHistm`, ilu_manip.cpp:809-815. -/
def sumHist (n : Nat) (h : List Nat) : C (List Nat) :=
  loopN 256 (fun i s => do
    let sum ← loopN i (fun j sum => rd h j >>= fun v => pure (u32 (sum + v))) 0
    if n = 0 then .error .overflow
    else wr s i (u32 (sum * 256) / n)) (List.replicate 256 0)

/-- `NewColour[k] = (ILuint)(BytePtr[at] * Scale)` and the limit, ilu_manip.cpp:830-850; `mul v new old` is `(ILuint)(v * (new / old))`.  With `old = 0` the quotient is no number (`new` is 0
as well), and to make it an integer is undefined. -/
def stretch (mul : UInt8 → Nat → Nat → Nat) (new old : Nat) (v : UInt8) : C UInt8 :=
  if old = 0 then .error .overflow else pure (UInt8.ofNat (min 255 (mul v new old)))

/-- One pixel or palette entry, ilu_manip.cpp:824-857: `comps` is `Bpp`, `at_` is `i * iluCurImage->Bpp`. -/
def equalOne (mul : UInt8 → Nat → Nat → Nat) (sums : List Nat) (lum : List UInt8) (comps i at_ : Nat) (d : List UInt8) : C (List UInt8) := do
  let old ← rd lum i
  let new ← rd sums old.toNat
  let x ← rd d at_ >>= stretch mul new old.toNat
  if comps ≥ 3 then do
    let y ← rd d (at_ + 1) >>= stretch mul new old.toNat
    let z ← rd d (at_ + 2) >>= stretch mul new old.toNat
    let d ← wr d at_ x
    let d ← wr d (at_ + 1) y
    wr d (at_ + 2) z
  else wr d at_ x

/-- `iluEqualize`, ilu_manip.cpp:759-905; `none` is `IL_FALSE`.  `lum` is the data of the image converted to `IL_LUMINANCE`, 801. -/
def iluEqualize (mul : UInt8 → Nat → Nat → Nat) (lum : List UInt8) (m : Img) (p : Pal) : C (Option (Img × Pal)) :=
  if m.bpc > 1 then pure none
  else if m.format = IL_COLOUR_INDEX then
    if ilGetBppPal p.type = 0 then .error .overflow
    else do
      let n := p.size / ilGetBppPal p.type
      let h ← histogram n lum
      let s ← sumHist n h
      let d ← loopN n (fun i d => equalOne mul s lum (ilGetBppPal p.type) i (i * m.bpp) d) p.data
      pure (some (m, { p with data := d }))
  else do
    let n := u32 (u32 (m.width * m.height) * m.depth)
    let h ← histogram n lum
    let s ← sumHist n h
    let d ← loopN n (fun i d => equalOne mul s lum m.bpp i (i * m.bpp) d) m.data
    pure (some ({ m with data := d }, p))

end DevIL.Colour
