import Verif.Model.Colour
/-! Model of the block average and of the 3x3 filters of DevIL/src-ILU/src/ilu_filter.cpp.  The current image is a parameter. -/
set_option autoImplicit false
namespace DevIL.Filter
open Utility

/-! ### iluPixelize -/

/-- `for (x = 0; x < stop; x += PixSize)`, e.g. ilu_filter.cpp:38-40.  Simplified: the counter can wrap around only when `stop` is above 2^31, and then the
model says that the loop does not end. -/
def steps {σ : Type} (stop step : Nat) (f : Nat → σ → C σ) (s : σ) : C σ :=
  if stop ≤ 2147483648 then forStep 0 stop step f s else .error .hang

/-- `for (i = 0; i < PixSize && x+i < Width; i++)`, e.g. ilu_filter.cpp:45, from `x` on. -/
def within {σ : Type} (step x stop : Nat) (f : Nat → σ → C σ) (s : σ) : C σ := loopN (min step (stop - x)) f s

/-- The element `(z * SizeOfPlane + y * Bps + x * Bpp + c)`, ilu_filter.cpp:46-47, computed in 32 bits. -/
def at_ (m : Img) (bps x y z c : Nat) : Nat := u32 (z * m.plane + y * bps + x * m.bpp + c)

/-- The first loops over a block, ilu_filter.cpp:42-50, also 78-86 and 113-121: the sum and the number of the components `c` of the block at `x, y, z`;
`get` reads an element. -/
def blockSum (get : Nat → C Nat) (m : Img) (bps p x y z c : Nat) : C (Nat × Nat) :=
  within p z m.depth (fun k a => within p y m.height (fun j a => within p x m.width (fun i a => do
    let v ← get (at_ m bps (x + i) (y + j) (z + k) c)
    pure (u32 (a.1 + v), u32 (a.2 + 1))) a) a) (0, 0)

/-- The second loops over a block, ilu_filter.cpp:53-65: `Total` into every component `c` of the block that the region contains. -/
def blockPut (m : Img) (mask : Option (List UInt8)) (p x y z c total : Nat) (d : List UInt8) : C (List UInt8) :=
  within p z m.depth (fun k d => within p y m.height (fun j d => within p x m.width (fun i d => do
    let r ← Colour.inRegion mask (u32 ((y + j) * m.width + (x + i)))
    if r then wr d (at_ m m.bps (x + i) (y + j) (z + k) c) (UInt8.ofNat total) else pure d) d) d) d

/-- The case of one byte per component, ilu_filter.cpp:37-70. -/
def pixelBytes (m : Img) (mask : Option (List UInt8)) (p : Nat) (d : List UInt8) : C (List UInt8) :=
  steps m.depth p (fun z d => steps m.height p (fun y d => steps m.width p (fun x d => loopN m.bpp (fun c d => do
    let (total, tested) ← blockSum (fun i => do let v ← rd d i; pure v.toNat) m m.bps p x y z c
    blockPut m mask p x y z c (total / tested) d) d) d) d) d

/-- `if (RegionMask[r+i])`, ilu_filter.cpp:92, 127 and 162: the mask is used even when there is none. -/
def mustMask (mask : Option (List UInt8)) (i : Nat) : C Bool :=
  match mask with
  | none => .error .nullDeref
  | some r => do let v ← rd r i; pure (v ≠ 0)

/-- The second loops for wider components, ilu_filter.cpp:89-99 and 124-134. -/
def blockPutWide (k : Nat) (m : Img) (mask : Option (List UInt8)) (p r x y z c total : Nat) (d : List UInt8) : C (List UInt8) :=
  within p z m.depth (fun kk d => within p y m.height (fun j d => within p x m.width (fun i d => do
    let b ← mustMask mask (u32 (r + i))
    if b then Colour.putN k (at_ m (m.bps / k) (x + i) (y + j) (z + kk) c * k) total d else pure d) d) d) d

/-- The cases of two and four bytes per component, ilu_filter.cpp:71-105 and 106-140; `r` counts the columns of the blocks.  The case of eight bytes,
ilu_filter.cpp:141-175, has the same loops; there `mean` stands for the average in floating point. -/
def pixelWide (mean : Nat → Nat → Nat) (k : Nat) (m : Img) (mask : Option (List UInt8)) (p : Nat) (d : List UInt8) : C (List UInt8 × Nat) :=
  steps m.depth p (fun z s => steps m.height p (fun y s => steps m.width p (fun x s => do
    let d ← loopN m.bpp (fun c d => do
      let (total, tested) ← blockSum (fun i => Colour.getN k (i * k) d) m (m.bps / k) p x y z c
      blockPutWide k m mask p s.2 x y z c (mean total tested) d) s.1
    pure (d, u32 (s.2 + p))) s) s) (d, 0)

/-- `iluPixelize`, ilu_filter.cpp:12-181, on an image with a format other than `IL_COLOUR_INDEX`, which would first be converted; `mask` is the result of
`iScanFill`, `mean8` the average of doubles. -/
def iluPixelize (mean8 : Nat → Nat → Nat) (m : Img) (mask : Option (List UInt8)) (pixSize : Nat) : C Img :=
  let p := if pixSize = 0 then 1 else pixSize
  if m.bpc = 1 then do
    let d ← pixelBytes m mask p m.data
    pure { m with data := d }
  else if m.bpc = 2 ∨ m.bpc = 4 then do
    let s ← pixelWide (fun t n => t / n) m.bpc m mask p m.data
    pure { m with data := s.1 }
  else if m.bpc = 8 then do
    let s ← pixelWide mean8 8 m mask p m.data
    pure { m with data := s.1 }
  else pure m

/-! ### Filter -/

/-- A value of type `ILint`. -/
def fits (v : Int) : C Int := if -2147483648 ≤ v ∧ v < 2147483648 then pure v else .error .overflow

/-- `Num = Data[Offsets[0]+c] * matrix[0] + ... + Data[Offsets[8]+c] * matrix[8]`, e.g. ilu_filter.cpp:253-261, with the data from `base` on; products and
sums are of type `ILint`. -/
def weigh (d : List UInt8) (base : Nat) (offs : List Nat) (c : Nat) (mat : List Int) : C Int :=
  loopN 9 (fun k s => do
    let v ← rd d (base + u32 (offs.getD k 0 + c))
    let p ← fits ((v.toNat : Int) * mat.getD k 0)
    fits (s + p)) 0

/-- `Temp = (ILuint)fabs((Num / (ILdouble)scale) + bias); if (Temp > 255) ... = 255; else ... = Temp`, e.g. ilu_filter.cpp:263-267.  The quotient of two
integers of 32 bits is exact enough for its whole part when that is below 256; a division by zero has no whole part. -/
def tone (num scale bias : Int) : C UInt8 :=
  if scale = 0 then .error .overflow else pure (UInt8.ofNat (min 255 ((num + bias * scale).natAbs / scale.natAbs)))

/-- One component of the result, e.g. ilu_filter.cpp:253-267. -/
def filterAt (d : List UInt8) (base : Nat) (offs : List Nat) (dst c : Nat) (mat : List Int) (scale bias : Int) (o : List UInt8) : C (List UInt8) := do
  let num ← weigh d base offs c mat
  let v ← tone num scale bias
  wr o (base + u32 (dst + c)) v

/-- The `Offsets` of the pixel `x, y` inside, ilu_filter.cpp:216, 226-233.  The last one is that of the seventh. -/
def insideOffs (m : Img) (x y : Nat) : List Nat :=
  [((y - 1) * m.width + (x - 1)) * m.bpp, ((y - 1) * m.width + x) * m.bpp, ((y - 1) * m.width + (x + 1)) * m.bpp,
   (y * m.width + (x - 1)) * m.bpp, (y * m.width + x) * m.bpp, (y * m.width + (x + 1)) * m.bpp,
   ((y + 1) * m.width + (x - 1)) * m.bpp, ((y + 1) * m.width + x) * m.bpp, ((y + 1) * m.width + (x - 1)) * m.bpp].map u32

/-- The pixels inside, ilu_filter.cpp:214-270; the component 0 is treated apart in the code. -/
def inside (m : Img) (base : Nat) (mat : List Int) (scale bias : Int) (o : List UInt8) : C (List UInt8) :=
  loopN (m.height - 2) (fun y o => loopN (m.width - 2) (fun x o => loopN m.bpp (fun c o =>
    filterAt m.data base (insideOffs m (x + 1) (y + 1)) (u32 (((y + 1) * m.width + (x + 1)) * m.bpp)) c mat scale bias o) o) o) o

/-- `Data[i] = Image->Data[i]` from `base` on, e.g. ilu_filter.cpp:275. -/
def keep (d : List UInt8) (base i : Nat) (o : List UInt8) : C (List UInt8) := do
  let v ← rd d (base + i)
  wr o (base + i) v

/-- `Copy 4 corners`, ilu_filter.cpp:273-280. -/
def corners (m : Img) (base : Nat) (o : List UInt8) : C (List UInt8) :=
  loopN m.bpp (fun c o => do
    let o ← keep m.data base c o
    let o ← keep m.data base (u32 (m.bps + 4294967296 - m.bpp + c)) o
    let o ← keep m.data base (u32 ((m.height - 1) * m.bps + c)) o
    keep m.data base (u32 (m.height * m.bps + 4294967296 - m.bpp + c)) o) o

/-- The first row, ilu_filter.cpp:296-304: the row itself stands for the one above. -/
def firstOffs (m : Img) (x : Nat) : List Nat :=
  [(x - 1) * m.bpp, x * m.bpp, (x + 1) * m.bpp, (x - 1) * m.bpp, x * m.bpp, (x + 1) * m.bpp,
   (m.width + (x - 1)) * m.bpp, (m.width + x) * m.bpp, (m.width + (x - 1)) * m.bpp].map u32

/-- The last row, ilu_filter.cpp:324-332, with `y` the offset of the row: the row itself stands for the one below. -/
def lastOffs (m : Img) (y x : Nat) : List Nat :=
  [y + 4294967296 - m.bps + (x - 1) * m.bpp, y + 4294967296 - m.bps + x * m.bpp, y + 4294967296 - m.bps + (x + 1) * m.bpp,
   y + (x - 1) * m.bpp, y + x * m.bpp, y + (x + 1) * m.bpp, y + (x - 1) * m.bpp, y + x * m.bpp, y + (x - 1) * m.bpp].map u32

/-- The first row and the last row, ilu_filter.cpp:287-340. -/
def rows (m : Img) (base : Nat) (mat : List Int) (scale bias : Int) (o : List UInt8) : C (List UInt8) := do
  let o ← loopN (m.width - 2) (fun x o => loopN m.bpp (fun c o =>
    filterAt m.data base (firstOffs m (x + 1)) (u32 ((x + 1) * m.bpp)) c mat scale bias o) o) o
  let y := u32 ((m.height - 1) * m.bps)
  loopN (m.width - 2) (fun x o => loopN m.bpp (fun c o =>
    filterAt m.data base (lastOffs m y (x + 1)) (u32 (y + (x + 1) * m.bpp)) c mat scale bias o) o) o

/-- The nine places of the left and the right side, ilu_filter.cpp:351-359 and 380-388: both take the pixel at `y` for the left neighbour. -/
def sideOffs (m : Img) (y : Nat) : List Nat :=
  [y + 4294967296 - m.bps, y + 4294967296 - m.bps + m.bpp, y + 4294967296 - m.bps + 2 * m.bpp, y, y + m.bpp, y + 2 * m.bpp,
   y + m.bps, y + m.bps + m.bpp, y + m.bps + 2 * m.bpp].map u32

/-- The left side from `y = Bps` on and the right side from `y = Bps * 2 - Bpp` on, ilu_filter.cpp:342-396. -/
def sides (m : Img) (base : Nat) (mat : List Int) (scale bias : Int) (o : List UInt8) : C (List UInt8) := do
  let o ← loopN (m.height - 2) (fun i o => loopN m.bpp (fun c o =>
    filterAt m.data base (sideOffs m (u32 ((i + 1) * m.bps))) (u32 ((i + 1) * m.bps)) c mat scale bias o) o) o
  loopN (m.height - 2) (fun i o => loopN m.bpp (fun c o =>
    filterAt m.data base (sideOffs m (u32 ((i + 2) * m.bps + 4294967296 - m.bpp))) (u32 ((i + 2) * m.bps + 4294967296 - m.bpp)) c mat scale bias o) o) o

/-- `Filter`, ilu_filter.cpp:188-410, on an image of bytes with width and height above 0 and below 2^31, when no region is set.  `junk` is what the new block
holds. -/
def filter (junk : Nat → UInt8) (m : Img) (mat : List Int) (scale bias : Int) : C (List UInt8) :=
  loopN m.depth (fun z o => do
    let o ← inside m (z * m.plane) mat scale bias o
    let o ← corners m (z * m.plane) o
    let o ← rows m (z * m.plane) mat scale bias o
    sides m (z * m.plane) mat scale bias o) (alloc junk m.size)

/-- `iluConvolution`, ilu_filter.cpp:1285-1317, and with the tables of ilu_filter.h `iluEmboss` (610-644) and `iluEdgeDetectE` (678-712).  For an image of bytes
that is not colour-indexed: others are converted before and after. -/
def iluConvolution (junk : Nat → UInt8) (m : Img) (mat : List Int) (scale bias : Int) : C Img := do
  let d ← filter junk m mat scale bias
  pure { m with data := d }

/-- The loop of `iluBlurAvg`, ilu_filter.cpp:553-559, and of `iluBlurGaussian`, ilu_filter.cpp:593-599. -/
def blur (junk : Nat → UInt8) (m : Img) (mat : List Int) (scale bias : Int) (iter : Nat) : C Img :=
  loopN iter (fun _ m => iluConvolution junk m mat scale bias) m

/-- `filter_average`, ilu_filter.h:20-25. -/
def average : List Int := [1, 1, 1, 1, 1, 1, 1, 1, 1]
/-- `filter_gaussian`, ilu_filter.h:28-33. -/
def gaussian : List Int := [1, 2, 1, 2, 4, 2, 1, 2, 1]
/-- `filter_h_sobel`, ilu_filter.h:36-41. -/
def hSobel : List Int := [1, 2, 1, 0, 0, 0, -1, -2, -1]
/-- `filter_v_sobel`, ilu_filter.h:44-49. -/
def vSobel : List Int := [1, 0, -1, 2, 0, -2, 1, 0, -1]
/-- `filter_h_prewitt`, ilu_filter.h:52-57. -/
def hPrewitt : List Int := [1, 1, 1, 0, 0, 0, -1, -1, -1]
/-- `filter_v_prewitt`, ilu_filter.h:60-65. -/
def vPrewitt : List Int := [1, 0, -1, 1, 0, -1, 1, 0, -1]
/-- `filter_emboss` and `filter_embossedge`, ilu_filter.h:67-79. -/
def embossed : List Int := [-1, 0, 1, -1, 0, 1, -1, 0, 1]

/-- `iluBlurAvg`, ilu_filter.cpp:530-567, with the scale and the bias of ilu_filter.h:20-21. -/
def iluBlurAvg (junk : Nat → UInt8) (m : Img) (iter : Nat) : C Img := blur junk m average 9 1 iter
/-- `iluBlurGaussian`, ilu_filter.cpp:570-607, with the scale and the bias of ilu_filter.h:28-29. -/
def iluBlurGaussian (junk : Nat → UInt8) (m : Img) (iter : Nat) : C Img := blur junk m gaussian 16 1 iter
/-- `iluEmboss`, ilu_filter.cpp:610-644, with the scale and the bias of ilu_filter.h:67-68. -/
def iluEmboss (junk : Nat → UInt8) (m : Img) : C Img := iluConvolution junk m embossed 1 128
/-- `iluEdgeDetectE`, ilu_filter.cpp:678-712, with the scale and the bias of ilu_filter.h:74-75. -/
def iluEdgeDetectE (junk : Nat → UInt8) (m : Img) : C Img := iluConvolution junk m embossed 1 0

/-- One byte of the two passes, ilu_filter.cpp:448-453 and 506-511: the root of a sum of squares below 2^17, without its fraction, must fit into a byte. -/
def combine (h v : UInt8) : C UInt8 :=
  if h = 0 then pure v
  else if v = 0 then pure h
  else
    let r := Nat.sqrt (h.toNat * h.toNat + v.toNat * v.toNat)
    if r ≤ 255 then pure (UInt8.ofNat r) else .error .overflow

/-- The two passes and their combination, ilu_filter.cpp:437-454 and 495-512. -/
def edges (junk junk' : Nat → UInt8) (m : Img) (hm vm : List Int) : C Img := do
  let h ← filter junk m hm 1 0
  let v ← filter junk' m vm 1 0
  let d ← loopN m.size (fun i d => do
    let a ← rd h i
    let b ← rd v i
    let r ← combine a b
    wr d i r) m.data
  pure { m with data := d }

/-- `iluEdgeDetectP`, ilu_filter.cpp:413-469, on an image of bytes that is not colour-indexed. -/
def iluEdgeDetectP (junk junk' : Nat → UInt8) (m : Img) : C Img := edges junk junk' m hPrewitt vPrewitt
/-- `iluEdgeDetectS`, ilu_filter.cpp:472-527, on an image of bytes that is not colour-indexed. -/
def iluEdgeDetectS (junk junk' : Nat → UInt8) (m : Img) : C Img := edges junk junk' m hSobel vSobel

end DevIL.Filter
