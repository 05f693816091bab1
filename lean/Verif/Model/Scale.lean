import Verif.Model.Image
import Verif.Model.Enums
import Verif.Buf
/-! Model of `iluScale` with the filters `ILU_NEAREST` and `ILU_LINEAR`: ilu_scale.cpp, ilu_scale2d.cpp, ilu_scale3d.cpp.  `ILU_BILINEAR` and the filters of ilu_filter_rcg.cpp are not
modelled, nor are colour-indexed images, which are converted before and after. -/
set_option autoImplicit false
namespace DevIL.Scale
open DevIL.Utility

/-- A number that is not negative, as a fraction; a value of type `ILdouble`, ilu_scale2d.cpp:25. -/
structure Q where
  num : Nat
  den : Nat
  deriving DecidableEq

/-- `(ILuint)q`, ilu_scale2d.cpp:65. -/
def Q.trunc (q : Q) : Nat := q.num / q.den

/-- The arithmetic of the host: `(ILfloat)a / b` (ilu_scale2d.cpp:41), division and multiplication of doubles, and `(1.0 - f) * x1 + f * x2` of ilu_scale2d.cpp:133, where `f` is found
from the first argument, 123-126, for elements of the image. -/
structure Arith where
  div32 : Nat → Nat → Q
  div64 : Q → Q → Q
  mul64 : Q → Q → Q
  mix : Q → List UInt8 → List UInt8 → List UInt8

/-- `(ILuint)(x / ScaleX)`, ilu_scale2d.cpp:65, 68. -/
def Arith.at_ (A : Arith) (scale : Q) (x : Nat) : Nat := (A.div64 ⟨x, 1⟩ scale).trunc

/-- `switch (Image->Bpc)`, ilu_scale2d.cpp:60-109: with other sizes nothing is done. -/
def sized (bpc : Nat) (f : C (List UInt8)) (d : List UInt8) : C (List UInt8) := if bpc = 1 ∨ bpc = 2 ∨ bpc = 4 then f else .ok d

/-- Copying element `j` of a block to element `i` of another, for elements of `k` bytes.  ilu_scale2d.cpp:70. -/
def elem (k i j : Nat) (src d : List UInt8) : C (List UInt8) := memcpy d (i * k) src (j * k) k

/-- The nearest filter in one dimension, ilu_scale.cpp:204-236. -/
def near1D (A : Arith) (m s : Img) (w : Nat) : C (List UInt8) :=
  let sx := A.div64 ⟨w, 1⟩ ⟨m.width, 1⟩
  sized m.bpc (loopN w (fun x d => loopN s.bpp (fun c d => elem m.bpc (u32 (x * s.bpp + c)) (u32 (A.at_ sx x * m.bpp + c)) m.data d) d) s.data) s.data

/-- The linear filter in one dimension, ilu_scale.cpp:237-302. -/
def linear1D (A : Arith) (m s : Img) (w : Nat) : C (List UInt8) :=
  let sx := A.div64 ⟨w, 1⟩ ⟨m.width, 1⟩
  sized m.bpc (loopN w (fun x d => loopN s.bpp (fun c d => do
    let t := A.mul64 (A.div64 ⟨x, 1⟩ ⟨w, 1⟩) ⟨w, 1⟩
    let x1 ← memcpy (List.replicate m.bpc 0) 0 m.data (u32 ((A.div64 t sx).trunc * m.bpp + c) * m.bpc) m.bpc
    let x2 ← memcpy (List.replicate m.bpc 0) 0 m.data (u32 (((A.div64 t sx).trunc + 1) * m.bpp + c) * m.bpc) m.bpc
    memcpy d (u32 (x * s.bpp + c) * m.bpc) (A.mix t x1 x2) 0 m.bpc) d) s.data) s.data

/-- `iluScale2DNear_`, ilu_scale2d.cpp:54-112. -/
def near2D (A : Arith) (m s : Img) (w h : Nat) (sx sy : Q) : C (List UInt8) :=
  let imgBps := m.bps / m.bpc
  let sclBps := s.bps / s.bpc
  sized m.bpc (loopN h (fun y d => loopN w (fun x d => loopN s.bpp (fun c d =>
    elem m.bpc (u32 (y * sclBps + x * s.bpp + c)) (u32 (A.at_ sy y * imgBps + A.at_ sx x * m.bpp + c)) m.data d) d) d) s.data) s.data

/-- `iluScale2DLinear_`, ilu_scale2d.cpp:115-193. -/
def linear2D (A : Arith) (m s : Img) (w h : Nat) (sx sy : Q) : C (List UInt8) :=
  let imgBps := m.bps / m.bpc
  let sclBps := s.bps / s.bpc
  sized m.bpc (loopN h (fun y d => loopN w (fun x d => loopN s.bpp (fun c d => do
    let t := A.mul64 (A.div64 ⟨x, 1⟩ ⟨w, 1⟩) ⟨w, 1⟩
    let x1 ← memcpy (List.replicate m.bpc 0) 0 m.data (u32 (A.at_ sy y * imgBps + (A.div64 t sx).trunc * m.bpp + c) * m.bpc) m.bpc
    let x2 ← memcpy (List.replicate m.bpc 0) 0 m.data (u32 (A.at_ sy y * imgBps + ((A.div64 t sx).trunc + 1) * m.bpp + c) * m.bpc) m.bpc
    memcpy d (u32 (y * sclBps + x * s.bpp + c) * m.bpc) (A.mix t x1 x2) 0 m.bpc) d) d) s.data) s.data

/-- `iluScale2D_`, ilu_scale2d.cpp:34-51; `linear` is `iluFilter == ILU_LINEAR`. -/
def iluScale2D (A : Arith) (linear : Bool) (m s : Img) (w h : Nat) : C (List UInt8) :=
  let sx := A.div32 w m.width
  let sy := A.div32 h m.height
  if linear then linear2D A m s w h sx sy else near2D A m s w h sx sy

/-- `iluScale3D_`, ilu_scale3d.cpp:32-50, and `iluScale3DNear_`, 53-128; the filter is not used. -/
def iluScale3D (A : Arith) (m s : Img) (w h d : Nat) : C (List UInt8) :=
  let sx := A.div32 w m.width
  let sy := A.div32 h m.height
  let sz := A.div32 d m.depth
  let imgBps := m.bps / m.bpc
  let sclBps := s.bps / s.bpc
  let imgPlane := m.plane / m.bpc
  let sclPlane := s.plane / s.bpc
  sized m.bpc (loopN d (fun z b => loopN h (fun y b => loopN w (fun x b => loopN s.bpp (fun c b =>
    elem m.bpc (u32 (z * sclPlane + y * sclBps + x * s.bpp + c)) (u32 (A.at_ sz z * imgPlane + A.at_ sy y * imgBps + A.at_ sx x * m.bpp + c)) m.data b) b) b) b) s.data) s.data

/-- `iluScale1D_`, ilu_scale.cpp:188-306, which is followed by the two-dimensional version. -/
def iluScale1D (A : Arith) (linear : Bool) (m s : Img) (w : Nat) : C (List UInt8) := if linear then linear1D A m s w else near1D A m s w

/-- `iluScale_`, ilu_scale.cpp:131-185, for an image that is not colour-indexed; allocation succeeds.  `ilCopyImageAttr` copies all fields that are modelled. -/
def iluScale_ (A : Arith) (linear : Bool) (junk : Nat → UInt8) (m : Img) (w h d : Nat) : C Img := do
  let s := Image.ilResizeImage junk m w h d m.bpp m.bpc
  let d1 ← (if h ≤ 1 ∧ m.height ≤ 1 then iluScale1D A linear m s w else .ok s.data)
  let s := { s with data := d1 }
  let d2 ← (if d ≤ 1 ∧ m.depth ≤ 1 then iluScale2D A linear m s w h else iluScale3D A m s w h d)
  pure { s with data := d2 }

/-- `iluScale`, ilu_scale.cpp:35-128, with the filter `ILU_NEAREST` or `ILU_LINEAR`: the current image afterwards; `none` is `IL_FALSE`. -/
def iluScale (A : Arith) (linear : Bool) (junk junk' : Nat → UInt8) (m : Img) (w h d : Nat) : C (Option Img) :=
  if m.width = w ∧ m.height = h ∧ m.depth = d then pure (some m)
  else do
    let t ← iluScale_ A linear junk m (Image.atLeast1 w) (Image.atLeast1 h) (Image.atLeast1 d)
    match ← Image.ilInitImage junk' t.width t.height t.depth t.bpp t.format t.type (some t.data) with
    | none => pure none
    | some n => pure (some { n with origin := m.origin })

end DevIL.Scale
