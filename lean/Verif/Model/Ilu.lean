import Verif.Model.Manip
import Verif.Model.Channels
import Verif.Model.Clear
import Verif.Model.Pal
/-! Model of DevIL/src-ILU/src/ilu_manip.cpp and ilu_mipmap.cpp.  The current image is a parameter. -/
set_option autoImplicit false
namespace DevIL.Ilu
open Utility

/-! ### Complements -/

/-- `p[j] = ~p[j]` on components of `k` bytes, e.g. ilu_manip.cpp:407: the complement of an integer is the complement of its
bytes, in either byte order. -/
def notComp (k j : Nat) (b : List UInt8) : C (List UInt8) :=
  loopN k (fun c b => rd b (j * k + c) >>= fun v => wr b (j * k + c) (~~~v)) b

/-- The loops without a region, ilu_manip.cpp:402-423. -/
def negPlain (k n : Nat) (d : List UInt8) : C (List UInt8) := loopN n (fun j d => notComp k j d) d

/-- The loops within a region, ilu_manip.cpp:368-400: `j` runs over components in steps of `Bpp`, `i` counts the steps. -/
def negMasked (k n bpp : Nat) (mask d : List UInt8) : C (List UInt8) :=
  forStep 0 n bpp (fun j d => loopN bpp (fun c d => do
    let r ← rd mask (j / bpp)
    if r ≠ 0 then notComp k (j + c) d else pure d) d) d

/-- The two switches of `iluNegative`, ilu_manip.cpp:368-424, on a block of `n` components: sizes other than 1, 2 and 4 have no
case. -/
def negate (k n bpp : Nat) (mask : Option (List UInt8)) (d : List UInt8) : C (List UInt8) :=
  if k = 1 ∨ k = 2 ∨ k = 4 then
    match mask with
    | some r => negMasked k n bpp r d
    | none => negPlain k n d
  else pure d

/-- `iluNegative`, ilu_manip.cpp:335-429, with the result of `iScanFill` as a parameter; `none` is `IL_FALSE`. -/
def iluNegative (m : Img) (pal : Option Pal) (mask : Option (List UInt8)) : C (Option (Img × Option Pal)) :=
  if m.format = IL_COLOUR_INDEX then
    match pal with
    | none => pure none
    | some p =>
      if p.size = 0 ∨ p.type = IL_PAL_NONE then pure none
      else do
        let d ← negate m.bpc (p.size / m.bpc) m.bpp mask p.data
        pure (some (m, some { p with data := d }))
  else do
    let d ← negate m.bpc (m.size / m.bpc) m.bpp mask m.data
    pure (some ({ m with data := d }, pal))

/-- `p[j] = f(p[j])` on components of `k` bytes.  For example ilu_manip.cpp:300-330. -/
def mapComp (k : Nat) (f : List UInt8 → List UInt8) (j : Nat) (b : List UInt8) : C (List UInt8) :=
  if j * k + k ≤ b.length then
    loopN k (fun c b' => wr b' (j * k + c) ((f ((b.drop (j * k)).take k)).getD c 0)) b
  else .error .oobRead

/-- The cases of the switch of `iluInvertAlpha`, ilu_manip.cpp:294-328: the size of a component and what happens to it.  `sub`
stands for `1.0f - x` on the bytes of a `float` or `double`. -/
def alphaCase (sub : List UInt8 → List UInt8) (type : Nat) : Option (Nat × (List UInt8 → List UInt8)) :=
  if type = IL_BYTE ∨ type = IL_UNSIGNED_BYTE then some (1, List.map (~~~·))
  else if type = IL_SHORT ∨ type = IL_UNSIGNED_SHORT then some (2, List.map (~~~·))
  else if type = IL_INT ∨ type = IL_UNSIGNED_INT then some (4, List.map (~~~·))
  else if type = IL_FLOAT then some (4, sub)
  else if type = IL_DOUBLE then some (8, sub)
  else none

/-- `iluInvertAlpha`, ilu_manip.cpp:269-331; `none` is `IL_FALSE`.  The counter starts at `Bpp - 1`. -/
def iluInvertAlpha (sub : List UInt8 → List UInt8) (m : Img) : C (Option Img) :=
  if m.format ≠ IL_RGBA ∧ m.format ≠ IL_BGRA ∧ m.format ≠ IL_LUMINANCE_ALPHA then pure none
  else
    match alphaCase sub m.type with
    | none => pure (some m)
    | some (k, f) => do
      let d ← loopN (u32 (u32 (m.width * m.height) * m.depth) - (m.bpp - 1)) (fun i d => mapComp k f (m.bpp - 1 + i * m.bpp) d) m.data
      pure (some { m with data := d })

/-! ### Cropping and enlarging -/

/-- `iluCrop2D`, ilu_manip.cpp:8-52: the current image afterwards; `none` is `IL_FALSE`.  `junk` is the new pixel block, `junk'` the
temporary block; `mode` is the origin mode as for `ilCopyPixels`.  `ilTexImage` drops the palette. -/
def iluCrop2D (junk junk' : Nat → UInt8) (mode : Option Nat) (m : Img) (xoff yoff w h : Nat) : C (Option Img) :=
  if w > m.width ∨ h > m.height then pure none
  else do
    let (_, src) ← Manip.ilCopyPixels junk' m mode 0 0 0 m.width m.height 1 (alloc junk' m.size)
    match ← Image.ilInitImage junk w h m.depth m.bpp m.format m.type none with
    | none => pure none
    | some n => do
      let d ← loopN n.height (fun y d => forStep 0 n.bps n.bpp (fun x d => loopN n.bpp (fun c d => do
        let v ← rd src (u32 ((y + yoff) * m.bps + x + xoff * n.bpp + c))
        wr d (u32 (y * n.bps + x + c)) v) d) d) n.data
      pure (some { n with origin := m.origin, data := d })

/-- `iluCrop3D`, ilu_manip.cpp:55-101, when `ilTexImage` succeeds. -/
def iluCrop3D (junk junk' : Nat → UInt8) (mode : Option Nat) (m : Img) (xoff yoff zoff w h d : Nat) : C (Option Img) :=
  if w > m.width ∨ h > m.height ∨ d > m.depth then pure none
  else do
    let (_, src) ← Manip.ilCopyPixels junk' m mode 0 0 0 m.width m.height m.depth (alloc junk' m.size)
    match ← Image.ilInitImage junk (Manip.toU32 ((w : Int) - xoff)) (Manip.toU32 ((h : Int) - yoff)) (Manip.toU32 ((d : Int) - zoff))
      m.bpp m.format m.type none with
    | none => pure none
    | some n => do
      let d ← loopN n.depth (fun z d => loopN n.height (fun y d => forStep 0 n.bps n.bpp (fun x d => loopN n.bpp (fun c d => do
        let v ← rd src (u32 ((z + zoff) * m.plane + (y + yoff) * m.bps + (x + xoff) + c))
        wr d (u32 (z * n.plane + y * n.bps + x + c)) v) d) d) d) n.data
      pure (some { n with origin := m.origin, data := d })

/-- `iluCrop`, ilu_manip.cpp:104-109. -/
def iluCrop (junk junk' : Nat → UInt8) (mode : Option Nat) (m : Img) (xoff yoff zoff w h d : Nat) : C (Option Img) :=
  if zoff ≤ 1 then iluCrop2D junk junk' mode m xoff yoff w h else iluCrop3D junk junk' mode m xoff yoff zoff w h d

/-! ### Comparing and counting -/

/-- `iluCompareImage`, ilu_manip.cpp:642-684, for two different existing images: the names are handled by `ilBindImage`. -/
def compareImages (cur other : Img) : C Bool :=
  if other.bpp ≠ cur.bpp ∨ other.depth ≠ cur.depth ∨ other.format ≠ cur.format ∨ other.height ≠ cur.height ∨
      other.origin ≠ cur.origin ∨ other.type ≠ cur.type ∨ other.width ≠ cur.width then pure false
  else loopN cur.size (fun i same =>
    if same then do
      let a ← rd other.data i
      let b ← rd cur.data i
      pure (decide (a = b))
    else pure same) true

/-- The images a program has, by name, and the name of the current one.  il_stack.cpp:20, 40. -/
structure Names where
  image : Nat → Option (Img × Option Pal)
  cur : Nat

/-- `iluCompareImage`, ilu_manip.cpp:642-684, for a current image that exists: the answer and the state.  `ilBindImage` of an existing
name only changes the current name. -/
def iluCompareImage (s : Names) (comp : Nat) : C (Bool × Names) :=
  if s.cur = comp then pure (true, s)
  else match s.image s.cur, s.image comp with
    | some c, some o => do
      let s1 := { s with cur := comp }
      let r ← compareImages c.1 o.1
      pure (r, { s1 with cur := s.cur })
    | _, _ => pure (false, s)

/-- The state of `iluColoursUsed`: the chains of the 8192 buckets, the current block of the heap, the next entry in it, and the
number of colours.  ilu_manip.cpp:531-545. -/
structure Count where
  chain : Nat → List (List UInt8)
  heapPos : Nat
  heapPtr : Nat
  cols : Nat

/-- `ColTemp`, ilu_manip.cpp:565-575: four bytes. -/
def colour (d : List UInt8) (bpp i : Nat) : C (List UInt8) := do
  let a ← rd d i
  if bpp > 1 then do
    let b ← rd d (i + 1)
    let c ← rd d (i + 2)
    if bpp > 3 then do
      let e ← rd d (i + 3)
      pure [a, b, c, e]
    else pure [a, b, c, 0]
  else pure [a, 0, 0, 0]

/-- `*(ILuint*)ColTemp % 8192` (ilu_manip.cpp:577) on a little-endian machine. -/
def bucketOf (col : List UInt8) : Nat :=
  (((col.getD 3 0).toNat * 256 + (col.getD 2 0).toNat) * 256 + (col.getD 1 0).toNat) * 256 + (col.getD 0 0).toNat

/-- Taking an entry of the heap, ilu_manip.cpp:583-589 and 610-616: `Heap` has nine elements, and a block `heapSize` entries, one of
which is written. -/
def takeEntry (heapSize : Nat) (s : Count) : C Count :=
  if s.heapPtr ≥ heapSize then .error .oobWrite
  else if s.heapPtr + 1 ≥ heapSize then
    if s.heapPos + 1 < 9 then pure { s with heapPos := s.heapPos + 1, heapPtr := 0 } else .error .oobWrite
  else pure { s with heapPtr := s.heapPtr + 1 }

/-- One pixel, ilu_manip.cpp:577-621.  A colour found in its chain is not counted; another is put first in the chain. -/
def countStep (heapSize : Nat) (col : List UInt8) (s : Count) : C Count :=
  let p := bucketOf col % 8192
  if col ∈ s.chain p then pure s
  else do
    let s ← takeEntry heapSize s
    pure { s with cols := s.cols + 1, chain := fun q => if q = p then col :: s.chain q else s.chain q }

/-- `iluColoursUsed`, ilu_manip.cpp:533-639; allocation succeeds. -/
def iluColoursUsed (m : Img) : C Nat := do
  let s ← forStep 0 m.size m.bpp (fun i s => do
    let col ← colour m.data m.bpp i
    countStep (max 1 (m.size / m.bpp / 8)) col s) (⟨fun _ => [], 0, 0, 0⟩ : Count)
  pure s.cols

/-! ### Mipmaps -/

/-- Dimensions of an image.  devil_internal_exports.h:62-64. -/
structure Dim where
  w : Nat
  h : Nat
  d : Nat
  deriving DecidableEq

/-- `iBuildMipmaps`, ilu_mipmap.cpp:19-41, on dimensions: the mipmaps added behind `parent` and whether the call reports success.
`scale parent want` is `iluScale_`: the dimensions of the scaled image, or `none` for NULL.  The result of the recursive call is not
looked at.  The fuel stands for the depth of the recursion. -/
def iBuildMipmaps (scale : Dim → Dim → Option Dim) : Nat → Dim → Dim → C (Bool × List Dim)
  | 0, _, _ => .error .hang
  | fuel + 1, parent, want =>
    if parent.w = 1 ∧ parent.h = 1 ∧ parent.d = 1 then pure (true, [])
    else
      match scale parent ⟨if want.w = 0 then 1 else want.w, if want.h = 0 then 1 else want.h, if want.d = 0 then 1 else want.d⟩ with
      | none => pure (false, [])
      | some n => do
        let (_, rest) ← iBuildMipmaps scale fuel n ⟨n.w / 2, n.h / 2, n.d / 2⟩
        pure (true, n :: rest)

/-- `iluBuildMipmaps`, ilu_mipmap.cpp:45-60. -/
def iluBuildMipmaps (scale : Dim → Dim → Option Dim) (fuel : Nat) (m : Dim) : C (Bool × List Dim) :=
  iBuildMipmaps scale fuel m ⟨m.w / 2, m.h / 2, m.d / 2⟩

end DevIL.Ilu
