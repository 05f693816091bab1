import Verif.Core
import Mathlib.Order.Defs.LinearOrder
import Verif.Buf
/-! Model of Wu's quantizer, il_quantizer.cpp, which `ilConvertImage` uses for `IL_COLOUR_INDEX`.  The picture has already been converted to `IL_RGB` of bytes, so it is a list of bytes, and
`Ir`, `Ig` and `Ib`, il_quantizer.cpp:518-522, are every third byte of it.  Allocation succeeds.  What is calculated with floats decides where boxes are cut, and nothing else: it is any
function to any linear order. -/
set_option autoImplicit false
namespace DevIL.Wu

/-- The addition of two `ILint`, il_quantizer.cpp:116-118, 155-163. -/
def addI (a b : Int) : C Int := if -2147483648 ≤ a + b ∧ a + b ≤ 2147483647 then .ok (a + b) else .error .overflow

/-- The place of `[r][g][b]`, il_quantizer.cpp:113, 154, 399. -/
def cell (r g b : Nat) : Nat := r * 1024 + r * 64 + r + g * 32 + g + b

/-- `wt`, `mr`, `mg` and `mb`, il_quantizer.cpp:60, each an array of 33 * 33 * 33 numbers. -/
structure Stats where
  wt : List Int
  mr : List Int
  mg : List Int
  mb : List Int

/-- `a[ind] += v`, il_quantizer.cpp:115-118. -/
def bump (a : List Int) (ind : Nat) (v : Int) : C (List Int) := do
  let x ← rd a ind
  let y ← addI x v
  wr a ind y

/-- The body of the loop of `Hist3d`, il_quantizer.cpp:107-120.  The sum of the squares is left out, and so is `table`. -/
def histStep (data : List UInt8) (i : Nat) (t : Stats × List Nat) : C (Stats × List Nat) := do
  let r ← rd data (3 * i)
  let g ← rd data (3 * i + 1)
  let b ← rd data (3 * i + 2)
  let ind := cell (r.toNat / 8 + 1) (g.toNat / 8 + 1) (b.toNat / 8 + 1)
  let q ← wr t.2 i ind
  let wt ← bump t.1.wt ind 1
  let mr ← bump t.1.mr ind r.toNat
  let mg ← bump t.1.mg ind g.toNat
  let mb ← bump t.1.mb ind b.toNat
  pure (⟨wt, mr, mg, mb⟩, q)

/-- An array of zeros, il_quantizer.cpp:536-540. -/
def zeros : List Int := List.replicate 35937 0

/-- `Hist3d`, il_quantizer.cpp:89-122: the sums, and `Qadd`. -/
def Hist3d (data : List UInt8) (size : Nat) : C (Stats × List Nat) :=
  loopN size (histStep data) (⟨zeros, zeros, zeros, zeros⟩, List.replicate size 0)

/-- The innermost loop of `M3d`, il_quantizer.cpp:153-171, for one of the sums: the array, `area` and `line`. -/
def m3dB (r g j : Nat) (t : List Int × List Int × Int) : C (List Int × List Int × Int) := do
  let b := j + 1
  let x ← rd t.1 (cell r g b)
  let line ← addI t.2.2 x
  let a ← rd t.2.1 b
  let a ← addI a line
  let area ← wr t.2.1 b a
  let y ← rd t.1 (cell r g b - 1089)
  let y ← addI y a
  let m ← wr t.1 (cell r g b) y
  pure (m, area, line)

/-- The loop over the greens, il_quantizer.cpp:150-172. -/
def m3dG (r j : Nat) (t : List Int × List Int) : C (List Int × List Int) := do
  let (m, area, _) ← loopN 32 (m3dB r (j + 1)) (t.1, t.2, 0)
  pure (m, area)

/-- `M3d`, il_quantizer.cpp:138-176, for one of the sums: they do not depend on each other. -/
def M3d (m : List Int) : C (List Int) :=
  loopN 32 (fun j m => do
    let (m, _) ← loopN 32 (m3dG (j + 1)) (m, List.replicate 33 0)
    pure m) m

/-- `Box`, il_quantizer.cpp:43-52.  `vol` is calculated where it is used. -/
structure Box where
  r0 : Nat
  r1 : Nat
  g0 : Nat
  g1 : Nat
  b0 : Nat
  b1 : Nat

/-- `vol`, il_quantizer.cpp:385-386. -/
def Box.vol (c : Box) : Nat := (c.r1 - c.r0) * (c.g1 - c.g0) * (c.b1 - c.b0)

/-- `Vol`, il_quantizer.cpp:180-190.  The result fits; the additions are not checked one by one. -/
def Vol (c : Box) (m : List Int) : C Int := do
  let x1 ← rd m (cell c.r1 c.g1 c.b1)
  let x2 ← rd m (cell c.r1 c.g1 c.b0)
  let x3 ← rd m (cell c.r1 c.g0 c.b1)
  let x4 ← rd m (cell c.r1 c.g0 c.b0)
  let x5 ← rd m (cell c.r0 c.g1 c.b1)
  let x6 ← rd m (cell c.r0 c.g1 c.b0)
  let x7 ← rd m (cell c.r0 c.g0 c.b1)
  let x8 ← rd m (cell c.r0 c.g0 c.b0)
  pure (x1 - x2 - x3 + x4 - x5 + x6 + x7 - x8)

/-- `RED`, `GREEN`, `BLUE`, il_quantizer.cpp:39-41. -/
inductive Dir where
  | red
  | green
  | blue

/-- `Bottom`, il_quantizer.cpp:200-224. -/
def Bottom (c : Box) (d : Dir) (m : List Int) : C Int :=
  match d with
  | .red => do
    let x1 ← rd m (cell c.r0 c.g1 c.b1)
    let x2 ← rd m (cell c.r0 c.g1 c.b0)
    let x3 ← rd m (cell c.r0 c.g0 c.b1)
    let x4 ← rd m (cell c.r0 c.g0 c.b0)
    pure (-x1 + x2 + x3 - x4)
  | .green => do
    let x1 ← rd m (cell c.r1 c.g0 c.b1)
    let x2 ← rd m (cell c.r1 c.g0 c.b0)
    let x3 ← rd m (cell c.r0 c.g0 c.b1)
    let x4 ← rd m (cell c.r0 c.g0 c.b0)
    pure (-x1 + x2 + x3 - x4)
  | .blue => do
    let x1 ← rd m (cell c.r1 c.g1 c.b0)
    let x2 ← rd m (cell c.r1 c.g0 c.b0)
    let x3 ← rd m (cell c.r0 c.g1 c.b0)
    let x4 ← rd m (cell c.r0 c.g0 c.b0)
    pure (-x1 + x2 + x3 - x4)

/-- `Top`, il_quantizer.cpp:229-254. -/
def Top (c : Box) (d : Dir) (pos : Nat) (m : List Int) : C Int :=
  match d with
  | .red => do
    let x1 ← rd m (cell pos c.g1 c.b1)
    let x2 ← rd m (cell pos c.g1 c.b0)
    let x3 ← rd m (cell pos c.g0 c.b1)
    let x4 ← rd m (cell pos c.g0 c.b0)
    pure (x1 - x2 - x3 + x4)
  | .green => do
    let x1 ← rd m (cell c.r1 pos c.b1)
    let x2 ← rd m (cell c.r1 pos c.b0)
    let x3 ← rd m (cell c.r0 pos c.b1)
    let x4 ← rd m (cell c.r0 pos c.b0)
    pure (x1 - x2 - x3 + x4)
  | .blue => do
    let x1 ← rd m (cell c.r1 c.g1 pos)
    let x2 ← rd m (cell c.r1 c.g0 pos)
    let x3 ← rd m (cell c.r0 c.g1 pos)
    let x4 ← rd m (cell c.r0 c.g0 pos)
    pure (x1 - x2 - x3 + x4)

/-- The sums of red, green and blue, and the number of pixels, il_quantizer.cpp:288-289, 341. -/
structure Q where
  r : Int
  g : Int
  b : Int
  w : Int

/-- One of the functions above for the four arrays, il_quantizer.cpp:293-296, 301-304, 343-346. -/
def four (f : List Int → C Int) (s : Stats) : C Q := do
  let r ← f s.mr
  let g ← f s.mg
  let b ← f s.mb
  let w ← f s.wt
  pure ⟨r, g, b, w⟩

/-- What is calculated with floats: the quotient of `Maximize`, il_quantizer.cpp:310-311, the sum of two of them, il_quantizer.cpp:322-323, and `Var`, il_quantizer.cpp:259-276. -/
structure Fl (F : Type) where
  zero : F
  part : Q → F
  plus : F → F → F
  var : Box → F

section
variable {F : Type} [LinearOrder F] (fl : Fl F)

/-- The body of the loop of `Maximize`, il_quantizer.cpp:300-330: `max`, and `*cut`, where `none` is -1. -/
def maxStep (s : Stats) (c : Box) (d : Dir) (first : Nat) (whole base : Q) (j : Nat) (t : F × Option Nat) : C (F × Option Nat) := do
  let i := first + j
  let top ← four (Top c d i) s
  let half : Q := ⟨base.r + top.r, base.g + top.g, base.b + top.b, base.w + top.w⟩
  if half.w = 0 then pure t
  else
    let rest : Q := ⟨whole.r - half.r, whole.g - half.g, whole.b - half.b, whole.w - half.w⟩
    if rest.w = 0 then pure t
    else
      let temp := fl.plus (fl.part half) (fl.part rest)
      pure (if t.1 < temp then (temp, some i) else t)

/-- `Maximize`, il_quantizer.cpp:285-333. -/
def Maximize (s : Stats) (c : Box) (d : Dir) (first last : Nat) (whole : Q) : C (F × Option Nat) := do
  let base ← four (Bottom c d) s
  loopN (last - first) (maxStep fl s c d first whole base) (fl.zero, none)

/-- `Cut`, il_quantizer.cpp:336-389: the two boxes.  A box with the side -1 would be read outside the arrays. -/
def Cut (s : Stats) (c : Box) : C (Option (Box × Box)) := do
  let whole ← four (Vol c) s
  let mr ← Maximize fl s c .red (c.r0 + 1) c.r1 whole
  let mg ← Maximize fl s c .green (c.g0 + 1) c.g1 whole
  let mb ← Maximize fl s c .blue (c.b0 + 1) c.b1 whole
  if mg.1 ≤ mr.1 ∧ mb.1 ≤ mr.1 then
    match mr.2 with
    | none => pure none
    | some k => pure (some ({ c with r1 := k }, { c with r0 := k }))
  else if mr.1 ≤ mg.1 ∧ mb.1 ≤ mg.1 then
    match mg.2 with
    | none => .error .oobRead
    | some k => pure (some ({ c with g1 := k }, { c with g0 := k }))
  else
    match mb.2 with
    | none => .error .oobRead
    | some k => pure (some ({ c with b1 := k }, { c with b0 := k }))

/-- `(cube[k].vol>1) ? Var(&cube[k]) : 0.0f`, il_quantizer.cpp:552-553. -/
def value (c : Box) : F := if c.vol > 1 then fl.var c else fl.zero

/-- The search for the next box, il_quantizer.cpp:559-565: `temp` and `next`. -/
def search (vv : List F) : F × Nat :=
  (List.range (vv.length - 1)).foldl (fun t k => match vv[k + 1]? with
    | some v => if t.1 < v then (v, k + 1) else t
    | none => t) (vv.headD fl.zero, 0)

/-- The loop that cuts, il_quantizer.cpp:550-572: the boxes.  The boxes and `vv` are as long as what has been set of `cube` and `vv`, so `i` is their length.  `vv[0]` is set in the first turn,
before it is read. -/
def split (s : Stats) (K : Nat) : Nat → List Box → List F → Nat → C (List Box)
  | 0, _, _, _ => .error .hang
  | fuel + 1, cubes, vv, next =>
    if cubes.length < K then
      if 256 ≤ cubes.length then .error .oobWrite
      else do
        let c ← rd cubes next
        let (cubes, vv) ← (do
          match ← Cut fl s c with
          | some (a, b) => do
            let cs ← wr cubes next a
            let v ← wr vv next (value fl a)
            pure (cs ++ [b], v ++ [value fl b])
          | none => do
            let v ← wr vv next fl.zero
            pure (cubes, v))
        let (temp, next) := search fl vv
        if temp ≤ fl.zero then pure cubes else split s K fuel cubes vv next
    else pure cubes

/-- The first box, il_quantizer.cpp:547-548. -/
def box0 : Box := ⟨0, 32, 0, 32, 0, 32⟩

/-- `Mark`, il_quantizer.cpp:392-404. -/
def Mark (c : Box) (label : UInt8) (tag : List UInt8) : C (List UInt8) :=
  loopN (c.r1 - c.r0) (fun r tag => loopN (c.g1 - c.g0) (fun g tag => loopN (c.b1 - c.b0) (fun b tag => wr tag (cell (c.r0 + 1 + r) (c.g0 + 1 + g) (c.b0 + 1 + b)) label) tag) tag) tag

/-- `(ILubyte)(a / w)`, il_quantizer.cpp:581-583. -/
def quot (a w : Int) : UInt8 := UInt8.ofNat (a.tdiv w % 256).toNat

/-- The entries for a box, il_quantizer.cpp:577-589: `tag`, `lut_r`, `lut_g` and `lut_b`. -/
def entryStep (s : Stats) (cubes : List Box) (k : Nat) (t : List UInt8 × List UInt8 × List UInt8 × List UInt8) : C (List UInt8 × List UInt8 × List UInt8 × List UInt8) := do
  let c ← rd cubes k
  let tag ← Mark c (UInt8.ofNat k) t.1
  let q ← four (Vol c) s
  let r ← wr t.2.1 k (if q.w ≠ 0 then quot q.r q.w else 0)
  let g ← wr t.2.2.1 k (if q.w ≠ 0 then quot q.g q.w else 0)
  let b ← wr t.2.2.2 k (if q.w ≠ 0 then quot q.b q.w else 0)
  pure (tag, r, g, b)

/-- A step of the loop that fills the palette, il_quantizer.cpp:597-601. -/
def palStep (r g b : List UInt8) (k : Nat) (p : List UInt8) : C (List UInt8) := do
  let x ← rd b k
  let p ← wr p (k * 3) x
  let x ← rd g k
  let p ← wr p (k * 3 + 1) x
  let x ← rd r k
  wr p (k * 3 + 2) x

/-- `iQuantizeImage`, il_quantizer.cpp:407-643, for 1 to 256 colours: the new data, the palette and the number of boxes.  The palette, `tag` and the tables begin as whatever was in the
memory. -/
def iQuantizeImage (junk : Nat → UInt8) (data : List UInt8) (size numCols : Nat) : C (List UInt8 × List UInt8 × Nat) := do
  let (h, q) ← Hist3d data size
  let wt ← M3d h.wt
  let mr ← M3d h.mr
  let mg ← M3d h.mg
  let mb ← M3d h.mb
  let s : Stats := ⟨wt, mr, mg, mb⟩
  let cubes ← split fl s numCols 66050 [box0] [fl.zero] 0
  let (tag, r, g, b) ← loopN cubes.length (entryStep s cubes) (alloc junk 35937, alloc junk 256, alloc junk 256, alloc junk 256)
  let new ← loopN size (fun i d => do
    let c ← rd q i
    let x ← rd tag c
    wr d i x) (alloc junk size)
  let pal ← loopN numCols (palStep r g b) (alloc junk (3 * 256))
  pure (new, pal, cubes.length)

end
end DevIL.Wu
