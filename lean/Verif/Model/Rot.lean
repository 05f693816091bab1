import Verif.Model.Dds
import Verif.Spec.Rot
/-! Model of the loader of Relic textures, il_rot.cpp.  As in Model/Games.lean an image is bound, allocation succeeds and `ilFixImage` is left out, and so is the copy of the compressed data
(`IL_KEEP_DXTC_DATA`). -/
set_option autoImplicit false
namespace DevIL.Rot
open DevIL.Games DevIL.Detect DevIL.Image
open DevIL.RotSpec (FORM HEAD MIPS MLVL)

/-- The locals of the loop: `Form`, `FormName`, `CompSize` (`none` before it is set), the image and its mipmaps, and the input, il_rot.cpp:75-76. -/
structure St (σ : Type) where
  form : List UInt8
  name : List UInt8
  comp : Option Nat
  imgs : List Img
  inp : σ

section
variable {σ : Type} (o : Ops σ) (junk : Nat → UInt8)

/-- `iread(Form, 1, 4); … = GetBigUInt(); iread(FormName, 1, 4);`, il_rot.cpp:89-91, 140-142, 153-156: the two arrays, the number and the input.  The arrays keep what was there where the
input ends. -/
def tag (form name : List UInt8) (s : σ) : C (List UInt8 × Nat × List UInt8 × σ) := do
  let (_, form, s) ← into o s form 1 4
  let (h, s) ← head o junk [u32f] s
  let (_, name, s) ← into o s name 1 4
  pure (form, fbe h 0, name, s)

/-- The size of the compressed data, il_rot.cpp:200, 228, 256. -/
def compSize (k w h : Nat) : Nat := u32 (u32 (u32 (w + 3) / 4 * (u32 (h + 3) / 4)) * k)

/-- The data of a level, il_rot.cpp:188-280: whether the loader goes on, the image, `CompSize` and the input. -/
def levelData (fmt size : Nat) (m : Img) (w h comp : Nat) (s : σ) : C (Bool × Img × Nat × σ) :=
  if fmt = 1024 then do
    let (n, d, s) ← into o s m.data m.size 1
    pure (decide (n = 1), { m with data := d }, comp, s)
  else
    let need := compSize (if fmt = 1028 then 8 else 16) w h
    if need ≠ size then pure (false, m, need, s)
    else do
      let (n, c, s) ← into o s (alloc junk need) need 1
      if n ≠ 1 then pure (false, m, need, s)
      else do
        let d ← Dxt.DdsDecompress m (if fmt = 1028 then IL_DXT1 else if fmt = 1029 then IL_DXT3 else IL_DXT5) c
        pure (true, { m with data := d }, need, s)

/-- The body of the loop, il_rot.cpp:152-282: `some` is the result of the loader, and with `none` it goes on.  Reading `CompSize` before it is set is a fault. -/
def one (fmt W H : Nat) (t : St σ) : C (Option Bool × St σ) := do
  let (form, _, name, s) ← tag o junk t.form t.name t.inp
  if form ≠ FORM then pure (some (decide (t.imgs ≠ [])), { t with form := form, name := name, inp := s })
  else if name ≠ MLVL then pure (some false, { t with form := form, name := name, inp := s })
  else do
    let (hd, s) ← head o junk [u32f, u32f, u32f, u32f] s
    if fle hd 1 > W ∨ fle hd 2 > H then pure (some false, { t with form := form, name := name, inp := s })
    else match t.comp with
      | none => .error .uninit
      | some comp =>
        if fle hd 3 > comp then pure (some false, { t with form := form, name := name, inp := s })
        else do
          let (ok, m, comp, s) ← levelData o junk fmt (fle hd 3) (tex junk (fle hd 1) (fle hd 2) 4 IL_RGBA) (fle hd 1) (fle hd 2) comp s
          pure (if ok then none else some false, ⟨form, name, some comp, t.imgs ++ [m], s⟩)

/-- The loop, il_rot.cpp:151-283. -/
def levels (fmt W H : Nat) : Nat → St σ → C (Bool × List Img × σ)
  | 0, _ => .error .hang
  | fuel + 1, t => do
    let (r, t) ← one o junk fmt W H t
    match r with
    | some b => pure (b, t.imgs, t.inp)
    | none =>
      let (e, s) := o.eof t.inp
      if e then pure (true, t.imgs, s) else levels fmt W H fuel { t with inp := s }

/-- `iLoadRotInternal`, il_rot.cpp:73-285: the result, and the image and its mipmaps.  `fuel` bounds the number of levels. -/
def iLoadRotInternal (fuel : Nat) (cur : Img) (s : σ) : C (Bool × List Img × σ) := do
  let (form, n, name, s) ← tag o junk (alloc junk 4) (alloc junk 4) s
  if form ≠ FORM ∨ n ≠ 0x14 ∨ name ≠ HEAD then pure (false, [cur], s)
  else do
    let (hd, s) ← head o junk [u32f, u32f, u32f] s
    if fle hd 2 ≠ 1024 ∧ fle hd 2 ≠ 1028 ∧ fle hd 2 ≠ 1029 ∧ fle hd 2 ≠ 1030 then pure (false, [cur], s)
    else if fle hd 0 = 0 ∨ fle hd 1 = 0 then pure (false, [cur], s)
    else do
      let (_, s) ← head o junk [u32f] s
      let (form, _, name, s) ← tag o junk form name s
      if form ≠ FORM ∨ name ≠ MIPS then pure (false, [cur], s)
      else do
        let comp := if fle hd 2 = 1029 ∨ fle hd 2 = 1030 then some (compSize 16 (fle hd 0) (fle hd 1)) else none
        let (ok, ms, s) ← levels o junk (fle hd 2) (fle hd 0) (fle hd 1) fuel ⟨form, name, comp, [], s⟩
        pure (ok, if ms = [] then [cur] else ms, s)

end
end DevIL.Rot
