import Verif.Model.Games
/-! Model of the loader of DCX files, il_dcx.cpp.  As in Model/Games.lean an image is bound; numbers have the least significant byte first in memory. -/
set_option autoImplicit false
namespace DevIL.Dcx
open DevIL.Games DevIL.Detect DevIL.Image DevIL.DetectSpec
open DevIL.Lump (SEEK_SET SEEK_CUR)

section
variable {σ : Type} (o : Ops σ) (junk : Nat → UInt8)

/-- `iIsValidDcx`, il_dcx.cpp:84-93. -/
def iIsValidDcx (s : σ) : C (Bool × σ) := do
  let (g, n, s) ← o.read s 1 4
  if n ≠ 4 then pure (false, s)
  else do
    let (_, s) ← o.seek s (-4) SEEK_CUR
    pure (decide (le g = 987654321), s)

/-- The table of the pages, il_dcx.cpp:184-188: `Entries`, which has room for 1024 numbers, `Num` and the input.  `none` is the failure. -/
def table : Nat → List UInt8 → Nat → σ → C (Option Nat × List UInt8 × σ)
  | 0, _, _, _ => .error .hang
  | fuel + 1, e, num, s => do
    let (g, n, s) ← o.read s 1 4
    let e ← memcpy e (4 * num) g 0 g.length
    if n ≠ 4 then pure (none, e, s)
    else if leAt e (4 * num) 4 ≠ 0 then table fuel e (num + 1) s
    else pure (some (num + 1), e, s)

/-- `iLoadDcxInternal`, il_dcx.cpp:168-218, up to the first `if` of `iUncompressDcx`, il_dcx.cpp:228: `iGetDcxHead`, il_dcx.cpp:66-80, sets ten numbers of the header, and `Bpp`, which the `if`
reads, is not among them. -/
def iLoadDcxInternal (cur : Img) (s : σ) : C (Bool × List Img × σ) := do
  let (ok, s) ← iIsValidDcx o s
  if !ok then pure (false, [cur], s)
  else do
    let (_, _, s) ← o.read s 1 4
    let (num, e, s) ← table o 1025 (alloc junk 4096) 0 s
    match num with
    | none => pure (false, [cur], s)
    | some _ => do
      let (_, s) ← o.seek s (Lump.toInt (leAt e 0 4)) SEEK_SET
      let _ ← head o junk [u16, u16, u16, u16, u16, u16, u16, u16, u16, u16] s
      .error .uninit

end
end DevIL.Dcx
