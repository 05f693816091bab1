import Verif.Model.Games
import Verif.Spec.Scitex
/-! Model of the loader of Scitex files, il_scitex.cpp.  An image is bound, allocation succeeds and `ilFixImage` is left out.  What `atof` and `atoi` say is `num`. -/
set_option autoImplicit false
namespace DevIL.Scitex
open DevIL.Games DevIL.Detect DevIL.Image
open DevIL.ScitexSpec (Num)
open DevIL.Lump (SEEK_SET)

section
variable {σ : Type} (o : Ops σ) (junk : Nat → UInt8) (num : Num)

/-- `iGetScitexHead` and `iCheckScitex`, il_scitex.cpp:40-87, 151-167: the number of channels, the width and the height, if the header is accepted. -/
def getHead (s : σ) : C (Option (Nat × Nat × Nat) × σ) := do
  let (_, n, s) ← o.read s 1 80
  if n ≠ 80 then pure (none, s)
  else do
    let (sig, n, s) ← o.read s 1 2
    if n ≠ 2 then pure (none, s)
    else do
      let (h, s) ← head o junk [.skip 942, .getc, .getc, u16] s
      let (hu, n, s) ← o.read s 1 14
      if n ≠ 14 then pure (none, s)
      else do
        let (wu, n, s) ← o.read s 1 14
        if n ≠ 14 then pure (none, s)
        else do
          let (hp, n, s) ← o.read s 1 12
          if n ≠ 12 then pure (none, s)
          else do
            let (wp, n, s) ← o.read s 1 12
            if n ≠ 12 then pure (none, s)
            else if fbe h 3 = 7 ∧ fle h 2 ≠ 3 then pure (none, s)
            else if fbe h 3 = 8 ∧ fle h 2 ≠ 1 then pure (none, s)
            else if sig ≠ [0x43, 0x54] then pure (none, s)
            else if fle h 1 ≠ 0 ∧ fle h 1 ≠ 1 then pure (none, s)
            else if fbe h 3 ≠ 7 ∧ fbe h 3 ≠ 8 then pure (none, s)
            else if num.pos hu = false ∨ num.pos wu = false then pure (none, s)
            else if num.height hp = 0 ∨ num.width wp = 0 then pure (none, s)
            else pure (some (fle h 2, num.width wp, num.height hp), s)

/-- The `igetc` for the padding, il_scitex.cpp:257-258, 276-277. -/
def pad (w : Nat) (s : σ) : C σ := if w % 2 ≠ 0 then do let (_, s) ← o.getc s; pure s else pure s

/-- Component `c` of row `y`, il_scitex.cpp:248-258: whether the line was there, the pixels and the input. -/
def line (w y c : Nat) (d : List UInt8) (s : σ) : C (Bool × List UInt8 × σ) := do
  let (n, row, s) ← into o s (alloc junk w) 1 w
  if n ≠ w then pure (false, d, s)
  else do
    let d ← loopN w (fun x d => do
      let v ← rd row x
      wr d (u32 (y * (w * 3) + x * 3 + c)) v) d
    let s ← pad o w s
    pure (true, d, s)

/-- The loops of il_scitex.cpp:244-261: `todo` lines are left, and `k` have been read.  The two loops are one here: line `k` is component `k % 3` of row `k / 3`. -/
def lines (w : Nat) : Nat → Nat → List UInt8 → σ → C (Bool × List UInt8 × σ)
  | 0, _, d, s => pure (true, d, s)
  | todo + 1, k, d, s => do
    let (ok, d, s) ← line o junk w (k / 3) (k % 3) d s
    if ok then lines w todo (k + 1) d s else pure (false, d, s)

/-- The loop of il_scitex.cpp:273-279. -/
def grey (w h : Nat) (d : List UInt8) (s : σ) : C (List UInt8 × σ) :=
  loopN h (fun y t => do
    let (g, _, s) ← o.read t.2 1 w
    let d ← memcpy t.1 (u32 (y * w)) g 0 g.length
    let s ← pad o w s
    pure (d, s)) (d, s)

/-- `iLoadScitexInternal`, il_scitex.cpp:211-290.  The image before is `cur`. -/
def iLoadScitexInternal (cur : Img) (s : σ) : C (Bool × Img × σ) := do
  let (hd, s) ← getHead o junk num s
  match hd with
  | none => pure (false, cur, s)
  | some (n, w, h) => do
    let (_, s) ← o.seek s 2048 SEEK_SET
    if n = 3 then do
      let m := tex junk w h 3 IL_RGB
      let (ok, d, s) ← lines o junk w (h * 3) 0 m.data s
      if ok then pure (true, { m with data := d, origin := IL_ORIGIN_UPPER_LEFT }, s) else pure (false, { m with data := d }, s)
    else do
      let m := tex junk w h 1 IL_LUMINANCE
      let (d, s) ← grey o w h m.data s
      pure (true, { m with data := d, origin := IL_ORIGIN_UPPER_LEFT }, s)

end
end DevIL.Scitex
