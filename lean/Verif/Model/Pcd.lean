import Verif.Model.Games
/-! Model of the loader of Kodak Photo CD files, il_pcd.cpp.  An image is bound, allocation succeeds, and `ilFixImage` is left out.  `YCbCr2RGB` (il_pcd.cpp:64-103), which computes with doubles, is a parameter. -/
set_option autoImplicit false
namespace DevIL.Pcd
open DevIL.Games DevIL.Detect DevIL.Image
open DevIL.Lump (SEEK_SET SEEK_CUR)

/-- `for (x = 0; x < Width; x++)`, il_pcd.cpp:175-180 and 182-187: the block of the image and `CurPos`. -/
def row (conv : UInt8 → UInt8 → UInt8 → UInt8 × UInt8 × UInt8) (y cbcr : List UInt8) (w : Nat) (s : List UInt8 × Nat) : C (List UInt8 × Nat) :=
  loopN w (fun x s => do
    let l ← rd y x
    let cb ← rd cbcr (x / 2)
    let cr ← rd cbcr (w / 2 + x / 2)
    let c := conv l cb cr
    let d ← wr s.1 s.2 c.1
    let d ← wr d (s.2 + 1) c.2.1
    let d ← wr d (s.2 + 2) c.2.2
    pure (d, s.2 + 3)) s

section
variable {σ : Type} (o : Ops σ) (junk : Nat → UInt8) (conv : UInt8 → UInt8 → UInt8 → UInt8 × UInt8 × UInt8)

/-- `for (i = 0; i < Total; i++)`, il_pcd.cpp:164-188: whether all was there, the block of the image, and the input. -/
def pairs (w : Nat) : Nat → List UInt8 → List UInt8 → List UInt8 → List UInt8 × Nat → σ → C (Bool × List UInt8 × σ)
  | 0, _, _, _, t, s => pure (true, t.1, s)
  | n + 1, y1, y2, cbcr, t, s => do
    let (_, y1, s) ← into o s y1 1 w
    let (_, y2, s) ← into o s y2 1 w
    let (k, cbcr, s) ← into o s cbcr 1 w
    if k ≠ w then pure (false, t.1, s)
    else do
      let t ← row conv y1 cbcr w t
      let t ← row conv y2 cbcr w t
      pairs w n y1 y2 cbcr t s

/-- The sizes and the places, il_pcd.cpp:125-145. -/
def picture (pic : Nat) : Option (Nat × Nat × Int) :=
  if pic = 0 then some (192, 128, 0x2000) else if pic = 1 then some (384, 256, 0xb800) else if pic = 2 then some (768, 512, 0x30000) else none

/-- `iLoadPcdInternal`, il_pcd.cpp:106-203; `pic` is the state `IL_PCD_PICNUM`. -/
def iLoadPcdInternal (pic : Nat) (cur : Img) (s : σ) : C (Bool × List Img × σ) := do
  let (_, s) ← o.seek s 72 SEEK_CUR
  let (k, v, s) ← into o s (alloc junk 1) 1 1
  if k ≠ 1 then pure (false, [cur], s)
  else do
    let (_, s) ← o.seek s (-72) SEEK_CUR
    match picture pic with
    | none => pure (false, [cur], s)
    | some (w, h, p) => do
      let (_, s) ← o.seek s p SEEK_CUR
      if o.tell s = 4294967295 then pure (false, [cur], s)
      else do
        let m := { tex junk w h 3 IL_RGB with origin := IL_ORIGIN_LOWER_LEFT }
        let (ok, d, s) ← pairs o conv w (h / 2) (alloc junk w) (alloc junk w) (alloc junk w) (m.data, 0) s
        if !ok then pure (false, [{ m with data := d }], s)
        else do
          let v ← rd v 0
          pure (true, [{ m with data := d, origin := if v.toNat &&& 0x3F ≠ 8 then IL_ORIGIN_LOWER_LEFT else IL_ORIGIN_UPPER_LEFT }], s)

end
end DevIL.Pcd
