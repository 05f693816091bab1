import Verif.Model.Games
/-! Model of the loader of BLP2 textures that are not compressed, il_blp.cpp.  An image is bound, allocation succeeds, and `ilFixImage` is left out.  Compressed textures and BLP1 are a parameter. -/
set_option autoImplicit false
namespace DevIL.Blp
open DevIL.Games DevIL.Detect DevIL.Image
open DevIL.Lump (SEEK_SET SEEK_CUR)

/-- The fields of the header, `iGetBlp2Head`, il_blp.cpp:120-138. -/
def headFields : List Fld := [arr 4, u32f, .getc, .getc, .getc, .getc, u32f, u32f] ++ List.replicate 32 u32f

/-- `Header.MipOffsets[i]`, il_blp.cpp:132-133. -/
def off (h : List (List UInt8)) (i : Nat) : Nat := fle h (8 + i)
/-- `Header.MipLengths[i]`, il_blp.cpp:134-135. -/
def len (h : List (List UInt8)) (i : Nat) : Nat := fle h (24 + i)

section
variable {σ : Type} (o : Ops σ) (junk : Nat → UInt8)

/-- An image of a level, il_blp.cpp:261, 276, 286, 301, 325, 332. -/
def mk (k format w h : Nat) : Img := { tex junk w h k format with origin := IL_ORIGIN_UPPER_LEFT }

/-- The data of a level without alpha, il_blp.cpp:288-296. -/
def level0 (off len : Nat) (m : Img) (s : σ) : C (Bool × Img × σ) :=
  if len ≠ m.size then pure (false, m, s)
  else do
    let (_, s) ← o.seek s (Lump.toInt off) SEEK_SET
    let (n, d, s) ← into o s m.data 1 m.size
    pure (decide (n = m.size), { m with data := d }, s)

/-- The loop over the pixels for the colours, il_blp.cpp:352-356. -/
def colours (pal b : List UInt8) (n : Nat) (d : List UInt8) : C (List UInt8) :=
  loopN n (fun j d => do
    let v ← rd b j
    let x ← rd pal (v.toNat * 4)
    let d ← wr d (j * 4) x
    let x ← rd pal (v.toNat * 4 + 1)
    let d ← wr d (j * 4 + 1) x
    let x ← rd pal (v.toNat * 4 + 2)
    wr d (j * 4 + 2) x) d

/-- The loops over the rows and columns for the alpha, il_blp.cpp:365-381, as one: after `i` pixels `AlphaOff` is `i / 8` and `AlphaMask` has the bit `i % 8`. -/
def alphas (b : List UInt8) (w h bps : Nat) (d : List UInt8) : C (List UInt8) :=
  loopN (w * h) (fun i d => do
    let v ← rd b (i / 8)
    wr d (bps * (h - 1 - i / w) + i % w * 4 + 3) (if v.toNat.testBit (i % 8) then 255 else 0)) d

/-- The data of a level with one bit of alpha, il_blp.cpp:335-381.  `DataAndAlpha` is used again for every level; here it is new, since only as many of its bytes as the level has pixels are used, and all these are read. -/
def level1 (pal : List UInt8) (off len : Nat) (m : Img) (s : σ) : C (Bool × Img × σ) :=
  let n := u32 (m.width * m.height)
  let a := if n / 8 = 0 then 1 else n / 8
  if len ≠ u32 (m.size / 4 + a) then pure (false, m, s)
  else do
    let (_, s) ← o.seek s (Lump.toInt off) SEEK_SET
    let (k, b, s) ← into o s (alloc junk n) n 1
    if k ≠ 1 then pure (false, m, s)
    else do
      let d ← colours pal b n m.data
      let (k, b, s) ← into o s b a 1
      if k ≠ 1 then pure (false, { m with data := d }, s)
      else do
        let d ← alphas b m.width m.height m.bps d
        pure (true, { m with data := d }, s)

/-- The levels after the first, il_blp.cpp:247-255, 274-284, 323-331: there are at most so many, and the next is level `i`.  `Header.MipLengths == 0` in the code compares an address. -/
def chain (make : Nat → Nat → Img) (level : Nat → Nat → Img → σ → C (Bool × Img × σ)) (h : List (List UInt8)) : Nat → Nat → Img → σ → C (Bool × List Img × σ)
  | 0, _, _, s => pure (true, [], s)
  | k + 1, i, last, s =>
    if fle h 5 = 0 ∨ (last.width = 1 ∧ last.height = 1) ∨ off h i = 0 then pure (true, [], s)
    else do
      let (ok, m, s) ← level (off h i) (len h i) (make (last.width / 2) (last.height / 2)) s
      if !ok then pure (false, [m], s)
      else do
        let (ok, ms, s) ← chain make level h k (i + 1) m s
        pure (ok, m :: ms, s)

/-- All levels, il_blp.cpp:247-387. -/
def levels (make : Nat → Nat → Img) (level : Nat → Nat → Img → σ → C (Bool × Img × σ)) (h : List (List UInt8)) (s : σ) : C (Bool × List Img × σ) := do
  let (ok, m, s) ← level (off h 0) (len h 0) (make (fle h 6) (fle h 7)) s
  if !ok then pure (false, [m], s)
  else do
    let (ok, ms, s) ← chain make level h 15 1 m s
    pure (ok, m :: ms, s)

/-- `iLoadBlpInternal`, il_blp.cpp:221-508: its result, the image and its mipmaps with their palettes, and the input. -/
def iLoadBlpInternal (other : List (List UInt8) → σ → C (Bool × List Loaded × σ)) (cur : Loaded) (s : σ) : C (Bool × List Loaded × σ) := do
  let (h, s) ← head o junk headFields s
  if !iCheckBlp2 h then other h s
  else if fle h 1 ≠ 1 then pure (false, [cur], s)
  else if fle h 2 ≠ 1 then other h s
  else if fle h 3 = 0 then do
    let (n, p, s) ← into o s (alloc junk 1024) 1 1024
    let pal : Option Pal := some ⟨p, 1024, IL_PAL_BGRA32⟩
    if n ≠ 1024 then pure (false, [(tex junk (fle h 6) (fle h 7) 1 IL_COLOUR_INDEX, pal)], s)
    else do
      let (ok, ms, s) ← levels (mk junk 1 IL_COLOUR_INDEX) (level0 o) h s
      pure (ok, ms.map (fun m => (m, pal)), s)
  else if fle h 3 = 1 then do
    let (n, p, s) ← into o s (alloc junk 1024) 1 1024
    if n ≠ 1024 then pure (false, [(tex junk (fle h 6) (fle h 7) 4 IL_BGRA, none)], s)
    else do
      let (ok, ms, s) ← levels (mk junk 4 IL_BGRA) (level1 o junk p) h s
      pure (ok, ms.map (fun m => (m, none)), s)
  else pure (false, [cur], s)

end
end DevIL.Blp
