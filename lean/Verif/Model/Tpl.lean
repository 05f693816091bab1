import Verif.Model.Games
/-! Model of the loader of TPL textures, il_tpl.cpp.  An image is bound, allocation succeeds and `ilFixImage` is left out.  Textures with a palette and compressed textures are left to
a function `other`. -/
set_option autoImplicit false
namespace DevIL.Tpl
open DevIL.Games DevIL.Detect DevIL.Image
open DevIL.Lump (SEEK_SET SEEK_CUR)

section
variable {σ : Type} (o : Ops σ) (junk : Nat → UInt8)

/-- `(ILubyte)igetc()`, il_files.cpp:434-458: the end of the file becomes 255. -/
def getb (s : σ) : C (UInt8 × σ) := do
  let (b, s) ← o.getc s
  pure (match b with | some b => b | none => 255, s)

/-- `GetBigUShort()`, il_endian.cpp:141-157. -/
def big16 (s : σ) : C (Nat × σ) := do
  let (h, s) ← head o junk [u16] s
  pure (fbe h 0, s)

/-- The nibbles of a byte as bytes, il_tpl.cpp:301, 306, 357-358. -/
def high (b : UInt8) : UInt8 := let n : UInt8 := b &&& 0xF0; n ||| (n >>> 4)
/-- The lower nibble, il_tpl.cpp:306, 358. -/
def low (b : UInt8) : UInt8 := let n : UInt8 := b &&& 0x0F; (n <<< 4) ||| n

/-- A row of a tile of `TPL_I4`, il_tpl.cpp:296-308: `DataOff` rises by two in each turn, and the second pixel is stored one place too far. -/
def rowI4 (w off x : Nat) (t : List UInt8 × σ) : C (List UInt8 × σ) :=
  loopN 4 (fun k t => do
    let (b, s) ← getb o t.2
    if w ≤ x + 2 * k then pure (t.1, s)
    else do
      let d ← wr t.1 (u32 (off + 2 * k)) (high b)
      let d ← wr d (u32 (off + 2 * k + 2)) (low b)
      pure (d, s)) t

/-- A row of a tile of `TPL_I8`, il_tpl.cpp:324-331: `DataOff` has risen by `k`, since the pixels inside the image come first. -/
def rowI8 (w off x : Nat) (t : List UInt8 × σ) : C (List UInt8 × σ) :=
  loopN 8 (fun k t =>
    if w ≤ x + k then do
      let (_, s) ← o.getc t.2
      pure (t.1, s)
    else do
      let (b, s) ← getb o t.2
      let d ← wr t.1 (u32 (off + k)) b
      pure (d, s)) t

/-- A row of a tile of `TPL_IA4`, il_tpl.cpp:346-354. -/
def rowIA4 (w off x : Nat) (t : List UInt8 × σ) : C (List UInt8 × σ) :=
  loopN 4 (fun k t => do
    let (b, s) ← getb o t.2
    if w ≤ x + 2 * k then pure (t.1, s)
    else do
      let d ← wr t.1 (u32 (off + 2 * k)) (high b)
      let d ← wr d (u32 (off + 2 * k + 1)) (low b)
      pure (d, s)) t

/-- A row of a tile of `TPL_IA8`, il_tpl.cpp:368-377. -/
def rowIA8 (w off x : Nat) (t : List UInt8 × σ) : C (List UInt8 × σ) :=
  loopN 2 (fun k t =>
    if w ≤ x + 2 * k then do
      let (_, s) ← o.seek t.2 2 SEEK_CUR
      pure (t.1, s)
    else do
      let (a, s) ← getb o t.2
      let d ← wr t.1 (u32 (off + 2 * k)) a
      let (b, s) ← getb o s
      let d ← wr d (u32 (off + 2 * k + 1)) b
      pure (d, s)) t

/-- A row of a tile of `TPL_RGB565`, il_tpl.cpp:391-400. -/
def row565 (w off x : Nat) (t : List UInt8 × σ) : C (List UInt8 × σ) :=
  loopN 4 (fun k t => do
    let (v, s) ← big16 o junk t.2
    if w ≤ x + k then pure (t.1, s)
    else do
      let d ← wr t.1 (u32 (off + 3 * k)) (UInt8.ofNat (((v &&& 0xF800) >>> 8) ||| ((v &&& 0xE000) >>> 13)))
      let d ← wr d (u32 (off + 3 * k + 1)) (UInt8.ofNat (((v &&& 0x7E0) >>> 3) ||| ((v &&& 0x600) >>> 9)))
      let d ← wr d (u32 (off + 3 * k + 2)) (UInt8.ofNat (((v &&& 0x1F) <<< 3) ||| ((v &&& 0x1C) >>> 2)))
      pure (d, s)) t

/-- A row of a tile of `TPL_RGB5A3`, il_tpl.cpp:414-436: `DataOff` rises by three in each turn. -/
def row5A3 (w off x : Nat) (t : List UInt8 × σ) : C (List UInt8 × σ) :=
  loopN 4 (fun k t => do
    let (v, s) ← big16 o junk t.2
    if w ≤ x + k then pure (t.1, s)
    else
      let p := if v &&& 0x8000 ≠ 0 then
          (((v &&& 0x7C00) >>> 7) ||| ((v &&& 0x7000) >>> 12), ((v &&& 0x3E0) >>> 2) ||| ((v &&& 0x380) >>> 7), ((v &&& 0x1F) <<< 3) ||| ((v &&& 0x1C) >>> 2), 255)
        else (((v &&& 0x7800) >>> 7) ||| ((v &&& 0x7800) >>> 11), ((v &&& 0x0780) >>> 3) ||| ((v &&& 0x0780) >>> 7), ((v &&& 0x0078) <<< 1) ||| ((v &&& 0x0078) >>> 3),
          ((v &&& 0x07) <<< 5) ||| ((v &&& 0x07) <<< 2) ||| (v >>> 1))
      do
        let d ← wr t.1 (u32 (off + 3 * k)) (UInt8.ofNat p.1)
        let d ← wr d (u32 (off + 3 * k + 1)) (UInt8.ofNat p.2.1)
        let d ← wr d (u32 (off + 3 * k + 2)) (UInt8.ofNat p.2.2.1)
        let d ← wr d (u32 (off + 3 * k + 3)) (UInt8.ofNat p.2.2.2)
        pure (d, s)) t

/-- A row of a tile of `TPL_RGBA8`, il_tpl.cpp:455-478: `DataOff` rises by three in each turn. -/
def rowRGBA8 (w off x : Nat) (t : List UInt8 × σ) : C (List UInt8 × σ) := do
  let t ← loopN 4 (fun k t =>
    if w ≤ x + k then do
      let (_, s) ← o.seek t.2 2 SEEK_CUR
      pure (t.1, s)
    else do
      let (a, s) ← getb o t.2
      let d ← wr t.1 (u32 (off + 3 * k + 3)) a
      let (r, s) ← getb o s
      let d ← wr d (u32 (off + 3 * k)) r
      pure (d, s)) t
  loopN (min 4 (w - x)) (fun k t => do
    let (g, s) ← getb o t.2
    let d ← wr t.1 (u32 (off + 3 * k + 1)) g
    let (b, s) ← getb o s
    let d ← wr d (u32 (off + 3 * k + 2)) b
    pure (d, s)) t

/-- The loops over the tiles, il_tpl.cpp:287-484: `th` rows of `row`, and `pad` bytes are skipped for a row below the image. -/
def tiles (tw th pad w h bps bpp : Nat) (row : Nat → Nat → List UInt8 × σ → C (List UInt8 × σ)) (t : List UInt8 × σ) : C (List UInt8 × σ) :=
  forStep 0 h th (fun y t => forStep 0 w tw (fun x t => loopN th (fun yb t =>
    if h ≤ y + yb then do
      let (_, s) ← o.seek t.2 pad SEEK_CUR
      pure (t.1, s)
    else row (u32 (bps * (y + yb) + bpp * x)) x t) t) t) t

/-- The switch over the formats, il_tpl.cpp:282-484. -/
def decode (fmt : Nat) (m : Img) (s : σ) : C (List UInt8 × σ) :=
  if fmt = 0 then tiles o 8 8 8 m.width m.height m.bps m.bpp (rowI4 o m.width) (m.data, s)
  else if fmt = 1 then tiles o 8 4 8 m.width m.height m.bps m.bpp (rowI8 o m.width) (m.data, s)
  else if fmt = 2 then tiles o 8 4 8 m.width m.height m.bps m.bpp (rowIA4 o m.width) (m.data, s)
  else if fmt = 3 then tiles o 4 4 8 m.width m.height m.bps m.bpp (rowIA8 o m.width) (m.data, s)
  else if fmt = 4 then tiles o 4 4 8 m.width m.height m.bps m.bpp (row565 o junk m.width) (m.data, s)
  else if fmt = 5 then tiles o 4 4 8 m.width m.height m.bps m.bpp (row5A3 o junk m.width) (m.data, s)
  else tiles o 4 4 16 m.width m.height m.bps m.bpp (rowRGBA8 o m.width) (m.data, s)

/-- `Bpp` and `Format`, il_tpl.cpp:228-268. -/
def kindOf (fmt : Nat) : Option (Nat × Nat) :=
  if fmt = 0 ∨ fmt = 1 then some (1, IL_LUMINANCE) else if fmt = 2 ∨ fmt = 3 then some (1, IL_LUMINANCE_ALPHA) else if fmt = 4 then some (3, IL_RGB)
  else if fmt = 5 ∨ fmt = 6 then some (4, IL_RGBA) else if fmt = 8 ∨ fmt = 9 then some (1, IL_COLOUR_INDEX) else if fmt = 10 then some (3, IL_RGBA) else if fmt = 14 then some (4, IL_RGBA) else none

variable (other : Nat → Nat → Img → σ → C (Bool × Img × σ))

/-- The check of the sides, il_tpl.cpp:215-221. -/
def sidesOk (wrap w h : Nat) : C Bool :=
  if wrap = 1 ∨ wrap = 2 then do
    let pw ← Utility.ilNextPower2 40 w
    let ph ← Utility.ilNextPower2 40 h
    pure (decide (pw = w ∧ ph = h))
  else pure true

/-- The body of the loop over the textures, il_tpl.cpp:188-594: `some false` ends the loader, `some true` ends the loop, and with `none` it goes on. -/
def texture (pos n : Nat) (imgs : List Img) (s : σ) : C (Option Bool × List Img × σ) := do
  let (_, s) ← o.seek s (Lump.toInt (u32 (pos + n * 8))) SEEK_SET
  let (p, s) ← head o junk [u32f, u32f] s
  let (ok, s) ← o.seek s (Lump.toInt (fbe p 0)) SEEK_SET
  if !ok then pure (some false, imgs, s)
  else do
    let (g, s) ← head o junk [u16, u16] s
    if fbe g 1 = 0 ∨ fbe g 0 = 0 then pure (some (decide (imgs ≠ [])), imgs, s)
    else do
      let (q, s) ← head o junk [u32f, u32f, u32f, u32f] s
      let good ← sidesOk (fbe q 2) (fbe g 1) (fbe g 0)
      if !good then pure (some false, imgs, s)
      else do
        let (ok, s) ← o.seek s (Lump.toInt (fbe q 1)) SEEK_SET
        if !ok then pure (some false, imgs, s)
        else match kindOf (fbe q 0) with
          | none => pure (some false, imgs, s)
          | some (bpp, format) =>
            let m := { tex junk (fbe g 1) (fbe g 0) bpp format with origin := IL_ORIGIN_UPPER_LEFT }
            if fbe q 0 ≤ 6 then do
              let (d, s) ← decode o junk (fbe q 0) m s
              pure (none, imgs ++ [{ m with data := d }], s)
            else do
              let (ok, m, s) ← other (fbe q 0) (fbe p 1) m s
              pure (if ok then none else some false, imgs ++ [m], s)

/-- The loop over the textures, il_tpl.cpp:188-595. -/
def textures (pos : Nat) : Nat → Nat → List Img → σ → C (Bool × List Img × σ)
  | 0, _, imgs, s => pure (true, imgs, s)
  | todo + 1, n, imgs, s => do
    let (r, imgs, s) ← texture o junk other pos n imgs s
    match r with
    | some b => pure (b, imgs, s)
    | none => textures pos todo (n + 1) imgs s

/-- `iLoadTplInternal`, il_tpl.cpp:150-598: the result, and the image and those that follow it. -/
def iLoadTplInternal (cur : Img) (s : σ) : C (Bool × List Img × σ) := do
  let (h, s) ← head o junk [u32f, u32f, u32f] s
  if fbe h 0 ≠ 0x0020AF30 ∨ fbe h 2 ≠ 0x0C ∨ fbe h 1 = 0 then pure (false, [cur], s)
  else do
    let (ok, ms, s) ← textures o junk other (o.tell s) (fbe h 1) 0 [] s
    pure (ok, if ms = [] then [cur] else ms, s)

end
end DevIL.Tpl
