import Verif.Model.Games
/-! Model of the loader of KTX textures that are not compressed, il_ktx.cpp.  An image is bound, allocation succeeds, and `ilFixImage` is left out.  Compressed textures and those of halves are a parameter. -/
set_option autoImplicit false
namespace DevIL.Ktx
open DevIL.Games DevIL.Detect DevIL.Image
open DevIL.Lump (SEEK_SET SEEK_CUR)

/-- The numbers of the header after the identifier, il_ktx.cpp:209-221. -/
def headFields : List Fld := [u32f, u32f, u32f, u32f, u32f, u32f, u32f, u32f, u32f, u32f, u32f, u32f, u32f]

/-- `strncmp` of the data from this place with a string, il_ktx.cpp:404: bytes are read up to the first that differs. -/
def same (kv : List UInt8) : Nat → List UInt8 → C Bool
  | _, [] => pure true
  | p, c :: cs => do
    let v ← rd kv p
    if v = c then same kv (p + 1) cs else pure false

/-- A number of four bytes at a place of the data, il_ktx.cpp:401, on a machine that is little endian. -/
def word (kv : List UInt8) (p : Nat) : C Nat := do
  let a ← rd kv p
  let b ← rd kv (p + 1)
  let c ← rd kv (p + 2)
  let d ← rd kv (p + 3)
  pure (a.toNat + b.toNat * 256 + c.toNat * 65536 + d.toNat * 16777216)

/-- The loop over the keys, il_ktx.cpp:399-418, in at most so many turns: the origin. -/
def keys (kv : List UInt8) : Nat → Nat → Nat → C Nat
  | 0, _, _ => .error .hang
  | f + 1, pos, origin =>
    if pos < kv.length then do
      let n ← word kv pos
      let hit ← if 22 ≤ n then same kv (pos + 4) [75, 84, 88, 111, 114, 105, 101, 110, 116, 97, 116, 105, 111, 110] else pure false
      let origin ← if hit then do
          let c ← rd kv (pos + 25)
          pure (if c = 100 then IL_ORIGIN_UPPER_LEFT else if c = 117 then IL_ORIGIN_LOWER_LEFT else origin)
        else pure origin
      keys kv f (u32 (pos + n)) origin
    else pure origin

section
variable {σ : Type} (o : Ops σ) (junk : Nat → UInt8)

/-- `iKtxKeyValueData`, il_ktx.cpp:381-423: the origin, if all the data are there. -/
def iKtxKeyValueData (fuel n : Nat) (s : σ) : C (Option Nat × σ) :=
  if n = 0 then pure (some IL_ORIGIN_UPPER_LEFT, s)
  else do
    let (k, kv, s) ← into o s (alloc junk n) 1 n
    if k ≠ n then pure (none, s)
    else do
      let origin ← keys kv fuel 0 IL_ORIGIN_UPPER_LEFT
      pure (some origin, s)

/-- The loop over the rows that are filled up, il_ktx.cpp:452-459: so many rows from number `y` on. -/
def rows (bps pad : Nat) : Nat → Nat → List UInt8 → σ → C (Bool × List UInt8 × σ)
  | 0, _, d, s => pure (true, d, s)
  | n + 1, y, d, s => do
    let (k, r, s) ← into o s (d.drop (y * bps)) 1 bps
    let d := d.take (y * bps) ++ r
    if k ≠ bps then pure (false, d, s)
    else do
      let (_, s) ← o.seek s (Lump.toInt pad) SEEK_CUR
      rows bps pad n (y + 1) d s

/-- One turn of the loop over the levels, il_ktx.cpp:434-462: 0 if it goes on, 1 at `goto mip_fail` and 2 at `return IL_FALSE`.  `height` is the variable `Height`. -/
def level (height origin : Nat) (m : Img) (s : σ) : C (Nat × Img × σ) := do
  let (h, s) ← head o junk [u32f] s
  let pad := 3 - (m.bps + 3) % 4
  if fle h 0 ≠ u32 (m.size + pad * m.height) then pure (1, m, s)
  else if m.bps % 4 = 0 then do
    let (k, d, s) ← into o s m.data 1 m.size
    if k ≠ m.size then pure (2, { m with data := d }, s) else pure (0, { m with data := d, origin := origin }, s)
  else do
    let (ok, d, s) ← rows o m.bps pad height 0 m.data s
    if !ok then pure (2, { m with data := d }, s) else pure (0, { m with data := d, origin := origin }, s)

/-- The loop over the levels, il_ktx.cpp:432-475: so many are left, of which `m` is the first. -/
def levels (k format origin : Nat) : Nat → Nat → Nat → Img → σ → C (Nat × List Img × σ)
  | 0, _, _, m, s => pure (0, [m], s)
  | n + 1, w, h, m, s => do
    let (c, m, s) ← level o junk h origin m s
    if c ≠ 0 ∨ n = 0 then pure (c, [m], s)
    else do
      let (c, ms, s) ← levels k format origin n (w / 2) (h / 2) (tex junk (w / 2) (h / 2) k format) s
      pure (c, m :: ms, s)

/-- The formats, il_ktx.cpp:252-276. -/
def format (f : Nat) : Option (Nat × Nat) :=
  if f = 0x1909 then some (1, IL_LUMINANCE) else if f = 0x190A then some (2, IL_LUMINANCE_ALPHA) else if f = 0x1907 then some (3, IL_RGB) else if f = 0x1908 then some (4, IL_RGBA) else none

/-- `iLoadKtxInternal` with `iKtxReadMipmaps`, il_ktx.cpp:186-321, 426-490: its result, the image and its mipmaps, and the input.  At `mip_fail` the mipmaps are given back. -/
def iLoadKtxInternal (other : List (List UInt8) → Nat → σ → C (Bool × List Img × σ)) (fuel : Nat) (cur : Img) (s : σ) : C (Bool × List Img × σ) := do
  let (n, id, s) ← into o s (alloc junk 12) 1 12
  if n ≠ 12 then pure (false, [cur], s)
  else do
    let (h, s) ← head o junk headFields s
    if id ≠ [0xAB, 0x4B, 0x54, 0x58, 0x20, 0x31, 0x31, 0xBB, 0x0D, 0x0A, 0x1A, 0x0A] ∨ fle h 0 ≠ 0x04030201 then pure (false, [cur], s)
    else if fle h 2 ≠ 1 then pure (false, [cur], s)
    else if fle h 9 ≠ 0 ∨ fle h 10 ≠ 1 then pure (false, [cur], s)
    else do
      let (origin, s) ← iKtxKeyValueData o junk fuel (fle h 12) s
      match origin with
      | none => pure (false, [cur], s)
      | some origin =>
        if fle h 3 = 0 then other h origin s
        else match format (fle h 3) with
        | none => pure (false, [cur], s)
        | some (k, f) =>
          if fle h 1 = 0x140B then other h origin s
          else if fle h 1 ≠ 0x1401 then pure (false, [cur], s)
          else do
            let m := tex junk (fle h 6) (fle h 7) k f
            let (c, ms, s) ← levels o junk k f origin (fle h 11) m.width m.height m s
            if c = 0 then pure (true, ms, s) else if c = 1 then pure (false, ms.take 1, s) else pure (false, ms, s)

end
end DevIL.Ktx
