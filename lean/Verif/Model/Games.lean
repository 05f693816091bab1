import Verif.Model.Detect
import Verif.Model.Image
import Verif.Model.Pal
/-! Model of the loaders of small formats: il_ftx.cpp, il_lif.cpp, il_pxr.cpp, il_pix.cpp, il_mdl.cpp, il_wal.cpp, il_doom.cpp, il_cut.cpp.
An image is bound; allocation succeeds; `ilFixImage` is left out (it does nothing unless `IL_ORIGIN_SET`, `IL_TYPE_SET` or `IL_FORMAT_SET`
is enabled, il_convert.cpp:986-1022); errors raised are left out.  A loader returns its boolean, the image with its palette, and the input. -/
set_option autoImplicit false
namespace DevIL.Games

open DevIL.Lump (SEEK_SET SEEK_CUR SEEK_END)
open DevIL.Detect DevIL.Image

/-- The bound image and its palette. -/
abbrev Loaded := Img × Option Pal

section
variable {σ : Type} (o : Ops σ) (junk : Nat → UInt8)

/-- `iread(dst, size, number)` into a block of the program: a fault if a delivered byte falls outside it.  il_files.cpp:462-538. -/
def into (s : σ) (dst : List UInt8) (size number : Nat) : C (Nat × List UInt8 × σ) := do
  let (g, n, s) ← o.read s size number
  let d ← memcpy dst 0 g 0 g.length
  pure (n, d, s)

/-- `ilTexImage(w, h, 1, bpp, format, IL_UNSIGNED_BYTE, NULL)`, il_devil.cpp:126-165, 19-58: it cannot fail here. -/
def tex (w h bpp format : Nat) : Img :=
  let g := geometry w h 1 bpp format IL_UNSIGNED_BYTE []
  { g with data := alloc junk g.size }

/-- `iLoadFtxInternal`, il_ftx.cpp:61-97. -/
def iLoadFtxInternal (s : σ) : C (Bool × Loaded × σ) := do
  let (h, s) ← head o junk [u32f, u32f, u32f] s
  let m := { tex junk (fle h 0) (fle h 1) 4 IL_RGBA with origin := IL_ORIGIN_UPPER_LEFT }
  let (n, d, s) ← into o s m.data 1 m.size
  if n ≠ m.size then pure (false, ({ m with data := d }, none), s)
  else pure (true, ({ m with data := d }, none), s)

/-- `iLoadLifInternal` and `iGetLifHead`, il_lif.cpp:67-92, 161-196. -/
def iLoadLifInternal (s : σ) : C (Bool × Loaded × σ) := do
  let (h, s) ← head o junk [arr 8, u32f, u32f, u32f, u32f, u32f, u32f, u32f, u32f, u32f] s
  let m := { tex junk (fle h 3) (fle h 4) 1 IL_COLOUR_INDEX with origin := IL_ORIGIN_UPPER_LEFT }
  let pal : Pal := ⟨alloc junk 1024, 1024, IL_PAL_RGBA32⟩
  let (n, d, s) ← into o s m.data (u32 (fle h 3 * fle h 4)) 1
  let m := { m with data := d }
  if n ≠ 1 then pure (false, (m, some pal), s)
  else do
    let (n, p, s) ← into o s pal.data 1 1024
    let pal := { pal with data := p }
    if n ≠ 1024 then pure (false, (m, some pal), s)
    else do
      let d ← loopN m.size (fun i d => do let b ← rd d i; wr d i (b + 1)) m.data
      pure (true, ({ m with data := d }, some pal), s)

/-- The switch of `iLoadPxrInternal`, il_pxr.cpp:95-109. -/
def pxrFormat (b : UInt8) : Option (Nat × Nat) :=
  if b = 0x08 then some (1, IL_LUMINANCE) else if b = 0x0E then some (3, IL_RGB) else if b = 0x0F then some (4, IL_RGBA) else none

/-- `iLoadPxrInternal`, il_pxr.cpp:82-116. -/
def iLoadPxrInternal (cur : Loaded) (s : σ) : C (Bool × Loaded × σ) := do
  let (_, s) ← o.seek s 416 SEEK_SET
  let (h, s) ← head o junk [u16, u16] s
  let (_, s) ← o.seek s 424 SEEK_SET
  let (b, s) ← o.getc s
  match pxrFormat (match b with | some b => b | none => 255) with
  | none => pure (false, cur, s)
  | some (k, f) => do
    let m := tex junk (fle h 1) (fle h 0) k f
    let (_, s) ← o.seek s 1024 SEEK_SET
    let (_, d, s) ← into o s m.data 1 m.size
    pure (true, ({ m with data := d, origin := IL_ORIGIN_UPPER_LEFT }, none), s)

/-- The state of the loop of `iLoadPixInternal`: `i`, the pixel block, the input, and whether it has returned `IL_FALSE`.
il_pix.cpp:142-151. -/
structure PixS (σ : Type) where
  i : Nat
  data : List UInt8
  inp : σ
  failed : Bool

/-- One pixel of a run, il_pix.cpp:147-149. -/
def pixPut (a b c : UInt8) (s : Nat × List UInt8) : C (Nat × List UInt8) := do
  let d ← wr s.2 s.1 a
  let d ← wr d (s.1 + 1) b
  let d ← wr d (s.1 + 2) c
  pure (s.1 + 3, d)

/-- One run, il_pix.cpp:143-150. -/
def pixStep (s : PixS σ) : C (PixS σ) := do
  let (n, t) ← o.getc s.inp
  let (g, k, t) ← o.read t 1 3
  if k ≠ 3 then pure { s with inp := t, failed := true }
  else do
    let a ← rd g 0
    let b ← rd g 1
    let c ← rd g 2
    let (i, d) ← loopN (match n with | some n => n.toNat | none => 255) (fun _ => pixPut a b c) (s.i, s.data)
    pure { i := i, data := d, inp := t, failed := false }

/-- `iLoadPixInternal`, `iGetPixHead` and `iCheckPix`, il_pix.cpp:39-48, 65-75, 121-156.  The loop runs at most once for each three bytes of
the input (`fuel`). -/
def iLoadPixInternal (fuel : Nat) (cur : Loaded) (s : σ) : C (Bool × Loaded × σ) := do
  let (h, s) ← head o junk [u16, u16, u16, u16, u16] s
  if fbe h 0 = 0 ∨ fbe h 1 = 0 then pure (false, cur, s)
  else if fbe h 4 ≠ 24 then pure (false, cur, s)
  else do
    let m := tex junk (fbe h 0) (fbe h 1) 3 IL_BGR
    let r ← whileF (fun s : PixS σ => !s.failed && decide (s.i < m.size)) (pixStep o) fuel ⟨0, m.data, s, false⟩
    let m := { m with data := r.data }
    if r.failed then pure (false, (m, none), r.inp)
    else pure (true, ({ m with origin := IL_ORIGIN_UPPER_LEFT }, none), r.inp)

/-- The state of the loop of `iLoadMdlInternal`: the bound image (none before the first texture), the input, whether it has returned
`IL_FALSE`.  il_mdl.cpp:163-211. -/
structure MdlS (σ : Type) where
  base : Option Loaded
  inp : σ
  failed : Bool

/-- One texture, il_mdl.cpp:164-210, with `IL_CONV_PAL` disabled.  Of the second texture on, `iCurImage->Next` is NULL: `ilTexImage` has
cleared it and line 185 that would have set it is commented out. -/
def mdlStep (s : MdlS σ) : C (MdlS σ) := do
  let (g, n, t) ← o.read s.inp 1 64
  if n ≠ 64 then pure { s with inp := t, failed := true }
  else do
    let _ := g
    let (h, t) ← head o junk [u32f, u32f, u32f, u32f] t
    let position := o.tell t
    if fle h 3 = 0 then pure { s with inp := t, failed := true }
    else match s.base with
      | some _ => .error .nullDeref
      | none => do
        let m := tex junk (fle h 1) (fle h 2) 1 IL_COLOUR_INDEX
        let pal : Pal := ⟨alloc junk 768, 768, IL_PAL_RGB24⟩
        let (_, t) ← o.seek t (Lump.toInt (fle h 3)) SEEK_SET
        let (n, d, t) ← into o t m.data (u32 (fle h 1 * fle h 2)) 1
        let m := { m with data := d }
        if n ≠ 1 then pure ⟨some (m, some pal), t, true⟩
        else do
          let (n, p, t) ← into o t pal.data 1 768
          let pal := { pal with data := p }
          if n ≠ 768 then pure ⟨some (m, some pal), t, true⟩
          else do
            let (_, t) ← o.seek t (Lump.toInt position) SEEK_SET
            pure ⟨some (m, some pal), t, false⟩

/-- `iLoadMdlInternal`, il_mdl.cpp:127-216. -/
def iLoadMdlInternal (cur : Loaded) (s : σ) : C (Bool × Loaded × σ) := do
  let (h, s) ← head o junk [u32f, u32f] s
  if fle h 0 ≠ 0x54534449 ∨ fle h 1 ≠ 10 then pure (false, cur, s)
  else do
    let (_, s) ← o.seek s 172 SEEK_CUR
    let (h, s) ← head o junk [u32f, u32f, u32f] s
    if fle h 0 = 0 ∨ fle h 1 = 0 ∨ fle h 2 = 0 then pure (false, cur, s)
    else do
      let (_, s) ← o.seek s (Lump.toInt (fle h 1)) SEEK_SET
      let r ← loopN (fle h 0) (fun _ t => if t.failed then pure t else mdlStep o junk t) ⟨none, s, false⟩
      pure (!r.failed, match r.base with | some m => m | none => cur, r.inp)

/-- The state of `iLoadDoomInternal` inside a column: the pixel block, the input, and whether the column has ended (`some true`) or the
loader has returned `IL_FALSE` (`some false`).  il_doom.cpp:112-137. -/
structure DoomS (σ : Type) where
  data : List UInt8
  inp : σ
  fin : Option Bool

/-- One pixel of a post, il_doom.cpp:127-132.  `height` is signed. -/
def doomRow (w : Nat) (height : Int) (col top row : Nat) (s : DoomS σ) : C (DoomS σ) :=
  if s.fin.isSome then pure s
  else do
    let (g, _, t) ← o.read s.inp 1 1
    match g with
    | [] => pure { s with inp := t, fin := some false }
    | post :: _ =>
      if ((row + top : Nat) : Int) < height then do
        let d ← wr s.data ((row + top) * w + col) post
        pure { s with data := d, inp := t }
      else pure { s with inp := t }

/-- One post, il_doom.cpp:118-133. -/
def doomPost (w : Nat) (height : Int) (col : Nat) (s : DoomS σ) : C (DoomS σ) := do
  let (g, _, t) ← o.read s.inp 1 1
  match g with
  | [] => pure { s with inp := t, fin := some false }
  | top :: _ =>
    if top = 255 then pure { s with inp := t, fin := some true }
    else do
      let (g, _, t) ← o.read t 1 1
      match g with
      | [] => pure { s with inp := t, fin := some false }
      | len :: _ => do
        let (g, _, t) ← o.read t 1 1
        match g with
        | [] => pure { s with inp := t, fin := some false }
        | _ :: _ => do
          let r ← loopN len.toNat (doomRow o w height col top.toNat) { s with inp := t }
          if r.fin.isSome then pure r
          else do
            let (_, _, t) ← o.read r.inp 1 1
            pure { r with inp := t }

/-- One column, il_doom.cpp:113-136.  The loop over the posts runs at most once for each byte of the input (`fuel`). -/
def doomCol (fuel w : Nat) (height : Int) (first col : Nat) (s : DoomS σ) : C (DoomS σ) :=
  if s.fin.isSome then pure s
  else do
    let (h, t) ← head o junk [u32f] s.inp
    let position := o.tell t
    let (_, t) ← o.seek t (Lump.toInt first + Lump.toInt (fle h 0)) SEEK_SET
    let r ← whileF (fun s : DoomS σ => !s.fin.isSome) (doomPost o w height col) fuel { s with inp := t }
    if r.fin = some false then pure r
    else do
      let (_, t) ← o.seek r.inp (Lump.toInt position) SEEK_SET
      pure { r with inp := t, fin := none }

/-- A 16-bit number as `ILshort`, il_endian.cpp:96-103. -/
def short (n : Nat) : Int := if n < 32768 then n else (n : Int) - 65536

/-- `NewData[i * 4] = …`, il_doom.cpp:141-159, 246-264: the same byte is stored three times, bytes 1 and 2 keep what the new block held;
then `ilTexImage` with four components. -/
def doomConv (m : Img) (pal : Pal) : C Img := do
  let nd ← loopN m.size (fun i d => do
    let b ← rd m.data i
    let v ← rd pal.data b.toNat
    let d ← wr d (i * 4) v
    let v ← rd pal.data b.toNat
    let d ← wr d (i * 4) v
    let v ← rd pal.data b.toNat
    let d ← wr d (i * 4) v
    wr d (i * 4 + 3) (if b ≠ 247 then 255 else 0)) (alloc junk (u32 (m.size * 4)))
  match ← ilInitImage junk m.width m.height m.depth 4 IL_RGBA m.type (some nd) with
  | some n => pure { n with origin := IL_ORIGIN_UPPER_LEFT }
  | none => pure m

/-- The end of `iLoadDoomInternal` and `iLoadDoomFlatInternal`: the conversion under `IL_CONV_PAL`, il_doom.cpp:140-162, 245-267. -/
def doomEnd (conv : Bool) (m : Img) (pal : Pal) (s : σ) : C (Bool × Loaded × σ) :=
  if conv then do
    let m ← doomConv junk m pal
    pure (true, (m, none), s)
  else pure (true, (m, some pal), s)

/-- `iLoadDoomInternal`, il_doom.cpp:77-163.  `table` is the palette `ilDefaultDoomPal` (il_doompal.h), `conv` is `IL_CONV_PAL`. -/
def iLoadDoomInternal (table : List UInt8) (conv : Bool) (fuel : Nat) (s : σ) : C (Bool × Loaded × σ) := do
  let first := o.tell s
  let (h, s) ← head o junk [u16, u16, u16, u16] s
  let m := { tex junk (Lump.ofInt (short (fle h 0))) (Lump.ofInt (short (fle h 1))) 1 IL_COLOUR_INDEX with origin := IL_ORIGIN_UPPER_LEFT }
  let p ← memcpy (alloc junk 768) 0 table 0 768
  let pal : Pal := ⟨p, 768, IL_PAL_RGB24⟩
  let r ← loopN (short (fle h 0)).toNat (doomCol o junk fuel (short (fle h 0)).toNat (short (fle h 1)) first)
    ⟨List.replicate m.size 247, s, none⟩
  let m := { m with data := r.data }
  if r.fin.isSome then pure (false, (m, some pal), r.inp)
  else doomEnd junk conv m pal r.inp

/-- `iLoadDoomFlatInternal`, il_doom.cpp:219-268. -/
def iLoadDoomFlatInternal (table : List UInt8) (conv : Bool) (s : σ) : C (Bool × Loaded × σ) := do
  let m := { tex junk 64 64 1 IL_COLOUR_INDEX with origin := IL_ORIGIN_UPPER_LEFT }
  let p ← memcpy (alloc junk 768) 0 table 0 768
  let pal : Pal := ⟨p, 768, IL_PAL_RGB24⟩
  let (n, d, s) ← into o s m.data 1 4096
  let m := { m with data := d }
  if n ≠ 4096 then pure (false, (m, some pal), s)
  else doomEnd junk conv m pal s

/-- The state of the loop of `iLoadCutInternal`, il_cut.cpp:108-127. -/
structure CutS (σ : Type) where
  i : Nat
  data : List UInt8
  inp : σ

/-- `igetc()` stored into an `ILubyte`: -1 becomes 255.  il_files.cpp:434-459. -/
def getb (s : σ) : C (UInt8 × σ) := do
  let (b, s) ← o.getc s
  pure (match b with | some b => b | none => 255, s)

/-- One piece of the data, il_cut.cpp:109-126. -/
def cutStep (s : CutS σ) : C (CutS σ) := do
  let (count, t) ← getb o s.inp
  if count = 0 then do
    let (_, t) ← getb o t
    let (_, t) ← getb o t
    pure { s with inp := t }
  else if count &&& 128 ≠ 0 then do
    let (run, t) ← getb o t
    let d ← loopN (count &&& 127).toNat (fun j d => wr d (s.i + j) run) s.data
    pure ⟨s.i + (count &&& 127).toNat, d, t⟩
  else
    loopN count.toNat (fun _ s => do
      let (b, t) ← getb o s.inp
      let d ← wr s.data s.i b
      pure ⟨s.i + 1, d, t⟩) { s with inp := t }

/-- `iLoadCutInternal`, il_cut.cpp:81-136.  The product of two `ILushort`s is one of `int`s.  `fuel` bounds the rounds of the loop. -/
def iLoadCutInternal (fuel : Nat) (cur : Loaded) (s : σ) : C (Bool × Loaded × σ) := do
  let (h, s) ← head o junk [u16, u16, u32f] s
  if fle h 0 = 0 ∨ fle h 1 = 0 then pure (false, cur, s)
  else do
    let m := tex junk (fle h 0) (fle h 1) 1 IL_COLOUR_INDEX
    if fle h 0 * fle h 1 ≥ 2147483648 then .error .overflow
    else do
      let r ← whileF (fun s : CutS σ => decide (s.i < fle h 0 * fle h 1)) (cutStep o) fuel ⟨0, m.data, s⟩
      pure (true, ({ m with data := r.data, origin := IL_ORIGIN_UPPER_LEFT }, none), r.inp)

/-- A mipmap made by `iLoadWalInternal`: the image, and `Pal.Palette`, `Pal.PalSize` and `Pal.PalType`.  il_wal.cpp:105-127. -/
structure Mip where
  img : Img
  palette : Option (List UInt8)
  palSize : Nat
  palType : Nat

/-- One mipmap, il_wal.cpp:106-126: its palette is set, but then `ilTexImage` clears the image (`memset`, il_devil.cpp:27; the palette
is not freed since `PalSize` is still 0). -/
def walMip (w h : Nat) : Mip :=
  { img := { tex junk w h 1 IL_COLOUR_INDEX with origin := IL_ORIGIN_UPPER_LEFT }, palette := none, palSize := 768, palType := IL_PAL_NONE }

/-- `ilCloseImage(Mipmaps[i])` where `Mipmaps[i]->Mipmaps` is `Mipmaps[i+1]` (il_wal.cpp:131-133, il_stack.cpp:203-258); `freed` are
the images freed so far.  The first access to a freed image is a fault. -/
def closeMip (fuel i : Nat) (freed : List Nat) : C (List Nat) :=
  match fuel with
  | 0 => pure freed
  | fuel + 1 =>
    if i ∈ freed then .error .useAfterFree
    else if i < 2 then do
      let freed ← closeMip fuel (i + 1) freed
      pure (i :: freed)
    else pure (i :: freed)

/-- The label `cleanup_error`, il_wal.cpp:160-163. -/
def walCleanup : C (List Nat) := loopN 3 (fun i freed => closeMip 3 i freed) []

/-- The state of the loop that reads the mipmaps, il_wal.cpp:151-155. -/
structure WalS (σ : Type) where
  mips : List Mip
  inp : σ
  failed : Bool

/-- One mipmap is read, il_wal.cpp:152-154. -/
def walRead (h : List (List UInt8)) (i : Nat) (s : WalS σ) : C (WalS σ) :=
  if s.failed then pure s
  else do
    let (_, t) ← o.seek s.inp (Lump.toInt (fle h (3 + (i + 1)))) SEEK_SET
    let p ← rd s.mips i
    let (n, d, t) ← into o t p.img.data (u32 (p.img.width * p.img.height)) 1
    let mips := s.mips.set i { p with img := { p.img with data := d } }
    pure ⟨mips, t, decide (n ≠ 1)⟩

/-- `iLoadWalInternal`, il_wal.cpp:76-165: the boolean, the image, its mipmaps (all the images freed on failure).  `table` is the palette
`ilDefaultQ2Pal` (il_q2pal.h). -/
def iLoadWalInternal (table : List UInt8) (s : σ) : C (Bool × Loaded × List Mip × σ) := do
  let (h, s) ← head o junk [arr 32, u32f, u32f, u32f, u32f, u32f, u32f, arr 32, u32f, u32f, u32f] s
  let m := { tex junk (fle h 1) (fle h 2) 1 IL_COLOUR_INDEX with origin := IL_ORIGIN_UPPER_LEFT }
  let mips := [walMip junk (fle h 1 / 2) (fle h 2 / 2), walMip junk (fle h 1 / 2 / 2) (fle h 2 / 2 / 2),
    walMip junk (fle h 1 / 2 / 2 / 2) (fle h 2 / 2 / 2 / 2)]
  let p ← memcpy (alloc junk 768) 0 table 0 768
  let pal : Pal := ⟨p, 768, IL_PAL_RGB24⟩
  let (_, s) ← o.seek s (Lump.toInt (fle h 3)) SEEK_SET
  let (n, d, s) ← into o s m.data (u32 (fle h 1 * fle h 2)) 1
  let m := { m with data := d }
  if n ≠ 1 then do
    let _ ← walCleanup
    pure (false, (m, some pal), [], s)
  else do
    let r ← loopN 3 (walRead o h) ⟨mips, s, false⟩
    if r.failed then do
      let _ ← walCleanup
      pure (false, (m, some pal), [], r.inp)
    else pure (true, (m, some pal), r.mips, r.inp)

end

/-- `ilLoad…F`: the file at its position `s.pos`, il_ftx.cpp:39-50 and alike in the other formats. -/
def ilLoadF {ρ : Type} (v : Cache.S → C (Bool × ρ × Cache.S)) (s : Cache.S) : C (Bool × ρ × Cache.S) := do
  let s := Cache.iSetInputFile s s.data s.pos
  let first := Cache.iTellRFile s
  let (b, r, s) ← v s
  pure (b, r, (Cache.iSeekRFile s (Lump.toInt first) SEEK_SET).2)

/-- `ilLoad…L`, il_ftx.cpp:54-58 and alike. -/
def ilLoadL {ρ : Type} (v : Lump.R → C (Bool × ρ × Lump.R)) (data : List UInt8) (size : Nat) : C (Bool × ρ) := do
  let (b, r, _) ← v (Lump.open_ data size)
  pure (b, r)

/-- `ilLoadDoomFlat`, il_doom.cpp:171-192: the flat file is opened and given to `ilLoadDoomF`. -/
def ilLoadDoomFlat (junk : Nat → UInt8) (table : List UInt8) (conv : Bool) (fuel : Nat) (s : Cache.S) : C (Bool × Loaded × Cache.S) :=
  ilLoadF (iLoadDoomInternal fileOps junk table conv fuel) s

end DevIL.Games
