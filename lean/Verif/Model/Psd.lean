import Verif.Model.Games
import Verif.Model.Manip
import Verif.Model.Sgi
/-! Model of the Photoshop loader and saver, il_psd.cpp.  As in Model/Games.lean an image is bound, allocation succeeds and `ilFixImage` is left out.
The machine is little-endian.  `IL_MEM_SPEED_HINT` is not `IL_FASTEST`, so nothing is read ahead (`iPreCache`, 576-580; see C110 for reading ahead).
The colour profile, which `ParseResources` stores beside the image, is left out; reading it is not. -/
set_option autoImplicit false
namespace DevIL.Psd
open DevIL.Games DevIL.Detect DevIL.Image DevIL.DetectSpec
open DevIL.Lump (SEEK_CUR WOp)

/-! ### Numbers -/

/-- The whole number nearest to `n / d`, ties to even.  Part of the arithmetic of `float`, il_psd.cpp:23-39. -/
def nearest (n d : Nat) : Nat :=
  if 2 * (n % d) < d then n / d else if d < 2 * (n % d) then n / d + 1 else if n / d % 2 = 0 then n / d else n / d + 1

/-- The `float` nearest to `n / d`, as `m / 2 ^ e` with `m` of 24 bits; right for 0 and for what is between `2 ^ -40` and `2 ^ 24`, which
is all that occurs.  Part of the arithmetic of `float`, il_psd.cpp:23-39. -/
def toFloat (n d : Nat) : Nat × Nat :=
  let e := ((List.range 64).find? (fun e => decide (2 ^ 23 * d ≤ n * 2 ^ e))).getD 64
  (nearest (n * 2 ^ e) d, e)

/-- `float_to_ubyte(ubyte_to_float(a) * ubyte_to_float(b))`, and the same for 16 bits, il_psd.cpp:23-39, 684-686, 720-722: `max` is 255 or
65535. -/
def scaled (max a b : Nat) : Nat :=
  let x := toFloat a max
  let y := toFloat b max
  let z := toFloat (x.1 * y.1) (2 ^ (x.2 + y.2))
  let v := toFloat (z.1 * max) (2 ^ z.2)
  v.1 / 2 ^ v.2

/-- What becomes of a component of alpha of `k` bytes, il_psd.cpp:684-686, 720-722, 767-769.  The bytes of the file are not put in order for 16 bits (721). -/
def timesAlpha (k : Nat) (old new : List UInt8) : List UInt8 := leBytes k (scaled (256 ^ k - 1) (le old) (le new))

/-- What becomes of another component, il_psd.cpp:670, 702-704, 743: the bytes of the file in the order of the machine. -/
def copied (_ new : List UInt8) : List UInt8 := new.reverse

/-- Reading `n` bytes of a block, for example il_psd.cpp:720-721. -/
def rdN (d : List UInt8) (off n : Nat) : C (List UInt8) :=
  if off + n ≤ d.length then .ok ((d.drop off).take n) else .error .oobRead

/-- Difference of two `ILuint`s, il_psd.cpp:827, 850. -/
def sub32 (a b : Nat) : Nat := u32 (a + 4294967296 - b)

/-! ### Resources -/

/-- `strncmp("8BIM", Resources, 4)`, il_psd.cpp:807: whether the bytes from `i` on are these. -/
def same (d : List UInt8) : List UInt8 → Nat → C Bool
  | [], _ => pure true
  | c :: cs, i => do
    let b ← rd d i
    if b = c then same d cs (i + 1) else pure false

/-- `Resources` as an offset, `ResourceSize`, and the result once there is one.  il_psd.cpp:795-799. -/
structure Res where
  off : Nat
  size : Nat
  done : Option Bool

/-- One resource, il_psd.cpp:807-851. -/
def resStep (d : List UInt8) (t : Res) : C Res := do
  let is ← same d [56, 66, 73, 77] t.off
  if !is then pure { t with done := some true }
  else do
    let id ← rdN d (t.off + 4) 2
    let n ← rd d (t.off + 6)
    let name := if n.toNat % 2 = 1 then n.toNat else n.toNat + 1
    let p := t.off + 7 + name
    let sz ← rdN d p 4
    let size := be sz
    let left := sub32 t.size (11 + name)
    if be id = 0x040F ∧ size > left then pure { t with done := some false }
    else do
      let _ ← (if be id = 0x040F then rdN d (p + 4) size else pure [])
      let even := if size % 2 = 1 then u32 (size + 1) else size
      pure ⟨p + 4 + even, sub32 left even, none⟩

/-- `ParseResources`, il_psd.cpp:795-855.  The pointer goes up by 12 at least in each round and is read from, so the rounds end. -/
def ParseResources (d : List UInt8) (size : Nat) : C Bool := do
  let r ← whileF (fun t : Res => t.done.isNone && decide (t.size > 13)) (resStep d) (d.length + 1) ⟨0, size, none⟩
  pure (match r.done with | some b => b | none => true)

/-! ### The channels -/

/-- The loops that store a channel, il_psd.cpp:668-672, 682-688, 699-706, 718-724, 741-745, 765-771: `row` is `Bps` in components, `c` the component
that is changed, `g` what becomes of the old and the new bytes.  The second part of the state is `i`.  Simplification: the old bytes are looked at in all loops. -/
def spread (k rows row bpp c : Nat) (g : List UInt8 → List UInt8 → List UInt8) (ch d : List UInt8) : C (List UInt8) := do
  let r ← forStep 0 (u32 (rows * row)) row (fun y t => forStep 0 row bpp (fun x (t : List UInt8 × Nat) => do
    let new ← rdN ch (t.2 * k) k
    let old ← rdN t.1 ((y + x + c) * k) k
    let d ← memcpy t.1 ((y + x + c) * k) (g old new) 0 k
    pure (d, t.2 + 1)) t) (d, 0)
  pure r.1

section
variable {σ : Type} (o : Ops σ) (junk : Nat → UInt8)

/-- The image data, `Channel`, the input, and whether all went well so far.  il_psd.cpp:628-633. -/
structure Chan (σ : Type) where
  data : List UInt8
  ch : List UInt8
  inp : σ
  ok : Bool

/-- A channel that is not compressed, il_psd.cpp:663-672, 677-688, 693-707, 712-725; `n` is `Width * Height` or twice that. -/
def rawChan (k n rows row bpp c : Nat) (g : List UInt8 → List UInt8 → List UInt8) (t : Chan σ) : C (Chan σ) :=
  if !t.ok then pure t
  else do
    let (r, ch, s) ← into o t.inp t.ch n 1
    if r ≠ 1 then pure { t with ch := ch, inp := s, ok := false }
    else do
      let d ← spread k rows row bpp c g ch t.data
      pure ⟨d, ch, s, true⟩

/-- The state of `ReadCompressedChannel`: `i`, `Channel`, the input, and the result (0 as long as there is no error).  il_psd.cpp:565-574. -/
structure Pack (σ : Type) where
  i : Nat
  ch : List UInt8
  inp : σ
  res : Nat

/-- One code, il_psd.cpp:582-619; `checked` is false in `GetSingleChannel` (879-894), where nothing is compared with `Size`.  `igetc` gives -1 at the end of the input. -/
def packStep (checked : Bool) (size : Nat) (t : Pack σ) : C (Pack σ) := do
  let (b, s) ← getb o t.inp
  let n := b.toNat
  if n < 128 then
    if checked ∧ u32 (t.i + n) > size then pure { t with inp := s, res := 1 }
    else do
      let (g, r, s) ← o.read s (n + 1) 1
      let ch ← memcpy t.ch t.i g 0 g.length
      if r ≠ 1 then pure { t with ch := ch, inp := s, res := 2 }
      else pure ⟨t.i + (n + 1), ch, s, 0⟩
  else if 128 < n then do
    let (v, s) ← o.getc s
    match v with
    | none => pure { t with inp := s, res := 2 }
    | some v =>
      if checked ∧ u32 (t.i + (257 - n)) > size then pure { t with inp := s, res := 1 }
      else do
        let ch ← memcpy t.ch t.i (List.replicate (257 - n) v) 0 (257 - n)
        pure ⟨t.i + (257 - n), ch, s, 0⟩
  else pure { t with inp := s }

/-- `ReadCompressedChannel`, il_psd.cpp:569-625, and the loop of `GetSingleChannel`, 878-895. -/
def unpack (checked : Bool) (fuel size : Nat) (ch : List UInt8) (s : σ) : C (Pack σ) :=
  whileF (fun t : Pack σ => decide (t.res = 0) && decide (t.i < size)) (packStep o checked size) fuel ⟨0, ch, s, 0⟩

/-- A compressed channel, il_psd.cpp:734-745, 758-771. -/
def packChan (fuel size rows row bpp c : Nat) (g : List UInt8 → List UInt8 → List UInt8) (t : Chan σ) : C (Chan σ) :=
  if !t.ok then pure t
  else do
    let r ← unpack o true fuel size t.ch t.inp
    if r.res ≠ 0 then pure { t with ch := r.ch, inp := r.inp, ok := false }
    else do
      let d ← spread 1 rows row bpp c g r.ch t.data
      pure ⟨d, r.ch, r.inp, true⟩

/-- `GetCompChanLen`, il_psd.cpp:528-561: if the table is not there, NULL is returned and read from (734).  Of a table whose size does not fit in 32 bits more
is read than there is (554).  The sums are only used for reading ahead. -/
def chanLen (h chans : Nat) (s : σ) : C σ := do
  let n := u32 (h * chans)
  let (r, _, s) ← into o s (alloc junk (n * 2)) 2 n
  if r ≠ n then .error .nullDeref
  else if h * chans ≠ n then .error .oobRead
  else pure s

/-- `NumChan`, il_psd.cpp:637-645. -/
def numChan (mode : Nat) : Nat := if mode = 1 ∨ mode = 2 then 1 else 3

/-- `PsdGetData`, il_psd.cpp:628-792: the result, the data and the input.  `chans` is `Head->Channels`, `all` is `ChannelNum`.  The loop that makes alpha solid
(751-755) is `spread` on the channel just read, which it does not look at. -/
def PsdGetData (fuel w h mode chans all : Nat) (packed : Bool) (m : Img) (s : σ) : C (Bool × List UInt8 × σ) := do
  let n := u32 (w * h * m.bpc)
  let row := m.bps / m.bpc
  let nc := numChan mode
  let start : Chan σ := ⟨m.data, alloc junk n, s, true⟩
  if packed ∧ m.type = IL_UNSIGNED_SHORT then pure (false, m.data, s)
  else if !packed then do
    let r ← loopN nc (fun c t => rawChan o m.bpc n h row m.bpp c copied t) start
    let r ← loopN (chans - nc) (fun _ t => rawChan o m.bpc n h row m.bpp 3 (timesAlpha m.bpc) t) r
    pure (r.ok, r.data, r.inp)
  else do
    let s ← chanLen o junk h all s
    let r ← loopN nc (fun c t => packChan o fuel (u32 (w * h)) h row m.bpp c copied t) { start with inp := s }
    if !r.ok then pure (false, r.data, r.inp)
    else if chans ≥ 4 then do
      let d ← spread 1 h row m.bpp 3 (fun _ _ => [255]) r.ch r.data
      let r ← loopN (chans - nc) (fun _ t => packChan o fuel (u32 (w * h)) h row m.bpp 3 (timesAlpha 1) t) { r with data := d }
      pure (r.ok, r.data, r.inp)
    else pure (true, r.data, r.inp)

/-- `GetSingleChannel`, il_psd.cpp:858-899: the result, the buffer and the input. -/
def GetSingleChannel (fuel w h bpc : Nat) (packed : Bool) (buffer : List UInt8) (s : σ) : C (Bool × List UInt8 × σ) :=
  if !packed then do
    let (r, d, s) ← into o s buffer (u32 (w * h * (if bpc = 1 then 1 else 2))) 1
    pure (decide (r = 1), d, s)
  else do
    let r ← unpack o false fuel (u32 (w * h)) buffer s
    pure (decide (r.res = 0), r.ch, r.inp)

/-! ### Loading -/

/-- A section that is skipped, il_psd.cpp:234-235, 245-246, 368-369, 378-379, 440-441, 451-452. -/
def skipSection (s : σ) : C σ := do
  let (h, s) ← head o junk [u32f] s
  let (_, s) ← o.seek s (Lump.toInt (fbe h 0)) SEEK_CUR
  pure s

/-- A section that is read, il_psd.cpp:237-243, 302-308, 371-376, 443-449; also the palette, 291-300. -/
def readSection (s : σ) : C (Option (List UInt8) × σ) := do
  let (h, s) ← head o junk [u32f] s
  let n := fbe h 0
  let (r, d, s) ← into o s (alloc junk n) 1 n
  if r ≠ n then pure (none, s) else pure (some d, s)

/-- `(ILboolean)Compressed`, il_psd.cpp:248, 271: the lower byte. -/
def compression (s : σ) : C (Bool × σ) := do
  let (h, s) ← head o junk [u16] s
  pure (decide (fbe h 0 % 256 ≠ 0), s)

/-- The type for the depth, il_psd.cpp:256-267, 405-416, 472-483. -/
def typeOf (depth : Nat) : Option Nat :=
  if depth = 8 then some IL_UNSIGNED_BYTE else if depth = 16 then some IL_UNSIGNED_SHORT else none

/-- `ilTexImage(w, h, 1, bpp, format, type, NULL)`, il_devil.cpp:126-165, 19-58; il_psd.cpp:269, 325, 417, 484. -/
def texOf (w h bpp format type : Nat) : Img :=
  let g := geometry w h 1 bpp format type []
  { g with data := alloc junk g.size }

/-- The image of grey and RGB documents, il_psd.cpp:269-281, 417-429, and the origin, 202. -/
def readImage (fuel mode chans all : Nat) (packed : Bool) (res : List UInt8) (m : Img) (w h : Nat) (s : σ) : C (Bool × Loaded × σ) := do
  let (ok, d, s) ← PsdGetData o junk fuel w h mode chans all packed m s
  if !ok then pure (false, ({ m with data := d }, none), s)
  else do
    let ok ← ParseResources res res.length
    if !ok then pure (false, ({ m with data := d }, none), s)
    else pure (true, ({ m with data := d, origin := IL_ORIGIN_UPPER_LEFT }, none), s)

/-- `ReadGrey`, il_psd.cpp:227-282, and `ReadRGB`, 361-430. -/
def readPlain (fuel : Nat) (hd : List (List UInt8)) (cur : Loaded) (s : σ) : C (Bool × Loaded × σ) := do
  let s ← skipSection o junk s
  match ← readSection o junk s with
  | (none, s) => pure (false, cur, s)
  | (some res, s) => do
    let s ← skipSection o junk s
    let (packed, s) ← compression o junk s
    let chans := fbe hd 3
    match typeOf (fbe hd 6) with
    | none => pure (false, cur, s)
    | some type =>
      if fbe hd 7 = 1 then readImage o junk fuel 1 1 chans packed res (texOf junk (fbe hd 5) (fbe hd 4) 1 IL_LUMINANCE type) (fbe hd 5) (fbe hd 4) s
      else if chans < 3 then pure (false, cur, s)
      else do
        let m := if chans = 3 then texOf junk (fbe hd 5) (fbe hd 4) 3 IL_RGB type else texOf junk (fbe hd 5) (fbe hd 4) 4 IL_RGBA type
        readImage o junk fuel 3 chans chans packed res m (fbe hd 5) (fbe hd 4) s

/-- The palette, il_psd.cpp:335-340: from three tables to entries of three bytes. -/
def palette (p : List UInt8) : C (List UInt8) := do
  let r ← forStep 0 p.length 3 (fun i (t : List UInt8 × Nat) => do
    let a ← rd p t.2
    let d ← wr t.1 i a
    let b ← rd p (t.2 + p.length / 3)
    let d ← wr d (i + 1) b
    let c ← rd p (t.2 + p.length / 3 * 2)
    let d ← wr d (i + 2) c
    pure (d, t.2 + 1)) (alloc junk p.length, 0)
  pure r.1

/-- `ReadIndexed`, il_psd.cpp:285-358; the result of `ParseResources` is not looked at. -/
def readIndexed (fuel : Nat) (hd : List (List UInt8)) (cur : Loaded) (s : σ) : C (Bool × Loaded × σ) := do
  let (h, s) ← head o junk [u32f] s
  let n := fbe h 0
  if n % 3 ≠ 0 then pure (false, cur, s)
  else do
    let (r, p, s) ← into o s (alloc junk n) 1 n
    if r ≠ n then pure (false, cur, s)
    else match ← readSection o junk s with
    | (none, s) => pure (false, cur, s)
    | (some res, s) => do
      let (h, s) ← head o junk [u32f] s
      let (e, s) := o.eof s
      if e then pure (false, cur, s)
      else do
        let (_, s) ← o.seek s (Lump.toInt (fbe h 0)) SEEK_CUR
        let (packed, s) ← compression o junk s
        let (e, s) := o.eof s
        if e then pure (false, cur, s)
        else if fbe hd 3 ≠ 1 ∨ fbe hd 6 ≠ 8 then pure (false, cur, s)
        else do
          let m := texOf junk (fbe hd 5) (fbe hd 4) 1 IL_COLOUR_INDEX IL_UNSIGNED_BYTE
          let q ← palette junk p
          let pal : Pal := ⟨q, n, IL_PAL_RGB24⟩
          let (ok, d, s) ← PsdGetData o junk fuel (fbe hd 5) (fbe hd 4) 2 1 1 packed m s
          if !ok then pure (false, ({ m with data := d }, some pal), s)
          else do
            let _ ← ParseResources res res.length
            pure (true, ({ m with data := d, origin := IL_ORIGIN_UPPER_LEFT }, some pal), s)

/-- `(a * b) >> 8` in a byte, il_psd.cpp:498-500, 506-508. -/
def timesK (a b : UInt8) : UInt8 := UInt8.ofNat (a.toNat * b.toNat / 256)

/-- The loop for four channels, il_psd.cpp:497-501. -/
def blacken3 (size : Nat) (key d : List UInt8) : C (List UInt8) := do
  let r ← forStep 0 size 3 (fun i (t : List UInt8 × Nat) => do
    let v ← rd key t.2
    let a ← rd t.1 i
    let d ← wr t.1 i (timesK a v)
    let a ← rd d (i + 1)
    let d ← wr d (i + 1) (timesK a v)
    let a ← rd d (i + 2)
    let d ← wr d (i + 2) (timesK a v)
    pure (d, t.2 + 1)) (d, 0)
  pure r.1

/-- The loop for five channels, il_psd.cpp:505-510. -/
def blacken4 (size : Nat) (key d : List UInt8) : C (List UInt8) := do
  let r ← forStep 0 size 4 (fun i (t : List UInt8 × Nat) => do
    let v ← rd t.1 (i + 3)
    let a ← rd t.1 i
    let d ← wr t.1 i (timesK a v)
    let a ← rd d (i + 1)
    let d ← wr d (i + 1) (timesK a v)
    let a ← rd d (i + 2)
    let d ← wr d (i + 2) (timesK a v)
    let b ← rd key t.2
    let d ← wr d (i + 3) b
    pure (d, t.2 + 1)) (d, 0)
  pure r.1

/-- `ReadCMYK`, il_psd.cpp:433-525. -/
def readCMYK (fuel : Nat) (hd : List (List UInt8)) (cur : Loaded) (s : σ) : C (Bool × Loaded × σ) := do
  let s ← skipSection o junk s
  match ← readSection o junk s with
  | (none, s) => pure (false, cur, s)
  | (some res, s) => do
    let s ← skipSection o junk s
    let (packed, s) ← compression o junk s
    let chans := fbe hd 3
    if chans ≠ 4 ∧ chans ≠ 5 then pure (false, cur, s)
    else match typeOf (fbe hd 6) with
    | none => pure (false, cur, s)
    | some type => do
      let w := fbe hd 5
      let h := fbe hd 4
      let m := texOf junk w h (chans - 1) (if chans = 4 then IL_RGB else IL_RGBA) type
      let (ok, d, s) ← PsdGetData o junk fuel w h 4 (chans - 1) chans packed m s
      if !ok then pure (false, ({ m with data := d }, none), s)
      else do
        let (ok, key, s) ← GetSingleChannel o fuel w h m.bpc packed (alloc junk (u32 (m.bpc * m.width * m.height))) s
        if !ok then pure (false, ({ m with data := d }, none), s)
        else do
          let d ← (if chans = 4 then blacken3 m.size key d else blacken4 m.size key d)
          let ok ← ParseResources res res.length
          if !ok then pure (false, ({ m with data := d }, none), s)
          else pure (true, ({ m with data := d, origin := IL_ORIGIN_UPPER_LEFT }, none), s)

/-- `iLoadPsdInternal`, `iGetPsdHead` and `ReadPsd`, il_psd.cpp:91-103, 185-224. -/
def iLoadPsdInternal (fuel : Nat) (cur : Loaded) (s : σ) : C (Bool × Loaded × σ) := do
  let (hd, s) ← head o junk [arr 4, u16, arr 6, u16, u32f, u32f, u16, u16] s
  if !iCheckPsd hd then pure (false, cur, s)
  else if fbe hd 7 = 1 ∨ fbe hd 7 = 3 then readPlain o junk fuel hd cur s
  else if fbe hd 7 = 2 then readIndexed o junk fuel hd cur s
  else if fbe hd 7 = 4 then readCMYK o junk fuel hd cur s
  else pure (false, cur, s)

end

/-! ### Saving -/

/-- The type and format asked for, il_psd.cpp:971-972, 983-989. -/
def wanted (m : Img) : Nat × Nat :=
  (if m.format = IL_BGR then IL_RGB else if m.format = IL_BGRA then IL_RGBA else m.format,
   if m.bpc > 2 then IL_UNSIGNED_SHORT else m.type)

/-- The mode, il_psd.cpp:1002-1017; `none` is refused. -/
def modeOf (format : Nat) : Option Nat :=
  if format = IL_COLOUR_INDEX then some 2 else if format = IL_LUMINANCE then some 1
  else if format = IL_RGB ∨ format = IL_RGBA then some 3 else none

/-- The planes of an image of 16 bits, il_psd.cpp:1065-1072. -/
def planeShorts (bpp n : Nat) (data : List UInt8) : C (List WOp) :=
  loopN bpp (fun c o => forStep c n bpp (fun i o => do
    let v ← rdN data (i * 2) 2
    pure (o ++ [Sgi.short false (le v)])) o) []

/-- `TempData`, il_psd.cpp:1046-1055. -/
def topDown (junk : Nat → UInt8) (t : Img) : C (List UInt8) :=
  if t.origin = IL_ORIGIN_LOWER_LEFT then Manip.iGetFlipped junk t else pure t.data

/-- The palette in planes, il_psd.cpp:1028-1032. -/
def palPlanes (p : Pal) : C (List UInt8) :=
  loopN 3 (fun c o => forStep c p.size 3 (fun i o => do
    let b ← rd p.data i
    pure (o ++ [b])) o) []

/-- The colour mode data, il_psd.cpp:1019-1038: the length, always 768 for a palette, and the palette in planes. -/
def colourTable (mode : Nat) (pal : Option Pal) : C (Bool × List WOp) :=
  if mode = 2 then
    match pal with
    | none => pure (false, [])
    | some p => do
      let b ← palPlanes p
      pure (true, Sgi.int false 768 :: b.map .putc)
  else pure (true, [Sgi.int false 0])

/-- `iSavePsdInternal`, il_psd.cpp:956-1083: the result and the calls that write.  `conv` is what `iConvertImage` makes of the image in the cases where it is
called, `pal` what `iConvertPal` makes of its palette (`none`: they fail). -/
def iSavePsdInternal (junk : Nat → UInt8) (cur : Img) (conv : Option Img) (pal : Option Pal) : C (Bool × List WOp) := do
  let a := [WOp.write [56, 66, 80, 83] 1 4, Sgi.short false 1, Sgi.int false 0, Sgi.short false 0, Sgi.short false cur.bpp,
    Sgi.int false cur.height, Sgi.int false cur.width]
  match (if wanted cur = (cur.format, cur.type) then some cur else conv) with
  | none => pure (false, a)
  | some t =>
    let a := a ++ [Sgi.short false (t.bpc * 8)]
    match modeOf t.format with
    | none => pure (false, a)
    | some mode => do
      let a := a ++ [Sgi.short false mode]
      let (ok, cm) ← colourTable mode pal
      if !ok then pure (false, a)
      else do
        let a := a ++ cm ++ [Sgi.int false 0, Sgi.int false 0, Sgi.short false 0]
        let d ← topDown junk t
        if t.bpc = 1 then do
          let b ← Sgi.planeBytes t.bpp t.plane d
          pure (true, a ++ b.map .putc)
        else do
          let b ← planeShorts t.bpp (t.plane / 2) d
          pure (true, a ++ b)

end DevIL.Psd
