import Verif.Buf
import Verif.Model.Cache
import Verif.Model.Utility
import Verif.Spec.Detect
/-! Model of recognising a file by its contents: `ilDetermineTypeF`, `ilDetermineTypeL` (il_io.cpp:188-496) and the functions
`ilIsValid…F`, `ilIsValid…L` and `iIsValid…` of the formats.  Errors raised on the way are left out. -/
set_option autoImplicit false
namespace DevIL.Detect

open DevIL.Lump (SEEK_SET SEEK_CUR SEEK_END)
open DevIL.DetectSpec (le be lower Dec)

/-- The input functions `igetc`, `iread`, `iseek`, `itell`, `ieof`: pointers set by `iSetInputFile` or `iSetInputLump`,
il_files.cpp:288-328.  `read` delivers the bytes stored into the buffer and the return value; `seek` whether it succeeded. -/
structure Ops (σ : Type) where
  getc : σ → C (Option UInt8 × σ)
  read : σ → Nat → Nat → C (List UInt8 × Nat × σ)
  seek : σ → Int → Nat → C (Bool × σ)
  tell : σ → Nat
  eof : σ → Bool × σ

/-- The input functions for files, il_files.cpp:434-513, 604-612, 646-649; no caching is in progress. -/
def fileOps : Ops Cache.S where
  getc s := pure (Cache.fgetc s)
  read s size number := pure (Cache.fread s size number)
  seek s off mode := pure (Cache.iSeekRFile s off mode)
  tell := Cache.iTellRFile
  eof := Cache.iEofFile

/-- The input functions for lumps, il_files.cpp:425-459, 516-538, 613-643, 652-655. -/
def lumpOps : Ops Lump.R where
  getc := Lump.getc
  read l size number := do let (g, l) ← Lump.read l size number; pure (g.bytes, g.ret, l)
  seek := Lump.seek
  tell := Lump.tell
  eof l := (Lump.eof l, l)

/-- One step of reading a header: `iread(&field, size, number)`, `field = igetc()`, or `iseek(n, IL_SEEK_CUR)`.  `GetLittleUInt`
and its like read with one `iread`, il_endian.cpp:87-191. -/
inductive Fld where
  | rd (size number : Nat)
  | getc
  | skip (n : Nat)

/-- A 16-bit number, il_endian.cpp:87-103, 141-157. -/
abbrev u16 : Fld := .rd 2 1
/-- A 32-bit number, il_endian.cpp:105-139, 159-184. -/
abbrev u32f : Fld := .rd 4 1
/-- An array of bytes read by `iread(p, 1, n)`, il_files.cpp:462-538. -/
abbrev arr (n : Nat) : Fld := .rd 1 n

/-- Reading a header, field by field: the bytes of the fields in memory.  Where the input ends, a field keeps what was there
before (`junk`); `igetc` gives 255.  il_endian.cpp:87-191, il_files.cpp:434-538. -/
def head {σ : Type} (o : Ops σ) (junk : Nat → UInt8) : List Fld → σ → C (List (List UInt8) × σ)
  | [], s => pure ([], s)
  | .rd size number :: fs, s => do
    let (got, _, s) ← o.read s size number
    let (h, s) ← head o junk fs s
    pure ((got ++ (alloc junk (size * number)).drop got.length) :: h, s)
  | .getc :: fs, s => do
    let (b, s) ← o.getc s
    let (h, s) ← head o junk fs s
    pure ([match b with | some b => b | none => 255] :: h, s)
  | .skip n :: fs, s => do
    let (_, s) ← o.seek s n SEEK_CUR
    let (h, s) ← head o junk fs s
    pure ([] :: h, s)

/-- The bytes of a field.  Not in the code (the fields have names there). -/
def fld (h : List (List UInt8)) (i : Nat) : List UInt8 := h.getD i []
/-- A field read by a `GetLittle…` function or `igetc`.  il_endian.cpp:87-139. -/
def fle (h : List (List UInt8)) (i : Nat) : Nat := le (fld h i)
/-- A field read by a `GetBig…` function.  il_endian.cpp:141-184. -/
def fbe (h : List (List UInt8)) (i : Nat) : Nat := be (fld h i)

/-- The usual shape of `iIsValid…`: get the header, seek back, check the header.  il_dds.cpp:153-164. -/
def headed {σ : Type} (o : Ops σ) (junk : Nat → UInt8) (fs : List Fld) (back : Nat) (check : List (List UInt8) → C Bool) (s : σ) :
    C (Bool × σ) := do
  let (h, s) ← head o junk fs s
  let (_, s) ← o.seek s (-(back : Int)) SEEK_CUR
  let b ← check h
  pure (b, s)

section
variable {σ : Type} (o : Ops σ) (junk : Nat → UInt8)

/-- `iIsValidJpeg`, `iGetJpgHead`, `iCheckJpg`, il_jpeg.cpp:70-98. -/
def iIsValidJpeg : σ → C (Bool × σ) :=
  headed o junk [.getc, .getc] 2 (fun h => pure (!(fld h 0 != [0xFF] || fld h 1 != [0xD8])))

/-- `iCheckDds`, il_dds.cpp:168-181. -/
def iCheckDds (h : List (List UInt8)) : Bool :=
  if fld h 0 != [0x44, 0x44, 0x53, 0x20] then false
  else if fle h 1 != 124 && fle h 1 != 0x20534444 then false
  else if fle h 10 != 32 then false
  else if fle h 4 == 0 || fle h 3 == 0 then false
  else true

/-- `iIsValidDds` and `iGetDdsHead`, il_dds.cpp:101-136, 153-164.  The ten unused words are one field here. -/
def iIsValidDds : σ → C (Bool × σ) :=
  headed o junk [arr 4, u32f, u32f, u32f, u32f, u32f, u32f, u32f, u32f, .rd 40 1, u32f, u32f, u32f, u32f, u32f, u32f, u32f, u32f,
    u32f, u32f, u32f, u32f, u32f] 128 (fun h => pure (iCheckDds h))

/-- `iIsValidPng`, il_png.cpp:95-104; `png_sig_cmp` compares eight bytes. -/
def iIsValidPng (s : σ) : C (Bool × σ) := do
  let (got, n, s) ← o.read s 1 8
  let (_, s) ← o.seek s (-(n : Int)) SEEK_CUR
  let sig := got ++ (alloc junk 8).drop got.length
  pure (sig == [0x89, 0x50, 0x4E, 0x47, 0x0D, 0x0A, 0x1A, 0x0A], s)

/-- `iCheckBmp`, il_bmp.cpp:135-154. -/
def iCheckBmp (h : List (List UInt8)) : Bool :=
  if fle h 0 != 0x4D42 || fle h 4 != 0x28 then false
  else if fle h 6 == 0 || decide (Lump.toInt (fle h 5) < 1) then false
  else if decide ((if fle h 7 < 32768 then (fle h 7 : Int) else fle h 7 - 65536) > 1) then false
  else if fle h 9 != 0 && fle h 9 != 1 && fle h 9 != 2 && fle h 9 != 3 then false
  else if fle h 9 == 3 && fle h 8 != 16 && fle h 8 != 32 then false
  else if fle h 8 != 1 && fle h 8 != 4 && fle h 8 != 8 && fle h 8 != 16 && fle h 8 != 24 && fle h 8 != 32 then false
  else true

/-- `iCheckOS2` on the bytes of the header, il_bmp.cpp:157-170. -/
def iCheckOS2 (b : List UInt8) : Bool :=
  let n (off k : Nat) : Nat := le ((b.drop off).take k)
  if n 0 2 != 0x4D42 || decide (n 10 4 < 26) || decide (n 14 4 < 12) then false
  else if n 22 2 != 1 then false
  else if n 18 2 == 0 || n 20 2 == 0 then false
  else if n 24 2 != 1 && n 24 2 != 4 && n 24 2 != 8 && n 24 2 != 24 then false
  else true

/-- `iIsValidBmp`, with `iGetBmpHead` and `iGetOS2Head`, il_bmp.cpp:69-131. -/
def iIsValidBmp (s : σ) : C (Bool × σ) := do
  let (h, s) ← head o junk [u16, u32f, u32f, u32f, u32f, u32f, u32f, u16, u16, u32f, u32f, u32f, u32f, u32f, u32f] s
  let (_, s) ← o.seek s (-54) SEEK_CUR
  if iCheckBmp h then pure (true, s)
  else do
    let (got, n, s) ← o.read s 26 1
    let b := got ++ (alloc junk 26).drop got.length
    let (_, s) ← (if n ≠ 1 then pure (false, s) else o.seek s (Lump.toInt (le ((b.drop 14).take 4)) - 12) SEEK_CUR)
    let (_, s) ← o.seek s (-54) SEEK_CUR
    pure (iCheckOS2 b, s)

/-- `iCheckBlp2`, il_blp.cpp:155-178. -/
def iCheckBlp2 (h : List (List UInt8)) : Bool :=
  if fld h 0 != [0x42, 0x4C, 0x50, 0x32] then false
  else if fle h 1 != 0 && fle h 1 != 1 then false
  else if fle h 2 != 1 && fle h 2 != 2 then false
  else if fle h 3 != 0 && fle h 3 != 1 && fle h 3 != 8 then false
  else if fle h 4 != 0 && fle h 4 != 1 && fle h 4 != 7 && fle h 4 != 8 then false
  else if fle h 6 == 0 || fle h 7 == 0 then false
  else true

/-- `iIsValidBlp2` and `iGetBlp2Head`, il_blp.cpp:120-151. -/
def iIsValidBlp2 : σ → C (Bool × σ) :=
  headed o junk ([arr 4, u32f, .getc, .getc, .getc, .getc, u32f, u32f] ++ List.replicate 32 u32f) 148 (fun h => pure (iCheckBlp2 h))

/-- `iIsValidExr`, `iGetExrHead`, `iCheckExr`, il_exr.cpp:93-128. -/
def iIsValidExr : σ → C (Bool × σ) :=
  headed o junk [u32f, u32f] 8 (fun h => pure (!(fle h 0 != 0x01312F76) && !(fle h 1 != 0x002 && fle h 1 != 0x202)))

/-- `strnicmp(b, t, n)` is 0, for a text `t` of `n` small letters and other characters.  il_gif.cpp:82. -/
def same (b t : List UInt8) : Bool := (b.take t.length).map lower == t

/-- `iIsValidGif`, il_gif.cpp:74-88. -/
def iIsValidGif (s : σ) : C (Bool × σ) := do
  let (got, n, s) ← o.read s 1 6
  if n ≠ 6 then pure (false, s)
  else do
    let (_, s) ← o.seek s (-6) SEEK_CUR
    if same got [0x67, 0x69, 0x66, 0x38, 0x37, 0x61] then pure (true, s)
    else if same got [0x67, 0x69, 0x66, 0x38, 0x39, 0x61] then pure (true, s)
    else pure (false, s)

/-- `iIsValidHdr`, il_hdr.cpp:127-140. -/
def iIsValidHdr (s : σ) : C (Bool × σ) := do
  let (got, n, s) ← o.read s 1 10
  let (_, s) ← o.seek s (-(n : Int)) SEEK_CUR
  if n ≠ 10 then pure (false, s)
  else pure (same got [0x23, 0x3F, 0x72, 0x61, 0x64, 0x69, 0x61, 0x6E, 0x63, 0x65] || same got [0x23, 0x3F, 0x72, 0x67, 0x62, 0x65], s)

/-- `iIsValidIcns`, il_icns.cpp:85-96. -/
def iIsValidIcns : σ → C (Bool × σ) :=
  headed o junk [arr 4] 4 (fun h => pure (if fld h 0 != [0x69, 0x63, 0x6E, 0x73] then false else true))

/-- `iIsValidIlbm` and `isLBM`, il_ilbm.cpp:87-90, 221-241. -/
def iIsValidIlbm (s : σ) : C (Bool × σ) := do
  let start := o.tell s
  let (got, n, s) ← o.read s 12 1
  let b := if n ≠ 0 then got.take 4 == [0x46, 0x4F, 0x52, 0x4D]
    && (got.drop 8 == [0x50, 0x42, 0x4D, 0x20] || got.drop 8 == [0x49, 0x4C, 0x42, 0x4D]) else false
  let (_, s) ← o.seek s (Lump.toInt start) SEEK_SET
  pure (b, s)

/-- `iCheckIwi`, il_iwi.cpp:122-138. -/
def iCheckIwi (h : List (List UInt8)) : C Bool :=
  if fle h 0 != 0x06695749 && fle h 0 != 0x05695749 then pure false
  else if fle h 3 == 0 || fle h 4 == 0 then pure false
  else do
    let pw ← Utility.ilNextPower2 40 (fle h 3)
    let ph ← Utility.ilNextPower2 40 (fle h 4)
    if (fle h 1 == 0x0B || fle h 1 == 0x0C || fle h 1 == 0x0D) && (fle h 3 != pw || fle h 4 != ph) then pure false
    else if fle h 1 != 0x03 && fle h 1 != 0x02 && fle h 1 != 0x01 && fle h 1 != 0x04 && fle h 1 != 0x0B && fle h 1 != 0x0C
      && fle h 1 != 0x0D then pure false
    else pure true

/-- `iIsValidIwi` and `iGetIwiHead`, il_iwi.cpp:91-118.  (The seek "back" adds the position once more.) -/
def iIsValidIwi (s : σ) : C (Bool × σ) := do
  let pos := o.tell s
  let (h, s) ← head o junk [u32f, .getc, .getc, u16, u16, .skip 18] s
  let (_, s) ← o.seek s (Lump.toInt pos) SEEK_CUR
  let b ← iCheckIwi h
  pure (b, s)

/-- `iIsValidJp2`, il_jp2.cpp:83-102. -/
def iIsValidJp2 (s : σ) : C (Bool × σ) := do
  let (_, s) ← o.seek s 4 SEEK_CUR
  let (got, n, s) ← o.read s 1 4
  if n ≠ 4 then do
    let (_, s) ← o.seek s (-4) SEEK_CUR
    pure (false, s)
  else do
    let (_, s) ← o.seek s (-8) SEEK_CUR
    if got != [0x6A, 0x50, 0x20, 0x20] then pure (false, s) else pure (true, s)

/-- `iIsValidKtx`, il_ktx.cpp:130-139. -/
def iIsValidKtx (s : σ) : C (Bool × σ) := pure (false, s)

/-- `iCheckLif`, il_lif.cpp:109-116. -/
def iCheckLif (h : List (List UInt8)) : Bool :=
  if fle h 1 != 260 || fle h 2 != 50 then false
  else if !same (fld h 0) [0x77, 0x69, 0x6C, 0x6C, 0x79, 0x20, 0x37, 0x00] then false
  else true

/-- `iIsValidLif` and `iGetLifHead`, il_lif.cpp:67-105. -/
def iIsValidLif : σ → C (Bool × σ) :=
  headed o junk [arr 8, u32f, u32f, u32f, u32f, u32f, u32f, u32f, u32f, u32f] 44 (fun h => pure (iCheckLif h))

/-- `iIsValidMdl`, il_mdl.cpp:70-82. -/
def iIsValidMdl : σ → C (Bool × σ) :=
  headed o junk [u32f, u32f] 8 (fun h => pure (if fle h 0 != 0x54534449 || fle h 1 != 10 then false else true))

/-- `iIsValidMp3`, `iGetMp3Head`, `iCheckMp3`, il_mp3.cpp:97-134. -/
def iIsValidMp3 (s : σ) : C (Bool × σ) := do
  let pos := o.tell s
  let (got, n, s) ← o.read s 3 1
  if n ≠ 1 then pure (false, s)
  else do
    let (h, s) ← head o junk [.getc, .getc, .getc, u32f] s
    let (_, s) ← o.seek s (Lump.toInt pos) SEEK_CUR
    if got != [0x49, 0x44, 0x33] then pure (false, s)
    else if fle h 0 != 3 && fle h 1 != 4 then pure (false, s)
    else pure (true, s)

/-- `iCheckPcx`, il_pcx.cpp:107-140. -/
def iCheckPcx (h : List (List UInt8)) : Bool :=
  if fle h 0 != 10 || fle h 2 != 1 then false
  else if fle h 1 != 5 && fle h 1 != 0 && fle h 1 != 2 && fle h 9 != 3 && fle h 9 != 4 then false
  else
    let test := Lump.ofInt ((fle h 6 : Int) - fle h 4 + 1)
    if fle h 3 ≥ 8 then
      if test % 2 = 1 then
        if fle h 13 != u32 (test + 1) then false else true
      else if fle h 13 != test then false else true
    else true

/-- `iIsValidPcx` and `iGetPcxHead`, il_pcx.cpp:67-102. -/
def iIsValidPcx : σ → C (Bool × σ) :=
  headed o junk [.getc, .getc, .getc, .getc, u16, u16, u16, u16, u16, u16, arr 48, .getc, .getc, u16, u16, u16, u16, arr 54] 128
    (fun h => pure (iCheckPcx h))

/-- `iCheckPic`, il_pic.cpp:99-111. -/
def iCheckPic (h : List (List UInt8)) : Bool :=
  if fbe h 0 != 0x5380F634 then false
  else if fld h 3 != [0x50, 0x49, 0x43, 0x54] then false
  else if fbe h 4 == 0 then false
  else if fbe h 5 == 0 then false
  else true

/-- `iIsValidPic` and `iGetPicHead`, il_pic.cpp:69-95. -/
def iIsValidPic : σ → C (Bool × σ) :=
  headed o junk [u32f, u32f, arr 80, arr 4, u16, u16, u32f, u16, u16] 104 (fun h => pure (iCheckPic h))

/-- `iIsValidPnm` and `iCheckPnm`, il_pnm.cpp:90-122. -/
def iIsValidPnm (s : σ) : C (Bool × σ) := do
  let (got, n, s) ← o.read s 1 2
  let (_, s) ← o.seek s (-(n : Int)) SEEK_CUR
  if n ≠ 2 then pure (false, s)
  else if got.take 1 != [0x50] then pure (false, s)
  else pure ([[0x31], [0x32], [0x33], [0x34], [0x35], [0x36], [0x37]].contains (got.drop 1), s)

/-- `iCheckPsd`, il_psd.cpp:119-139. -/
def iCheckPsd (h : List (List UInt8)) : Bool :=
  if fld h 0 != [0x38, 0x42, 0x50, 0x53] then false
  else if fbe h 1 != 1 then false
  else if (fld h 2).any (fun b => b != 0) then false
  else if decide (fbe h 3 < 1) || decide (fbe h 3 > 24) then false
  else if decide (fbe h 4 < 1) || decide (fbe h 5 < 1) then false
  else if fbe h 6 != 1 && fbe h 6 != 8 && fbe h 6 != 16 then false
  else true

/-- `iIsValidPsd` and `iGetPsdHead`, il_psd.cpp:91-115. -/
def iIsValidPsd : σ → C (Bool × σ) :=
  headed o junk [arr 4, u16, arr 6, u16, u32f, u32f, u16, u16] 26 (fun h => pure (iCheckPsd h))

/-- `iIsValidPsp`, `iGetPspHead`, `iCheckPsp`, il_psp.cpp:87-121. -/
def iIsValidPsp (s : σ) : C (Bool × σ) := do
  let (got, n, s) ← o.read s 1 32
  if n ≠ 32 then pure (false, s)
  else do
    let (h, s) ← head o junk [u16, u16] s
    let (_, s) ← o.seek s (-36) SEEK_CUR
    if !same got [0x70, 0x61, 0x69, 0x6E, 0x74, 0x20, 0x73, 0x68, 0x6F, 0x70, 0x20, 0x70, 0x72, 0x6F, 0x20, 0x69, 0x6D, 0x61, 0x67,
      0x65, 0x20, 0x66, 0x69, 0x6C, 0x65, 0x0A, 0x1A, 0x00] then pure (false, s)
    else if decide (fle h 0 < 3) || decide (fle h 0 > 5) then pure (false, s)
    else if fle h 1 != 0 then pure (false, s)
    else pure (true, s)

/-- `iCheckSgi`, il_sgi.cpp:112-124. -/
def iCheckSgi (h : List (List UInt8)) : Bool :=
  if fbe h 0 != 474 then false
  else if fle h 1 != 1 && fle h 1 != 0 then false
  else if fle h 2 == 0 || fbe h 3 == 0 then false
  else if fbe h 4 == 0 || fbe h 5 == 0 || fbe h 6 == 0 then false
  else true

/-- `iIsValidSgi` and `iGetSgiHead`, il_sgi.cpp:76-107. -/
def iIsValidSgi : σ → C (Bool × σ) :=
  headed o junk [u16, .getc, .getc, u16, u16, u16, u16, u32f, u32f, u32f, arr 80, u32f, arr 404] 512 (fun h => pure (iCheckSgi h))

/-- `iIsValidScitex`, `iGetScitexHead`, `iCheckScitex`, il_scitex.cpp:40-87, 138-167.  What `atof` and `atoi` say is `dec`.
(`iseek` on a lump returns 1, not -1, when it fails.) -/
def iIsValidScitex (dec : Dec) (s : σ) : C (Bool × σ) := do
  let (_, n, s) ← o.read s 1 80
  if n ≠ 80 then pure (false, s)
  else do
    let (sig, n, s) ← o.read s 1 2
    if n ≠ 2 then pure (false, s)
    else do
      let (h, s) ← head o junk [.skip 942, .getc, .getc, u16] s
      let (hu, n, s) ← o.read s 1 14
      if n ≠ 14 then pure (false, s)
      else do
        let (wu, n, s) ← o.read s 1 14
        if n ≠ 14 then pure (false, s)
        else do
          let (hp, n, s) ← o.read s 1 12
          if n ≠ 12 then pure (false, s)
          else do
            let (wp, n, s) ← o.read s 1 12
            if n ≠ 12 then pure (false, s)
            else if fbe h 3 == 7 && fle h 2 != 3 then pure (false, s)
            else if fbe h 3 == 8 && fle h 2 != 1 then pure (false, s)
            else do
              let (_, s) ← o.seek s (-2048) SEEK_CUR
              if sig != [0x43, 0x54] then pure (false, s)
              else if fle h 1 != 0 && fle h 1 != 1 then pure (false, s)
              else if fbe h 3 != 7 && fbe h 3 != 8 then pure (false, s)
              else if !dec.pos hu || !dec.pos wu then pure (false, s)
              else if !dec.int hp || !dec.trunc wp then pure (false, s)
              else pure (true, s)

/-- `iCheckSun`, il_sun.cpp:117-138. -/
def iCheckSun (h : List (List UInt8)) : Bool :=
  if fbe h 0 != 0x59A66A95 then false
  else if fbe h 1 == 0 || fbe h 2 == 0 then false
  else if fbe h 3 != 1 && fbe h 3 != 8 && fbe h 3 != 24 && fbe h 3 != 32 then false
  else if decide (fbe h 5 > 3) then false
  else if decide (fbe h 6 > 1) then false
  else if decide (fbe h 6 > 0) && fbe h 7 == 0 then false
  else if (fbe h 3 == 1 || fbe h 3 == 32) && fbe h 5 == 2 then false
  else true

/-- `iIsValidSun` and `iGetSunHead`, il_sun.cpp:101-113, 142-151. -/
def iIsValidSun : σ → C (Bool × σ) :=
  headed o junk [u32f, u32f, u32f, u32f, u32f, u32f, u32f, u32f] 32 (fun h => pure (iCheckSun h))

/-- `ilisValidTiffFunc`, il_tiff.cpp:83-101. -/
def ilisValidTiffFunc (s : σ) : C (Bool × σ) := do
  let (h, s) ← head o junk [u16] s
  if fle h 0 != 0x4949 && fle h 0 != 0x4D4D then pure (false, s)
  else do
    let (g, s) ← head o junk [u16] s
    let header2 := if fle h 0 == 0x4949 then fle g 0 else fbe g 0
    if header2 != 42 then pure (false, s) else pure (true, s)

/-- `iCheckTpl`, il_tpl.cpp:129-142. -/
def iCheckTpl (h : List (List UInt8)) : Bool :=
  if fbe h 0 != 0x0020AF30 then false
  else if fbe h 2 != 0x0C then false
  else if fbe h 1 == 0 then false
  else true

/-- `iIsValidTpl` and `iGetTplHead`, il_tpl.cpp:106-125. -/
def iIsValidTpl : σ → C (Bool × σ) := headed o junk [u32f, u32f, u32f] 12 (fun h => pure (iCheckTpl h))

/-- `iCheckVtf`, il_vtf.cpp:128-172. -/
def iCheckVtf (h : List (List UInt8)) : C Bool :=
  if fld h 0 != [0x56, 0x54, 0x46, 0x00] then pure false
  else if fle h 1 != 7 then pure false
  else if decide (fle h 2 > 4) then pure false
  else if fle h 3 != 80 && fle h 3 != 96 && fle h 3 != 104 && fle h 3 != 64 then pure false
  else if fle h 4 == 0 || fle h 5 == 0 then pure false
  else do
    let pw ← Utility.ilNextPower2 40 (fle h 4)
    let ph ← Utility.ilNextPower2 40 (fle h 5)
    if pw != fle h 4 || ph != fle h 5 then pure false
    else do
      let lw ← Utility.ilNextPower2 40 (fle h 18)
      let lh ← Utility.ilNextPower2 40 (fle h 19)
      if (fle h 18 != 0 && fle h 19 != 0) && (lw != fle h 18 || lh != fle h 19) then pure false
      else if decide (fle h 18 > 16) || decide (fle h 19 > 16) then pure false
      else if decide (fle h 18 > fle h 4) || decide (fle h 19 > fle h 5) then pure false
      else if fle h 17 != 13 && fle h 17 != 0xFFFFFFFF then pure false
      else pure true

/-- `iIsValidVtf` and `iGetVtfHead`, il_vtf.cpp:74-121. -/
def iIsValidVtf (s : σ) : C (Bool × σ) := do
  let (h, s) ← head o junk [arr 4, u32f, u32f, u32f, u16, u16, u32f, u16, u16, .skip 4, u32f, u32f, u32f, .skip 4, u32f, u32f, .getc,
    u32f, .getc, .getc] s
  let (_, s) ← (if fle h 3 == 64 then do
      let (_, s) ← head o junk [.getc] s
      pure (true, s)
    else do
      let (_, s) ← head o junk [u16] s
      o.seek s (Lump.toInt (Lump.ofInt ((fle h 3 : Int) - 65))) SEEK_CUR)
  let (_, s) ← o.seek s (-65) SEEK_CUR
  let b ← iCheckVtf h
  pure (b, s)

/-- The loop of `XpmGetsInternal` for a buffer of ten bytes, il_xpm.cpp:238-256: the characters stored. -/
def xpmLoop : Nat → List UInt8 → σ → C (List UInt8 × σ)
  | 0, acc, s => do
    let (_, s) ← o.getc s
    pure (acc, s)
  | n + 1, acc, s => do
    let (b, s) ← o.getc s
    match b with
    | none => pure (acc, s)
    | some c =>
      if c = 10 then pure (acc, s)
      else if c = 13 then do
        let (b, s) ← o.getc s
        match b with
        | none => pure (acc, s)
        | some c => if c = 10 then pure (acc, s) else xpmLoop n (acc ++ [c]) s
      else xpmLoop n (acc ++ [c]) s

/-- `iIsValidXpm` and `XpmGetsInternal`, il_xpm.cpp:76-87, 231-261. -/
def iIsValidXpm (s : σ) : C (Bool × σ) := do
  let pos := o.tell s
  let (e, s) := o.eof s
  let (buf, s) ← (if e then pure (alloc junk 10, s) else do
    let (t, s) ← xpmLoop o 9 [] s
    pure (t ++ [0] ++ (alloc junk 10).drop (t.length + 1), s))
  let (_, s) ← o.seek s (Lump.toInt pos) SEEK_SET
  pure (buf.take 9 == [0x2F, 0x2A, 0x20, 0x58, 0x50, 0x4D, 0x20, 0x2A, 0x2F], s)

/-- `iCheckTarga`, il_targa.cpp:111-136. -/
def iCheckTarga (h : List (List UInt8)) : Bool :=
  if fle h 8 == 0 || fle h 9 == 0 then false
  else if fle h 10 != 8 && fle h 10 != 15 && fle h 10 != 16 && fle h 10 != 24 && fle h 10 != 32 then false
  else if fle h 11 / 16 % 2 != 0 then false
  else if fle h 2 != 0 && fle h 2 != 1 && fle h 2 != 2 && fle h 2 != 3 && fle h 2 != 9 && fle h 2 != 10 && fle h 2 != 11 then false
  else true

/-- `iIsValidTarga` and `iGetTgaHead`, il_targa.cpp:77-107. -/
def iIsValidTarga : σ → C (Bool × σ) :=
  headed o junk [.getc, .getc, .getc, u16, u16, .getc, u16, u16, u16, u16, .getc, .getc] 18 (fun h => pure (iCheckTarga h))

end

/-- The functions `iIsValid…` by type.  il_io.cpp:214-346. -/
def validator {σ : Type} (o : Ops σ) (junk : Nat → UInt8) (dec : Dec) (t : Nat) : σ → C (Bool × σ) :=
  if t = IL_JPG then iIsValidJpeg o junk
  else if t = IL_DDS then iIsValidDds o junk
  else if t = IL_PNG then iIsValidPng o junk
  else if t = IL_BMP then iIsValidBmp o junk
  else if t = IL_BLP then iIsValidBlp2 o junk
  else if t = IL_EXR then iIsValidExr o junk
  else if t = IL_GIF then iIsValidGif o
  else if t = IL_HDR then iIsValidHdr o
  else if t = IL_ICNS then iIsValidIcns o junk
  else if t = IL_ILBM then iIsValidIlbm o
  else if t = IL_IWI then iIsValidIwi o junk
  else if t = IL_JP2 then iIsValidJp2 o
  else if t = IL_KTX then iIsValidKtx
  else if t = IL_LIF then iIsValidLif o junk
  else if t = IL_MDL then iIsValidMdl o junk
  else if t = IL_MP3 then iIsValidMp3 o junk
  else if t = IL_PCX then iIsValidPcx o junk
  else if t = IL_PIC then iIsValidPic o junk
  else if t = IL_PNM then iIsValidPnm o
  else if t = IL_PSD then iIsValidPsd o junk
  else if t = IL_PSP then iIsValidPsp o junk
  else if t = IL_SGI then iIsValidSgi o junk
  else if t = IL_SCITEX then iIsValidScitex o junk dec
  else if t = IL_SUN then iIsValidSun o junk
  else if t = IL_TIF then ilisValidTiffFunc o junk
  else if t = IL_TPL then iIsValidTpl o junk
  else if t = IL_VTF then iIsValidVtf o junk
  else if t = IL_XPM then iIsValidXpm o junk
  else iIsValidTarga o junk

/-- `ilIsValid…F`: the file at its position `s.pos`, il_dds.cpp:77-89 and alike in the other formats. -/
def ilIsValidF (v : Cache.S → C (Bool × Cache.S)) (s : Cache.S) : C (Bool × Cache.S) := do
  let s := Cache.iSetInputFile s s.data s.pos
  let first := Cache.iTellRFile s
  let (b, s) ← v s
  pure (b, (Cache.iSeekRFile s (Lump.toInt first) SEEK_SET).2)

/-- The order of the tests of `ilDetermineTypeF`, il_io.cpp:214-346. -/
def orderF : List Nat := [IL_JPG, IL_DDS, IL_PNG, IL_BMP, IL_BLP, IL_EXR, IL_GIF, IL_HDR, IL_ICNS, IL_ILBM, IL_IWI, IL_JP2, IL_KTX, IL_LIF,
  IL_MDL, IL_MP3, IL_PCX, IL_PIC, IL_PNM, IL_PSD, IL_PSP, IL_SGI, IL_SCITEX, IL_SUN, IL_TIF, IL_TPL, IL_VTF, IL_XPM, IL_TGA]

/-- The order of the tests of `ilDetermineTypeL`, il_io.cpp:350-496. -/
def orderL : List Nat := [IL_JPG, IL_DDS, IL_PNG, IL_BMP, IL_BLP, IL_EXR, IL_GIF, IL_HDR, IL_ICNS, IL_IWI, IL_ILBM, IL_JP2, IL_KTX, IL_LIF,
  IL_MDL, IL_MP3, IL_PCX, IL_PIC, IL_PNM, IL_PSD, IL_PSP, IL_SCITEX, IL_SGI, IL_SUN, IL_TIF, IL_TPL, IL_VTF, IL_XPM, IL_TGA]

/-- The chain of tests of `ilDetermineTypeF`, il_io.cpp:209-349. -/
def tryF (junk : Nat → UInt8) (dec : Dec) : List Nat → Cache.S → C (Nat × Cache.S)
  | [], s => pure (IL_TYPE_UNKNOWN, s)
  | t :: ts, s => do
    let (b, s) ← ilIsValidF (validator fileOps junk dec t) s
    if b then pure (t, s) else tryF junk dec ts s

/-- `ilDetermineTypeF`, il_io.cpp:209-349, built with all formats. -/
def ilDetermineTypeF (junk : Nat → UInt8) (dec : Dec) (s : Cache.S) : C (Nat × Cache.S) := tryF junk dec orderF s

/-- The chain of tests of `ilDetermineTypeL`, il_io.cpp:350-496; `ilIsValid…L`, il_dds.cpp:93-97 and alike. -/
def tryL (junk : Nat → UInt8) (dec : Dec) (data : List UInt8) (size : Nat) : List Nat → C Nat
  | [] => pure IL_TYPE_UNKNOWN
  | t :: ts => do
    let (b, _) ← validator lumpOps junk dec t (Lump.open_ data size)
    if b then pure t else tryL junk dec data size ts

/-- `ilDetermineTypeL`, il_io.cpp:350-496, built with all formats. -/
def ilDetermineTypeL (junk : Nat → UInt8) (dec : Dec) (data : List UInt8) (size : Nat) : C Nat := tryL junk dec data size orderL

end DevIL.Detect
