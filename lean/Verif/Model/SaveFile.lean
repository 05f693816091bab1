import Verif.Model.Enums
import Verif.Model.Register
import Verif.Model.SaveL
/-! Model of saving to named files: `ilSave` and `ilSaveImage` (il_io.cpp), the functions `ilSave...(FileName)` of the formats, `ilSavePal` (il_pal.cpp), `ilSaveCHeader` (il_header.cpp) and `ilSaveData` (il_rawdata.cpp), over a disk. -/
set_option autoImplicit false
namespace DevIL.SaveFile
open DevIL.Register (txt sameStr iGetExtension iCheckExtension)
open DevIL.Lump (WOp OutFile)

/-! ### The disk -/

/-- A file and what the process may do with it.  il_internal.cpp:168, il_files.cpp:227. -/
structure File where
  data : List UInt8
  readable : Bool
  writable : Bool
  deriving DecidableEq

/-- The files by name.  il_internal.cpp:168, il_files.cpp:227. -/
abbrev Disk := List UInt8 → Option File

/-- The disk after the file `n` was changed.  il_files.cpp:227. -/
def put (d : Disk) (n : List UInt8) (f : File) : Disk := fun m => if m = n then some f else d m

/-- `iFileExists`, il_internal.cpp:165-179: can it be opened for reading? -/
def iFileExists (d : Disk) (n : List UInt8) : Bool :=
  match d n with
  | some f => f.readable
  | none => false

/-- `fopen(n, "wb")`: the file is emptied, or made if the directory allows it (`may`); `none` if that fails.  `iDefaultOpenW`, il_files.cpp:224-237.  A new file can be read and written by the process. -/
def fopenW (may : List UInt8 → Bool) (d : Disk) (n : List UInt8) : Option (File × Disk) :=
  match d n with
  | some f => if f.writable then some (⟨[], f.readable, true⟩, put d n ⟨[], f.readable, true⟩) else none
  | none => if may n then some (⟨[], true, true⟩, put d n ⟨[], true, true⟩) else none

/-! ### The savers -/

/-- The formats with a saver that writes through `iopenw`.  il_io.cpp:2263-2347, 2687-2691. -/
inductive Fmt where
  | bmp | dds | exr | hdr | jp2 | jpg | pcx | png | pnm | psd | raw | sgi | tga | tif | vtf | wbmp
  deriving DecidableEq

/-- What a save depends on besides its name and the disk.  il_io.cpp:2256-2360. -/
structure World where
  /-- `ilGetBoolean(IL_FILE_MODE)`: may existing files be overwritten?  il_states.cpp:512-513. -/
  overwrite : Bool
  /-- Is there a current image?  il_io.cpp:2600. -/
  cur : Bool
  /-- Is `CheckDimensions` true of it?  il_vtf.cpp:713-720. -/
  dims : Bool
  /-- The number of colours of its palette, 0 if there is none.  il_pal.cpp:216. -/
  palCols : Nat
  /-- The name of the array of a C header.  il_header.cpp:33-35. -/
  cname : List UInt8
  /-- Could the image be converted to bytes, and the palette to RGB?  il_header.cpp:56-58, il_pal.cpp:255. -/
  conv : Bool
  /-- Which files can be made.  il_files.cpp:227. -/
  may : List UInt8 → Bool
  /-- What the saver of a format writes, and whether it then returns `IL_TRUE`.  E.g. il_bmp.cpp:878. -/
  body : Fmt → C (List WOp × Bool)
  /-- The text of a C header, il_header.cpp:78-133. -/
  header : List UInt8
  /-- The text of a palette, il_pal.cpp:273-286. -/
  palette : List UInt8
  /-- The registered savers, by extension: what they do to the disk and the error they return.  il_register.cpp:202-226. -/
  procs : List (List UInt8 × (List UInt8 → Disk → Disk × Nat))

/-- What a save leaves: the returned value, the disk, and where later output would go.  il_io.cpp:2256, il_files.cpp:30. -/
structure Result where
  ret : Bool
  disk : Disk
  out : SaveL.Out

/-- `ilSaveBmp` (il_bmp.cpp:845-869), `ilSaveDds` (il_dds-save.cpp:22-46), `ilSaveExr` (il_exr.cpp:333-357), `ilSaveHdr` (il_hdr.cpp:354-378), `ilSaveJp2` (il_jp2.cpp:557-581), `ilSaveJpeg` (il_jpeg.cpp:428-452), `ilSavePcx` (il_pcx.cpp:483-507), `ilSavePng` (il_png.cpp:420-444), `ilSavePnm` (il_pnm.cpp:646-670), `ilSavePsd` (il_psd.cpp:904-928), `ilSaveRaw` (il_raw.cpp:118-142), `ilSaveSgi` (il_sgi.cpp:496-520), `ilSaveTarga` (il_targa.cpp:541-565), `ilSaveTiff` (il_tiff.cpp:875-899), `ilSaveVtf` (il_vtf.cpp:723-750) and `ilSaveWbmp` (il_wbmp.cpp:162-186).
The number of bytes is the position in the file, which is empty at first.  No saver writes beyond the end of what it wrote before. -/
def saveAs (w : World) (d : Disk) (o : SaveL.Out) (k : Fmt) (n : List UInt8) : C Result :=
  if k = .vtf ∧ !w.cur then .error .nullDeref
  else if k = .vtf ∧ !w.dims then pure ⟨false, d, o⟩
  else if !w.overwrite && iFileExists d n then pure ⟨false, d, o⟩
  else match fopenW w.may d n with
  | none => pure ⟨false, d, o⟩
  | some (f, d) => do
    let (ops, ok) ← w.body k
    let g := OutFile.run ⟨[], 0⟩ ops
    let size := if ok then u32 g.pos else 0
    pure ⟨decide (size ≠ 0), put d n { f with data := g.data }, .closed⟩

/-- `ilSaveMng`, il_mng.cpp:287-323: the position of the output is read before the new file is selected, and `iSaveMngInternal`, 338-344, always fails. -/
def saveMng (w : World) (d : Disk) (o : SaveL.Out) (n : List UInt8) : C Result :=
  if !w.overwrite && iFileExists d n then pure ⟨false, d, o⟩
  else match fopenW w.may d n with
  | none => pure ⟨false, d, o⟩
  | some (_, d) => do
    let _ ← SaveL.itellw o
    pure ⟨false, d, .closed⟩

/-- `ilSaveCHeader`, il_header.cpp:21-136. -/
def ilSaveCHeader (w : World) (d : Disk) (o : SaveL.Out) (n : List UInt8) : C Result :=
  if !w.cur then pure ⟨false, d, o⟩
  else if n.length < 1 ∨ w.cname.length < 1 then pure ⟨false, d, o⟩
  else do
    if !(← iCheckExtension n (txt ['h'])) then pure ⟨false, d, o⟩
    else if !w.overwrite && iFileExists d n then pure ⟨false, d, o⟩
    else if !w.conv then pure ⟨false, d, o⟩
    else match fopenW w.may d n with
    | none => pure ⟨false, d, o⟩
    | some (f, d) => pure ⟨true, put d n { f with data := w.header }, o⟩

/-- `ilSaveJascPal`, il_pal.cpp:214-291. -/
def ilSaveJascPal (w : World) (d : Disk) (o : SaveL.Out) (n : List UInt8) : C Result :=
  if !w.cur ∨ w.palCols = 0 ∨ w.palCols > 256 then pure ⟨false, d, o⟩
  else if n.length < 5 then pure ⟨false, d, o⟩
  else do
    if !(← iCheckExtension n (txt ['p', 'a', 'l'])) then pure ⟨false, d, o⟩
    else if !w.overwrite && iFileExists d n then pure ⟨false, d, o⟩
    else if !w.conv then pure ⟨false, d, o⟩
    else match fopenW w.may d n with
    | none => pure ⟨false, d, o⟩
    | some (f, d) => pure ⟨true, put d n { f with data := w.palette }, o⟩

/-- `ilSavePal`, il_pal.cpp:181-210. -/
def ilSavePal (w : World) (d : Disk) (o : SaveL.Out) (n : List UInt8) : C Result := do
  let ext ← iGetExtension n
  if !w.cur then pure ⟨false, d, o⟩
  else match ext with
  | none => pure ⟨false, d, o⟩
  | some e =>
    if n.length < 1 then pure ⟨false, d, o⟩
    else if w.palCols = 0 then pure ⟨false, d, o⟩
    else if sameStr e (txt ['p', 'a', 'l']) then ilSaveJascPal w d o n
    else pure ⟨false, d, o⟩

/-- `iRegisterSave`, il_register.cpp:202-226, for the extension `e`: what happened, if there is a saver for it. -/
def iRegisterSave (w : World) (d : Disk) (e n : List UInt8) : Option (Bool × Disk) :=
  match w.procs.find? (fun p => sameStr e p.1) with
  | none => none
  | some p => let (d', err) := p.2 n d; some (decide (err = 0), d')

/-- The comparisons of `ilSaveImage` whose savers write through `iopenw`, il_io.cpp:2611-2713, in order. -/
def extFmt : List (List (List Char) × Fmt) := [
  ([['b', 'm', 'p']], .bmp),
  ([['d', 'd', 's']], .dds),
  ([['e', 'x', 'r']], .exr),
  ([['h', 'd', 'r']], .hdr),
  ([['j', 'p', '2']], .jp2),
  ([['j', 'p', 'g'], ['j', 'p', 'e', 'g'], ['j', 'p', 'e']], .jpg),
  ([['p', 'c', 'x']], .pcx),
  ([['p', 'n', 'g']], .png),
  ([['p', 'b', 'm'], ['p', 'g', 'm'], ['p', 'p', 'm']], .pnm),
  ([['p', 's', 'd']], .psd),
  ([['r', 'a', 'w']], .raw),
  ([['s', 'g', 'i'], ['b', 'w'], ['r', 'g', 'b'], ['r', 'g', 'b', 'a']], .sgi),
  ([['t', 'g', 'a']], .tga),
  ([['t', 'i', 'f'], ['t', 'i', 'f', 'f']], .tif),
  ([['v', 't', 'f']], .vtf),
  ([['w', 'b', 'm', 'p']], .wbmp)]

/-- `ilSaveImage`, il_io.cpp:2590-2761, in a build with every format.  The comparison with `h` comes second in the code; the order does not matter because the extensions differ. -/
def ilSaveImage (w : World) (d : Disk) (o : SaveL.Out) (n : List UInt8) : C Result :=
  if n.length < 1 then pure ⟨false, d, o⟩
  else if !w.cur then pure ⟨false, d, o⟩
  else do
    match ← iGetExtension n with
    | none => pure ⟨false, d, o⟩
    | some e =>
      match extFmt.find? (fun r => r.1.any fun x => sameStr e (txt x)) with
      | some r => saveAs w d o r.2 n
      | none =>
        if sameStr e (txt ['h']) then ilSaveCHeader w d o n
        else if sameStr e (txt ['m', 'n', 'g']) then saveMng w d o n
        else if sameStr e (txt ['p', 'a', 'l']) then ilSavePal w d o n
        else match iRegisterSave w d e n with
        | some (ok, d) => pure ⟨ok, d, o⟩
        | none => pure ⟨false, d, o⟩

/-- The formats of `ilSave`, il_io.cpp:2263-2347. -/
def typeFmt : List (Nat × Fmt) := [(IL_BMP, .bmp), (IL_DDS, .dds), (IL_EXR, .exr), (IL_HDR, .hdr), (IL_JP2, .jp2), (IL_JPG, .jpg), (IL_PCX, .pcx), (IL_PNG, .png), (IL_PNM, .pnm), (IL_PSD, .psd), (IL_RAW, .raw),
  (IL_SGI, .sgi), (IL_TGA, .tga), (IL_TIF, .tif), (IL_VTF, .vtf), (IL_WBMP, .wbmp)]

/-- `ilSave`, il_io.cpp:2256-2354, in a build with every format. -/
def ilSave (w : World) (d : Disk) (o : SaveL.Out) (type : Nat) (n : List UInt8) : C Result :=
  if type = IL_TYPE_UNKNOWN then ilSaveImage w d o n
  else match typeFmt.find? (fun r => r.1 == type) with
  | some r => saveAs w d o r.2 n
  | none =>
    if type = IL_CHEAD then ilSaveCHeader w d o n
    else if type = IL_JASC_PAL then ilSaveJascPal w d o n
    else pure ⟨false, d, o⟩

/-- `ilSaveData`, il_rawdata.cpp:99-117, for a current image with the data `data`: the file is opened for reading, and the data goes where the last save went.  The disk is what it was: an output that is still open belongs to the program. -/
def ilSaveData (w : World) (d : Disk) (o : SaveL.Out) (data : List UInt8) (n : List UInt8) : C Result :=
  if !w.cur then pure ⟨false, d, o⟩
  else if !iFileExists d n then pure ⟨false, d, o⟩
  else do
    let o ← SaveL.exec [.write data 1 data.length] o
    pure ⟨true, d, o⟩

end DevIL.SaveFile
