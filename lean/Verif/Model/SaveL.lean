import Verif.Props.Lump
/-! The functions `ilSave...` and `ilSave...L` around the savers of the formats: which output they select, and the number they return. -/
set_option autoImplicit false
namespace DevIL.SaveL
open DevIL.Lump

/-- The output the pointers `iputc`, `iseekw`, `itellw`, `iwrite` of il_files.h stand for: none (they are null until the first save), a file
(`FileWrite`, il_files.cpp:30), possibly closed again, the caller's memory, or the counters of the dry run.  Simplified: an ordinary file on
which no operation fails, accessed by the default functions (il_files.cpp:219-254). -/
inductive Out where
  | unset
  | file (f : OutFile)
  | closed
  | lump (w : W)
  | dry (s : Dry)
  deriving DecidableEq

/-- `itellw()`: `iTellWFile`, il_files.cpp:764-767, `iTellWLump`, 770-773, `iSizeTell`, il_size.cpp:53-56. -/
def itellw : Out → C Nat
  | .unset => .error .nullDeref
  | .closed => .error .useAfterFree
  | .file f => pure (u32 f.pos)
  | .lump w => pure w.pos
  | .dry s => pure s.cur

/-- The calls of a saver on the output.  The calls between `iSetOutputLump` and the end of a saver, e.g. il_bmp.cpp:885-894. -/
def exec (ops : List WOp) : Out → C Out
  | .unset => .error .nullDeref
  | .closed => .error .useAfterFree
  | .file f => pure (.file (f.run ops))
  | .lump w => do let w ← wrun w ops; pure (.lump w)
  | .dry s => pure (.dry (dryRun s ops))

/-- `iSetOutputLump`, il_files.cpp:360-374, with a buffer of the stated size or with `NULL`. -/
def iSetOutputLump (buf : Option (List UInt8)) (o : Out) : Out :=
  match buf with
  | none => o
  | some b => .lump (openW b b.length)

/-- The functions `ilSavePcxL` (il_pcx.cpp:523-531), `ilSaveSgiL` (il_sgi.cpp:536-544), `ilSaveBmpL` (il_bmp.cpp:885-893), and those of the
other formats: the output is selected, then its position is read.  `ops` is what the saver makes of the image, `none` if it returns
`IL_FALSE` before it writes.  The result is the returned number. -/
def saveL (buf : Option (List UInt8)) (ops : Option (List WOp)) (o : Out) : C (Nat × Out) := do
  let o := iSetOutputLump buf o
  let pos ← itellw o
  match ops with
  | none => pure (0, o)
  | some ops => do
    let o ← exec ops o
    let p ← itellw o
    pure (u32 (p + 4294967296 - pos), o)

/-- `ilSaveTargaL` (il_targa.cpp:581-588), and in the same way `ilSaveExrL` (il_exr.cpp:373-380) and `ilSaveTiffL` (il_tiff.cpp:915-922):
the position is read before the output is selected. -/
def saveLEarly (buf : Option (List UInt8)) (ops : Option (List WOp)) (o : Out) : C (Nat × Out) := do
  let pos ← itellw o
  let o := iSetOutputLump buf o
  match ops with
  | none => pure (0, o)
  | some ops => do
    let o ← exec ops o
    let p ← itellw o
    pure (u32 (p + 4294967296 - pos), o)

/-- `ilSavePcxF` (il_pcx.cpp:511-519), `ilSaveSgiF` (il_sgi.cpp:524-532), `ilSaveTargaF` (il_targa.cpp:569-577) and those of the other
formats: the number of bytes written to the open file `f`. -/
def saveF (f : OutFile) (ops : Option (List WOp)) : C (Nat × Out) := do
  let pos ← itellw (.file f)
  match ops with
  | none => pure (0, .file f)
  | some ops => do
    let o ← exec ops (.file f)
    let p ← itellw o
    pure (u32 (p + 4294967296 - pos), o)

/-- `ilSaveSgi` (il_sgi.cpp:497-520) and those of the other formats, after the file has been created: it is saved to and closed; the file
and the result `SgiSize != 0`. -/
def save (ops : Option (List WOp)) : C (Bool × List UInt8 × Out) := do
  let (n, o) ← saveF ⟨[], 0⟩ ops
  match o with
  | .file f => pure (decide (n ≠ 0), f.data, .closed)
  | _ => pure (decide (n ≠ 0), [], .closed)

/-- `ilSaveL(Type, NULL, 0)`: `ilDetermineSize`, il_size.cpp:80-184, for every type but Targa: the counters are reset, the dry run takes
the place of the output, `ilSave...L` is called without a buffer, and the highest position is returned. -/
def ilDetermineSize (ops : Option (List WOp)) : C (Nat × Out) := do
  let (_, o) ← saveL none ops (.dry dry0)
  match o with
  | .dry s => pure (s.max, o)
  | o => pure (0, o)

/-- The saves a program can make one after the other, each with what its saver makes of the image.
il_io.cpp, `ilSaveL` and `ilDetermineSize`: see `ilSaveL` above. -/
inductive Save where
  | toFile (ops : Option (List WOp))
  | toMem (buf : List UInt8) (ops : Option (List WOp))
  | toMemEarly (buf : List UInt8) (ops : Option (List WOp))
  | size (ops : Option (List WOp))

/-- A sequence of saves; the returned numbers are not needed by the caller.  A history is not in the code. -/
def history : List Save → Out → C Out
  | [], o => pure o
  | .toFile ops :: h, _ => do let (_, _, o) ← save ops; history h o
  | .toMem b ops :: h, o => do let (_, o) ← saveL (some b) ops o; history h o
  | .toMemEarly b ops :: h, o => do let (_, o) ← saveLEarly (some b) ops o; history h o
  | .size ops :: h, _ => do let (_, o) ← ilDetermineSize ops; history h o

end DevIL.SaveL
