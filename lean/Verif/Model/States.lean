import Verif.Model.Utility
/-! Model of DevIL/src-IL/src/il_states.cpp (state machine, attribute stack, queries). -/
namespace DevIL.States
open DevIL.Utility

/-- Conversion of an `ILint` to `ILuint`/`ILenum`.  il_states.cpp:1027-1171. -/
def toU32 (v : Int) : Nat := (v % 4294967296).toNat
/-- Conversion of an `ILint` to `ILubyte`/`ILboolean`.  il_states.cpp:1027-1171. -/
def toU8 (v : Int) : Nat := (v % 256).toNat
/-- Conversion of an `ILuint`/`ILenum` to `ILint`.  il_states.cpp:413-545. -/
def toI32 (n : Nat) : Int := if n < 2147483648 then n else (n : Int) - 4294967296

/-- `IL_STATES`, include/il_states.h:33-101.  A `char*` is `none` when it is NULL; every non-null string
is a private `strdup`ed copy (il_states.cpp:847-860, 963-1016), so strings are modelled as values. -/
structure Attr where
  ilOriginSet : Nat
  ilFormatSet : Nat
  ilTypeSet : Nat
  ilOverWriteFiles : Nat
  ilAutoConvPal : Nat
  ilDefaultOnFail : Nat
  ilUseKeyColour : Nat
  ilBlitBlend : Nat
  ilKeepDxtcData : Nat
  ilUseNVidiaDXT : Nat
  ilUseSquishDXT : Nat
  ilTgaCreateStamp : Nat
  ilPngInterlace : Nat
  ilTgaRle : Nat
  ilBmpRle : Nat
  ilSgiRle : Nat
  ilJpgProgressive : Nat
  ilOriginMode : Nat
  ilFormatMode : Nat
  ilTypeMode : Nat
  ilCompression : Nat
  ilInterlace : Nat
  ilQuantMode : Nat
  ilNeuSample : Nat
  ilQuantMaxIndexs : Nat
  ilJpgQuality : Nat
  ilJpgFormat : Nat
  ilDxtcFormat : Nat
  ilPcdPicNum : Nat
  ilVtfCompression : Nat
  ilPngAlphaIndex : Int
  ilTgaId : Option String
  ilTgaAuthName : Option String
  ilTgaAuthComment : Option String
  ilPngAuthName : Option String
  ilPngTitle : Option String
  ilPngDescription : Option String
  ilTifDescription : Option String
  ilTifHostComputer : Option String
  ilTifDocumentName : Option String
  ilTifAuthName : Option String
  ilCHeader : Option String
  deriving DecidableEq

/-- `IL_ATTRIB_STACK_MAX`, include/il_states.h:22. -/
abbrev stackMax : Nat := 32

/-- What the queries of il_states.cpp look at in the current image (`ILimage`, il_internal.h and
include/devil_internal_exports.h).  Chain lengths and the position of the current image in its chains
(`iGetActiveNum`, il_states.cpp:348-409) are given as numbers. -/
structure Img where
  width : Nat
  height : Nat
  depth : Nat
  bpp : Nat
  bpc : Nat
  sizeOfData : Nat
  sizeOfPlane : Nat
  format : Nat
  type : Nat
  origin : Nat
  palType : Nat
  palSize : Nat
  duration : Nat
  cubeFlags : Nat
  offX : Nat
  offY : Nat
  dxtcFormat : Nat
  dxtcSize : Nat
  numFaces : Nat
  numNext : Nat
  numLayers : Nat
  numMipmaps : Nat
  activeImage : Nat
  activeMipmap : Nat
  activeLayer : Nat
  name : Nat
  deriving DecidableEq

/-- The globals: `ilStates`, `ilCurrentPos`, `ilHints`, the pending errors (newest first; the bounded
store behind them is the subject of Model/Error.lean) and the current image (`none` = NULL).  il_states.cpp:44-91, 886-946, il_error.cpp:20-21. -/
structure Sys where
  stack : List Attr
  pos : Nat
  memVsSpeed : Nat
  compressHint : Nat
  errs : List Nat
  img : Option Img
  deriving DecidableEq

/-- `ilSetError`.  il_error.cpp:26-40; the store behind it is modelled in Model/Error.lean. -/
def setErr (s : Sys) (e : Nat) : Sys := { s with errs := e :: s.errs }

/-- The values assigned by `ilDefaultStates`, il_states.cpp:46-91. -/
def defaults : Attr where
  ilOriginSet := IL_FALSE
  ilOriginMode := IL_ORIGIN_LOWER_LEFT
  ilFormatSet := IL_FALSE
  ilFormatMode := IL_BGRA
  ilTypeSet := IL_FALSE
  ilTypeMode := IL_UNSIGNED_BYTE
  ilOverWriteFiles := IL_FALSE
  ilAutoConvPal := IL_FALSE
  ilDefaultOnFail := IL_FALSE
  ilUseKeyColour := IL_FALSE
  ilBlitBlend := IL_TRUE
  ilCompression := IL_COMPRESS_ZLIB
  ilInterlace := IL_FALSE
  ilTgaCreateStamp := IL_FALSE
  ilJpgQuality := 99
  ilPngInterlace := IL_FALSE
  ilTgaRle := IL_FALSE
  ilBmpRle := IL_FALSE
  ilSgiRle := IL_FALSE
  ilJpgFormat := IL_JFIF
  ilJpgProgressive := IL_FALSE
  ilDxtcFormat := IL_DXT1
  ilPcdPicNum := 2
  ilPngAlphaIndex := -1
  ilVtfCompression := IL_DXT_NO_COMP
  ilTgaId := none
  ilTgaAuthName := none
  ilTgaAuthComment := none
  ilPngAuthName := none
  ilPngTitle := none
  ilPngDescription := none
  ilTifDescription := none
  ilTifHostComputer := none
  ilTifDocumentName := none
  ilTifAuthName := none
  ilCHeader := none
  ilQuantMode := IL_WU_QUANT
  ilNeuSample := 15
  ilQuantMaxIndexs := 256
  ilKeepDxtcData := IL_FALSE
  ilUseNVidiaDXT := IL_FALSE
  ilUseSquishDXT := IL_FALSE

/-- `ilDefaultStates`, il_states.cpp:44-104: current slot to defaults, hints reset, error queue
drained (`while (ilGetError() != IL_NO_ERROR);`, line 102). -/
def ilDefaultStates (s : Sys) : C Sys := do
  let stack ← wr s.stack s.pos defaults
  pure { s with stack := stack, memVsSpeed := IL_FASTEST, compressHint := IL_USE_COMPRESSION,
                errs := s.errs.dropWhile (· ≠ IL_NO_ERROR) |>.drop 1 }

/-- Rewrite the current slot `ilStates[ilCurrentPos]`.  For example il_states.cpp:225-270. -/
def updCur (s : Sys) (f : Attr → Attr) : C Sys := do
  let a ← rd s.stack s.pos
  let stack ← wr s.stack s.pos (f a)
  pure { s with stack := stack }

/-- The `switch` of `ilAble`, il_states.cpp:227-266: the updated slot, `none` in the default case. -/
def ableSlot (a : Attr) (mode flag : Nat) : Option Attr :=
  if mode = IL_ORIGIN_SET then some { a with ilOriginSet := flag }
  else if mode = IL_FORMAT_SET then some { a with ilFormatSet := flag }
  else if mode = IL_TYPE_SET then some { a with ilTypeSet := flag }
  else if mode = IL_FILE_OVERWRITE then some { a with ilOverWriteFiles := flag }
  else if mode = IL_CONV_PAL then some { a with ilAutoConvPal := flag }
  else if mode = IL_DEFAULT_ON_FAIL then some { a with ilDefaultOnFail := flag }
  else if mode = IL_USE_KEY_COLOUR then some { a with ilUseKeyColour := flag }
  else if mode = IL_BLIT_BLEND then some { a with ilBlitBlend := flag }
  else if mode = IL_SAVE_INTERLACED then some { a with ilInterlace := flag }
  else if mode = IL_JPG_PROGRESSIVE then some { a with ilJpgProgressive := flag }
  else if mode = IL_NVIDIA_COMPRESS then some { a with ilUseNVidiaDXT := flag }
  else if mode = IL_SQUISH_COMPRESS then some { a with ilUseSquishDXT := flag }
  else none

/-- `ilAble`, il_states.cpp:225-272; result and new state. -/
def ilAble (s : Sys) (mode flag : Nat) : C (Bool × Sys) := do
  let a ← rd s.stack s.pos
  match ableSlot a mode flag with
  | some a' => do
      let stack ← wr s.stack s.pos a'
      pure (true, { s with stack := stack })
  | none => pure (false, setErr s IL_INVALID_ENUM)

/-- `ilEnable`, il_states.cpp:209-212. -/
def ilEnable (s : Sys) (mode : Nat) := ilAble s mode IL_TRUE
/-- `ilDisable`, il_states.cpp:217-220. -/
def ilDisable (s : Sys) (mode : Nat) := ilAble s mode IL_FALSE

/-- The `switch` of `ilIsEnabled`, il_states.cpp:278-307. -/
def enabledSlot (a : Attr) (mode : Nat) : Option Nat :=
  if mode = IL_ORIGIN_SET then some a.ilOriginSet
  else if mode = IL_FORMAT_SET then some a.ilFormatSet
  else if mode = IL_TYPE_SET then some a.ilTypeSet
  else if mode = IL_FILE_OVERWRITE then some a.ilOverWriteFiles
  else if mode = IL_CONV_PAL then some a.ilAutoConvPal
  else if mode = IL_DEFAULT_ON_FAIL then some a.ilDefaultOnFail
  else if mode = IL_USE_KEY_COLOUR then some a.ilUseKeyColour
  else if mode = IL_BLIT_BLEND then some a.ilBlitBlend
  else if mode = IL_SAVE_INTERLACED then some a.ilInterlace
  else if mode = IL_JPG_PROGRESSIVE then some a.ilJpgProgressive
  else if mode = IL_NVIDIA_COMPRESS then some a.ilUseNVidiaDXT
  else if mode = IL_SQUISH_COMPRESS then some a.ilUseSquishDXT
  else none

/-- `ilIsEnabled`, il_states.cpp:276-310. -/
def ilIsEnabled (s : Sys) (mode : Nat) : C (Nat × Sys) := do
  let a ← rd s.stack s.pos
  match enabledSlot a mode with
  | some v => pure (v, s)
  | none => pure (IL_FALSE, setErr s IL_INVALID_ENUM)

/-- The `switch` of il_states.cpp:653-667 as written: no `break` separates its cases, so every known
palette type falls through to the last assignment. -/
def paletteBaseType (p : Nat) : Nat :=
  if IL_PAL_RGB24 ≤ p ∧ p ≤ IL_PAL_BGRA32 then IL_BGRA else 0

/-- The `switch` of `iGetIntegervImage`, il_states.cpp:562-671 (`none` = default case).  Simplification: a
palette pointer is non-null iff `palSize ≠ 0`, likewise the DXTC data; the division at line 650 is only
reached with a known palette type (`ilSetPal`/loaders set no other). -/
def imageValue (i : Img) (mode : Nat) : Option Nat :=
  if mode = IL_DXTC_DATA_FORMAT then some (if i.dxtcSize = 0 then IL_DXT_NO_COMP else i.dxtcFormat)
  else if mode = IL_IMAGE_BITS_PER_PIXEL then some (i.bpp * 8 * i.bpc)
  else if mode = IL_IMAGE_BYTES_PER_PIXEL then some (i.bpp * i.bpc)
  else if mode = IL_IMAGE_BPC then some i.bpc
  else if mode = IL_IMAGE_CHANNELS then some i.bpp
  else if mode = IL_IMAGE_CUBEFLAGS then some i.cubeFlags
  else if mode = IL_IMAGE_DEPTH then some i.depth
  else if mode = IL_IMAGE_DURATION then some i.duration
  else if mode = IL_IMAGE_FORMAT then some i.format
  else if mode = IL_IMAGE_HEIGHT then some i.height
  else if mode = IL_IMAGE_SIZE_OF_DATA then some i.sizeOfData
  else if mode = IL_IMAGE_OFFX then some i.offX
  else if mode = IL_IMAGE_OFFY then some i.offY
  else if mode = IL_IMAGE_ORIGIN then some i.origin
  else if mode = IL_IMAGE_PLANESIZE then some i.sizeOfPlane
  else if mode = IL_IMAGE_TYPE then some i.type
  else if mode = IL_IMAGE_WIDTH then some i.width
  else if mode = IL_NUM_FACES then some i.numFaces
  else if mode = IL_NUM_IMAGES then some i.numNext
  else if mode = IL_NUM_LAYERS then some i.numLayers
  else if mode = IL_NUM_MIPMAPS then some i.numMipmaps
  else if mode = IL_PALETTE_TYPE then some i.palType
  else if mode = IL_PALETTE_BPP then some (ilGetBppPal i.palType)
  else if mode = IL_PALETTE_NUM_COLS then some (if i.palSize = 0 ∨ i.palType = IL_PAL_NONE then 0 else i.palSize / ilGetBppPal i.palType)
  else if mode = IL_PALETTE_BASE_TYPE then some (paletteBaseType i.palType)
  else none

/-- The cases of `ilGetIntegerv` that read the state slot, il_states.cpp:425-538. -/
def slotValue (a : Attr) (mode : Nat) : Option Int :=
  if mode = IL_PNG_ALPHA_INDEX then some a.ilPngAlphaIndex
  else if mode = IL_VERSION_NUM then some (IL_VERSION : Int)
  else if mode = IL_COMPRESS_MODE then some (toI32 a.ilCompression)
  else if mode = IL_FORMAT_MODE then some (toI32 a.ilFormatMode)
  else if mode = IL_INTERLACE_MODE then some (toI32 a.ilInterlace)
  else if mode = IL_KEEP_DXTC_DATA then some (toI32 a.ilKeepDxtcData)
  else if mode = IL_ORIGIN_MODE then some (toI32 a.ilOriginMode)
  else if mode = IL_MAX_QUANT_INDICES then some (toI32 a.ilQuantMaxIndexs)
  else if mode = IL_NEU_QUANT_SAMPLE then some (toI32 a.ilNeuSample)
  else if mode = IL_QUANTIZATION_MODE then some (toI32 a.ilQuantMode)
  else if mode = IL_TYPE_MODE then some (toI32 a.ilTypeMode)
  else if mode = IL_BMP_RLE then some (toI32 a.ilBmpRle)
  else if mode = IL_DXTC_FORMAT then some (toI32 a.ilDxtcFormat)
  else if mode = IL_JPG_QUALITY then some (toI32 a.ilJpgQuality)
  else if mode = IL_JPG_SAVE_FORMAT then some (toI32 a.ilJpgFormat)
  else if mode = IL_PCD_PICNUM then some (toI32 a.ilPcdPicNum)
  else if mode = IL_PNG_INTERLACE then some (toI32 a.ilPngInterlace)
  else if mode = IL_SGI_RLE then some (toI32 a.ilSgiRle)
  else if mode = IL_TGA_CREATE_STAMP then some (toI32 a.ilTgaCreateStamp)
  else if mode = IL_TGA_RLE then some (toI32 a.ilTgaRle)
  else if mode = IL_VTF_COMP then some (toI32 a.ilVtfCompression)
  else if mode = IL_CONV_PAL then some (toI32 a.ilAutoConvPal)
  else if mode = IL_DEFAULT_ON_FAIL then some (toI32 a.ilDefaultOnFail)
  else if mode = IL_FILE_MODE then some (toI32 a.ilOverWriteFiles)
  else if mode = IL_FORMAT_SET then some (toI32 a.ilFormatSet)
  else if mode = IL_ORIGIN_SET then some (toI32 a.ilOriginSet)
  else if mode = IL_TYPE_SET then some (toI32 a.ilTypeSet)
  else if mode = IL_USE_KEY_COLOUR then some (toI32 a.ilUseKeyColour)
  else if mode = IL_BLIT_BLEND then some (toI32 a.ilBlitBlend)
  else if mode = IL_JPG_PROGRESSIVE then some (toI32 a.ilJpgProgressive)
  else if mode = IL_NVIDIA_COMPRESS then some (toI32 a.ilUseNVidiaDXT)
  else if mode = IL_SQUISH_COMPRESS then some (toI32 a.ilUseSquishDXT)
  else none

/-- `ilGetIntegerv` with a non-NULL `Param` (il_states.cpp:413-545), hence `ilGetInteger` (677-683): the
value and the state after (errors may have been recorded). -/
def ilGetInteger (s : Sys) (mode : Nat) : C (Int × Sys) := do
  let a ← rd s.stack s.pos
  match slotValue a mode with
  | some v => pure (v, s)
  | none =>
    match s.img with
    | none => pure (0, setErr s IL_ILLEGAL_OPERATION)
    | some i =>
      if mode = IL_CUR_IMAGE then pure (toI32 i.name, s)
      else if mode = IL_ACTIVE_IMAGE then pure (toI32 i.activeImage, s)
      else if mode = IL_ACTIVE_MIPMAP then pure (toI32 i.activeMipmap, s)
      else if mode = IL_ACTIVE_LAYER then pure (toI32 i.activeLayer, s)
      else match imageValue i mode with
        | some v => pure (toI32 v, s)
        | none => pure (0, setErr s IL_INVALID_ENUM)

/-- `ilOriginFunc`, il_states.cpp:687-700. -/
def ilOriginFunc (s : Sys) (mode : Nat) : C (Bool × Sys) :=
  if mode = IL_ORIGIN_LOWER_LEFT ∨ mode = IL_ORIGIN_UPPER_LEFT then do
    let s ← updCur s (fun a => { a with ilOriginMode := mode })
    pure (true, s)
  else pure (false, setErr s IL_INVALID_PARAM)

/-- `ilFormatFunc`, il_states.cpp:704-722. -/
def ilFormatFunc (s : Sys) (mode : Nat) : C (Bool × Sys) :=
  if mode = IL_RGB ∨ mode = IL_RGBA ∨ mode = IL_BGR ∨ mode = IL_BGRA ∨ mode = IL_LUMINANCE ∨
      mode = IL_LUMINANCE_ALPHA then do
    let s ← updCur s (fun a => { a with ilFormatMode := mode })
    pure (true, s)
  else pure (false, setErr s IL_INVALID_PARAM)

/-- `ilTypeFunc`, il_states.cpp:726-745. -/
def ilTypeFunc (s : Sys) (mode : Nat) : C (Bool × Sys) :=
  if mode = IL_BYTE ∨ mode = IL_UNSIGNED_BYTE ∨ mode = IL_SHORT ∨ mode = IL_UNSIGNED_SHORT ∨
      mode = IL_INT ∨ mode = IL_UNSIGNED_INT ∨ mode = IL_FLOAT ∨ mode = IL_DOUBLE then do
    let s ← updCur s (fun a => { a with ilTypeMode := mode })
    pure (true, s)
  else pure (false, setErr s IL_INVALID_PARAM)

/-- `ilCompressFunc`, il_states.cpp:748-763. -/
def ilCompressFunc (s : Sys) (mode : Nat) : C (Bool × Sys) :=
  if mode = IL_COMPRESS_NONE ∨ mode = IL_COMPRESS_RLE ∨ mode = IL_COMPRESS_ZLIB then do
    let s ← updCur s (fun a => { a with ilCompression := mode })
    pure (true, s)
  else pure (false, setErr s IL_INVALID_PARAM)

/-- `strdup`: undefined on NULL.  il_states.cpp:847-862. -/
def strdup : Option String → C (Option String)
  | some s => .ok (some s)
  | none => .error .nullDeref

/-- The copies selected by `Bits` in `ilPushAttrib`, il_states.cpp:783-806: `p` is the slot below, `a` the
new slot.  The guarded assignments touch disjoint fields, so they are written as one record update. -/
def pushGroups (p a : Attr) (bits : Nat) : Attr :=
  { a with
    ilOriginMode := if bits &&& IL_ORIGIN_BIT ≠ 0 then p.ilOriginMode else a.ilOriginMode,
    ilOriginSet := if bits &&& IL_ORIGIN_BIT ≠ 0 then p.ilOriginSet else a.ilOriginSet,
    ilFormatMode := if bits &&& IL_FORMAT_BIT ≠ 0 then p.ilFormatMode else a.ilFormatMode,
    ilFormatSet := if bits &&& IL_FORMAT_BIT ≠ 0 then p.ilFormatSet else a.ilFormatSet,
    ilTypeMode := if bits &&& IL_TYPE_BIT ≠ 0 then p.ilTypeMode else a.ilTypeMode,
    ilTypeSet := if bits &&& IL_TYPE_BIT ≠ 0 then p.ilTypeSet else a.ilTypeSet,
    ilOverWriteFiles := if bits &&& IL_FILE_BIT ≠ 0 then p.ilOverWriteFiles else a.ilOverWriteFiles,
    ilAutoConvPal := if bits &&& IL_PAL_BIT ≠ 0 then p.ilAutoConvPal else a.ilAutoConvPal,
    ilDefaultOnFail := if bits &&& IL_LOADFAIL_BIT ≠ 0 then p.ilDefaultOnFail else a.ilDefaultOnFail,
    ilCompression := if bits &&& IL_COMPRESS_BIT ≠ 0 then p.ilCompression else a.ilCompression }

/-- The copies of the format-specific group, il_states.cpp:808-860.  (The `ifree`s at 821-845 never fire:
`ilDefaultStates` has just set the strings to NULL.) -/
def pushSpecific (p a : Attr) : C Attr := do
  let ilTgaId ← strdup p.ilTgaId
  let ilTgaAuthName ← strdup p.ilTgaAuthName
  let ilTgaAuthComment ← strdup p.ilTgaAuthComment
  let ilPngAuthName ← strdup p.ilPngAuthName
  let ilPngTitle ← strdup p.ilPngTitle
  let ilPngDescription ← strdup p.ilPngDescription
  let ilTifDescription ← strdup p.ilTifDescription
  let ilTifHostComputer ← strdup p.ilTifHostComputer
  let ilTifDocumentName ← strdup p.ilTifDocumentName
  let ilTifAuthName ← strdup p.ilTifAuthName
  let ilCHeader ← strdup p.ilCHeader
  pure { a with
      ilTgaCreateStamp := p.ilTgaCreateStamp, ilJpgQuality := p.ilJpgQuality,
      ilPngInterlace := p.ilPngInterlace, ilTgaRle := p.ilTgaRle, ilBmpRle := p.ilBmpRle,
      ilSgiRle := p.ilSgiRle, ilJpgFormat := p.ilJpgFormat, ilDxtcFormat := p.ilDxtcFormat,
      ilPcdPicNum := p.ilPcdPicNum, ilPngAlphaIndex := p.ilPngAlphaIndex,
      ilTgaId := ilTgaId, ilTgaAuthName := ilTgaAuthName, ilTgaAuthComment := ilTgaAuthComment, ilPngAuthName := ilPngAuthName, ilPngTitle := ilPngTitle, ilPngDescription := ilPngDescription,
      ilTifDescription := ilTifDescription, ilTifHostComputer := ilTifHostComputer, ilTifDocumentName := ilTifDocumentName, ilTifAuthName := ilTifAuthName, ilCHeader := ilCHeader }

/-- Both groups of copies, il_states.cpp:783-861. -/
def pushCopy (p a : Attr) (bits : Nat) : C Attr :=
  if bits &&& IL_FORMAT_SPECIFIC_BIT ≠ 0 then pushSpecific p (pushGroups p a bits)
  else pure (pushGroups p a bits)

/-- `ilPushAttrib`, il_states.cpp:767-864. -/
def ilPushAttrib (s : Sys) (bits : Nat) : C Sys :=
  if s.pos ≥ stackMax - 1 then
    pure (setErr { s with pos := stackMax - 1 } IL_STACK_OVERFLOW)
  else do
    let s ← ilDefaultStates { s with pos := s.pos + 1 }
    let p ← rd s.stack (s.pos - 1)
    let a ← rd s.stack s.pos
    let a ← pushCopy p a bits
    let stack ← wr s.stack s.pos a
    pure { s with stack := stack }

/-- `ilPopAttrib`, il_states.cpp:870-882 (`ilCurrentPos` is unsigned). -/
def ilPopAttrib (s : Sys) : Sys :=
  if s.pos ≤ 0 then setErr { s with pos := 0 } IL_STACK_UNDERFLOW else { s with pos := s.pos - 1 }

/-- `ilHint`, il_states.cpp:886-933. -/
def ilHint (s : Sys) (target mode : Nat) : Sys :=
  if target = IL_MEM_SPEED_HINT then
    if mode = IL_FASTEST then { s with memVsSpeed := mode }
    else if mode = IL_LESS_MEM then { s with memVsSpeed := mode }
    else if mode = IL_DONT_CARE then { s with memVsSpeed := IL_FASTEST }
    else setErr s IL_INVALID_ENUM
  else if target = IL_COMPRESSION_HINT then
    if mode = IL_USE_COMPRESSION then { s with compressHint := mode }
    else if mode = IL_NO_COMPRESSION then { s with compressHint := mode }
    else if mode = IL_DONT_CARE then { s with compressHint := IL_NO_COMPRESSION }
    else setErr s IL_INVALID_ENUM
  else setErr s IL_INVALID_ENUM

/-- `iGetHint`, il_states.cpp:936-948. -/
def iGetHint (s : Sys) (target : Nat) : Nat × Sys :=
  if target = IL_MEM_SPEED_HINT then (s.memVsSpeed, s)
  else if target = IL_COMPRESSION_HINT then (s.compressHint, s)
  else (0, setErr s IL_INTERNAL_ERROR)

/-- The `switch` of `ilSetString`, il_states.cpp:958-1021 (`none` = default case). -/
def setStringSlot (a : Attr) (mode : Nat) (t : String) : Option Attr :=
  if mode = IL_TGA_ID_STRING then some { a with ilTgaId := some t }
  else if mode = IL_TGA_AUTHNAME_STRING then some { a with ilTgaAuthName := some t }
  else if mode = IL_TGA_AUTHCOMMENT_STRING then some { a with ilTgaAuthComment := some t }
  else if mode = IL_PNG_AUTHNAME_STRING then some { a with ilPngAuthName := some t }
  else if mode = IL_PNG_TITLE_STRING then some { a with ilPngTitle := some t }
  else if mode = IL_PNG_DESCRIPTION_STRING then some { a with ilPngDescription := some t }
  else if mode = IL_TIF_DESCRIPTION_STRING then some { a with ilTifDescription := some t }
  else if mode = IL_TIF_HOSTCOMPUTER_STRING then some { a with ilTifHostComputer := some t }
  else if mode = IL_TIF_DOCUMENTNAME_STRING then some { a with ilTifDocumentName := some t }
  else if mode = IL_TIF_AUTHNAME_STRING then some { a with ilTifAuthName := some t }
  else if mode = IL_CHEAD_HEADER_STRING then some { a with ilCHeader := some t }
  else none

/-- `ilSetString`, il_states.cpp:951-1024 (`none` = NULL argument). -/
def ilSetString (s : Sys) (mode : Nat) (str : Option String) : C Sys :=
  match str with
  | none => pure (setErr s IL_INVALID_PARAM)
  | some t => do
    let a ← rd s.stack s.pos
    match setStringSlot a mode t with
    | some a' => do
        let stack ← wr s.stack s.pos a'
        pure { s with stack := stack }
    | none => pure (setErr s IL_INVALID_ENUM)

/-- The cases of `ilSetInteger` (il_states.cpp:1027-1171) that store to the state slot directly: the new slot,
or `none` when the value test of that case fails.  Tests are transcribed as written, including the `||` of
lines 1104, 1128 and 1134. -/
def setSlot (a : Attr) (mode : Nat) (v : Int) : Option (Option Attr) :=
  if mode = IL_KEEP_DXTC_DATA then some (if (v = 0 ∨ v = 1) then some { a with ilKeepDxtcData := toU8 v } else none)
  else if mode = IL_MAX_QUANT_INDICES then some (if (v ≥ 2 ∧ v ≤ 256) then some { a with ilQuantMaxIndexs := toU32 v } else none)
  else if mode = IL_NEU_QUANT_SAMPLE then some (if (v ≥ 1 ∧ v ≤ 30) then some { a with ilNeuSample := toU32 v } else none)
  else if mode = IL_QUANTIZATION_MODE then some (if (v = IL_WU_QUANT ∨ v = IL_NEU_QUANT) then some { a with ilQuantMode := toU32 v } else none)
  else if mode = IL_BMP_RLE then some (if (v = 0 ∨ v = 1) then some { a with ilBmpRle := toU8 v } else none)
  else if mode = IL_DXTC_FORMAT then some (if (v ≥ IL_DXT1 ∨ v ≤ IL_DXT5 ∨ v = IL_DXT1A) then some { a with ilDxtcFormat := toU32 v } else none)
  else if mode = IL_JPG_SAVE_FORMAT then some (if (v = IL_JFIF ∨ v = IL_EXIF) then some { a with ilJpgFormat := toU32 v } else none)
  else if mode = IL_JPG_QUALITY then some (if (v ≥ 0 ∧ v ≤ 99) then some { a with ilJpgQuality := toU32 v } else none)
  else if mode = IL_PNG_INTERLACE then some (if (v = 0 ∨ v = 1) then some { a with ilPngInterlace := toU8 v } else none)
  else if mode = IL_PCD_PICNUM then some (if (v ≥ 0 ∨ v ≤ 2) then some { a with ilPcdPicNum := toU32 v } else none)
  else if mode = IL_PNG_ALPHA_INDEX then some (if (v ≥ -1 ∨ v ≤ 255) then some { a with ilPngAlphaIndex := v } else none)
  else if mode = IL_SGI_RLE then some (if (v = 0 ∨ v = 1) then some { a with ilSgiRle := toU8 v } else none)
  else if mode = IL_TGA_CREATE_STAMP then some (if (v = 0 ∨ v = 1) then some { a with ilTgaCreateStamp := toU8 v } else none)
  else if mode = IL_TGA_RLE then some (if (v = 0 ∨ v = 1) then some { a with ilTgaRle := toU8 v } else none)
  else if mode = IL_VTF_COMP then some (if (v = IL_DXT1 ∨ v = IL_DXT5 ∨ v = IL_DXT3 ∨ v = IL_DXT1A ∨ v = IL_DXT_NO_COMP) then some { a with ilVtfCompression := toU32 v } else none)
  else none

/-- The cases of `ilSetInteger` that store to the current image, il_states.cpp:1066-1093; the flag says
whether the case ends in `return` (`IL_IMAGE_CUBEFLAGS` ends in `break`, line 1094). -/
def setImage (i : Img) (mode : Nat) (v : Int) : Option (Img × Bool) :=
  if mode = IL_IMAGE_DURATION then some ({ i with duration := toU32 v }, true)
  else if mode = IL_IMAGE_OFFX then some ({ i with offX := toU32 v }, true)
  else if mode = IL_IMAGE_OFFY then some ({ i with offY := toU32 v }, true)
  else if mode = IL_IMAGE_CUBEFLAGS then some ({ i with cubeFlags := toU32 v }, false)
  else none

/-- The image-specific modes of `ilSetInteger`, il_states.cpp:1066-1093. -/
def isImageMode (mode : Nat) : Bool :=
  mode = IL_IMAGE_DURATION ∨ mode = IL_IMAGE_OFFX ∨ mode = IL_IMAGE_OFFY ∨ mode = IL_IMAGE_CUBEFLAGS

/-- `ilSetInteger`, il_states.cpp:1027-1171. -/
def ilSetInteger (s : Sys) (mode : Nat) (v : Int) : C Sys := do
  let a ← rd s.stack s.pos
  if mode = IL_FORMAT_MODE then (·.2) <$> ilFormatFunc s (toU32 v)
  else if mode = IL_ORIGIN_MODE then (·.2) <$> ilOriginFunc s (toU32 v)
  else if mode = IL_TYPE_MODE then (·.2) <$> ilTypeFunc s (toU32 v)
  else if isImageMode mode then
    match s.img with
    | none => pure (setErr (setErr s IL_ILLEGAL_OPERATION) IL_INVALID_PARAM)
    | some i =>
      match setImage i mode v with
      | some (i', true) => pure { s with img := some i' }
      | some (i', false) => pure (setErr { s with img := some i' } IL_INVALID_PARAM)
      | none => pure s
  else match setSlot a mode v with
    | some (some a') => do
        let stack ← wr s.stack s.pos a'
        pure { s with stack := stack }
    | some none => pure (setErr s IL_INVALID_PARAM)
    | none => pure (setErr s IL_INVALID_ENUM)

/-- The state after `ilInit` (il_stack.cpp:612-633 calls `ilDefaultStates`); image 0 is bound. -/
def initial (img : Img) : Sys where
  stack := List.replicate stackMax defaults
  pos := 0
  memVsSpeed := IL_FASTEST
  compressHint := IL_USE_COMPRESSION
  errs := []
  img := some img

/-- One call on the state machine.  The functions of il_states.cpp:211-1171. -/
inductive Op where
  | able (mode flag : Nat)
  | setInteger (mode : Nat) (v : Int)
  | origin (mode : Nat)
  | format (mode : Nat)
  | type (mode : Nat)
  | compress (mode : Nat)
  | setString (mode : Nat) (str : Option String)
  | hint (target mode : Nat)
  | push (bits : Nat)
  | pop
  deriving DecidableEq

/-- Effect of one call.  The functions of il_states.cpp:211-1171. -/
def step (s : Sys) : Op → C Sys
  | .able m f => (·.2) <$> ilAble s m f
  | .setInteger m v => ilSetInteger s m v
  | .origin m => (·.2) <$> ilOriginFunc s m
  | .format m => (·.2) <$> ilFormatFunc s m
  | .type m => (·.2) <$> ilTypeFunc s m
  | .compress m => (·.2) <$> ilCompressFunc s m
  | .setString m t => ilSetString s m t
  | .hint t m => pure (ilHint s t m)
  | .push b => ilPushAttrib s b
  | .pop => pure (ilPopAttrib s)

/-- A history of calls.  A history is not in the code. -/
def run (s : Sys) : List Op → C Sys
  | [] => .ok s
  | o :: os => do
      let s ← step s o
      run s os

end DevIL.States
