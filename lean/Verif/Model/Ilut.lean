import Verif.Model.States
/-! Model of the state machine of the utility toolkit: src-ILUT/src/ilut_states.cpp and src-ILUT/include/ilut_states.h. -/
set_option autoImplicit false
namespace DevIL.Ilut
open DevIL.States (toU32 toU8 toI32)

/-- `ILUT_PALETTE_MODE`, ilut.h:56. -/
abbrev ILUT_PALETTE_MODE : Nat := 0x0600
/-- `ILUT_OPENGL_CONV`, ilut.h:57. -/
abbrev ILUT_OPENGL_CONV : Nat := 0x0610
/-- `ILUT_D3D_MIPLEVELS`, ilut.h:58. -/
abbrev ILUT_D3D_MIPLEVELS : Nat := 0x0620
/-- `ILUT_MAXTEX_WIDTH`, ilut.h:59. -/
abbrev ILUT_MAXTEX_WIDTH : Nat := 0x0630
/-- `ILUT_MAXTEX_HEIGHT`, ilut.h:60. -/
abbrev ILUT_MAXTEX_HEIGHT : Nat := 0x0631
/-- `ILUT_MAXTEX_DEPTH`, ilut.h:61. -/
abbrev ILUT_MAXTEX_DEPTH : Nat := 0x0632
/-- `ILUT_GL_USE_S3TC`, ilut.h:62. -/
abbrev ILUT_GL_USE_S3TC : Nat := 0x0634
/-- `ILUT_GL_GEN_S3TC`, ilut.h:64. -/
abbrev ILUT_GL_GEN_S3TC : Nat := 0x0635
/-- `ILUT_FORCE_INTEGER_FORMAT`, ilut.h:71. -/
abbrev ILUT_FORCE_INTEGER_FORMAT : Nat := 0x0636
/-- `ILUT_S3TC_FORMAT`, ilut.h:66. -/
abbrev ILUT_S3TC_FORMAT : Nat := 0x0705
/-- `ILUT_D3D_POOL`, ilut.h:68. -/
abbrev ILUT_D3D_POOL : Nat := 0x0706
/-- `ILUT_D3D_ALPHA_KEY_COLOR`, ilut.h:69. -/
abbrev ILUT_D3D_ALPHA_KEY_COLOR : Nat := 0x0707
/-- `ILUT_GL_AUTODETECT_TEXTURE_TARGET`, ilut.h:76. -/
abbrev ILUT_GL_AUTODETECT_TEXTURE_TARGET : Nat := 0x0807
/-- `ILUT_VERSION_NUM`, ilut.h:80 and il.h:236. -/
abbrev ILUT_VERSION_NUM : Nat := IL_VERSION_NUM
/-- `ILUT_STACK_OVERFLOW`, ilut.h:49. -/
abbrev ILUT_STACK_OVERFLOW : Nat := 0x050E
/-- `ILUT_STACK_UNDERFLOW`, ilut.h:50. -/
abbrev ILUT_STACK_UNDERFLOW : Nat := 0x050F
/-- `ILUT_ATTRIB_STACK_MAX`, ilut_states.h:22. -/
abbrev stackMax : Nat := 32

/-- `ILUT_STATES`, ilut_states.h:29-51. -/
structure Attr where
  ilutUsePalettes : Nat
  ilutOglConv : Nat
  ilutForceIntegerFormat : Nat
  ilutDXTCFormat : Nat
  ilutUseS3TC : Nat
  ilutGenS3TC : Nat
  ilutAutodetectTextureTarget : Nat
  maxTexW : Int
  maxTexH : Int
  maxTexD : Int
  d3dMipLevels : Nat
  d3dPool : Nat
  d3dAlphaKeyColor : Int
  deriving DecidableEq

/-- `ilutStates`, `ilutCurrentPos` (ilut_states.h:24, 53) and the error queue, newest first. -/
structure Sys where
  stack : List Attr
  pos : Nat
  errs : List Nat
  deriving DecidableEq

/-- `ilutDefaultStates`, ilut_states.cpp:27-42. -/
def defaults : Attr where
  ilutUsePalettes := 0
  ilutForceIntegerFormat := 0
  ilutOglConv := 0
  ilutDXTCFormat := 0
  ilutUseS3TC := 0
  ilutGenS3TC := 0
  ilutAutodetectTextureTarget := 0
  maxTexW := 256
  maxTexH := 256
  maxTexD := 1
  d3dMipLevels := 0
  d3dPool := 0
  d3dAlphaKeyColor := -1

/-- What a global variable holds before anything is stored into it, ilut_states.h:53. -/
def zeros : Attr := ⟨0, 0, 0, 0, 0, 0, 0, 0, 0, 0, 0, 0, 0⟩

/-- `ilSetError`, as `Model/Error.lean`; the queue is not bounded here. il_error.cpp:23-52. -/
def setErr (s : Sys) (e : Nat) : Sys := { s with errs := e :: s.errs }

/-- The switch of `ilutAble`, ilut_states.cpp:83-116. -/
def ableSlot (a : Attr) (mode flag : Nat) : Option Attr :=
  if mode = ILUT_PALETTE_MODE then some { a with ilutUsePalettes := flag }
  else if mode = ILUT_FORCE_INTEGER_FORMAT then some { a with ilutForceIntegerFormat := flag }
  else if mode = ILUT_OPENGL_CONV then some { a with ilutOglConv := flag }
  else if mode = ILUT_GL_USE_S3TC then some { a with ilutUseS3TC := flag }
  else if mode = ILUT_GL_GEN_S3TC then some { a with ilutGenS3TC := flag }
  else if mode = ILUT_GL_AUTODETECT_TEXTURE_TARGET then some { a with ilutAutodetectTextureTarget := flag }
  else none

/-- `ilutAble`, ilut_states.cpp:81-116. -/
def ilutAble (s : Sys) (mode flag : Nat) : C (Bool × Sys) := do
  let a ← rd s.stack s.pos
  match ableSlot a mode flag with
  | some a => do
    let st ← wr s.stack s.pos a
    pure (true, { s with stack := st })
  | none => pure (false, setErr s IL_INVALID_ENUM)

/-- `ilutEnable`, ilut_states.cpp:69-72. -/
def ilutEnable (s : Sys) (mode : Nat) : C (Bool × Sys) := ilutAble s mode 1
/-- `ilutDisable`, ilut_states.cpp:75-78. -/
def ilutDisable (s : Sys) (mode : Nat) : C (Bool × Sys) := ilutAble s mode 0

/-- The switch of `ilutIsEnabled` and of `ilutGetBooleanv`, ilut_states.cpp:119-147, 156-188. -/
def enabledSlot (a : Attr) (mode : Nat) : Option Nat :=
  if mode = ILUT_PALETTE_MODE then some a.ilutUsePalettes
  else if mode = ILUT_FORCE_INTEGER_FORMAT then some a.ilutForceIntegerFormat
  else if mode = ILUT_OPENGL_CONV then some a.ilutOglConv
  else if mode = ILUT_GL_USE_S3TC then some a.ilutUseS3TC
  else if mode = ILUT_GL_GEN_S3TC then some a.ilutGenS3TC
  else if mode = ILUT_GL_AUTODETECT_TEXTURE_TARGET then some a.ilutAutodetectTextureTarget
  else none

/-- `ilutIsEnabled`, ilut_states.cpp:119-147. -/
def ilutIsEnabled (s : Sys) (mode : Nat) : C (Nat × Sys) := do
  let a ← rd s.stack s.pos
  match enabledSlot a mode with
  | some v => pure (v, s)
  | none => pure (0, setErr s IL_INVALID_ENUM)

/-- `ilutIsDisabled`, ilut_states.cpp:150-153. -/
def ilutIsDisabled (s : Sys) (mode : Nat) : C (Nat × Sys) := do
  let (v, s) ← ilutIsEnabled s mode
  pure (if v = 0 then 1 else 0, s)

/-- `ilutGetBoolean` and `ilutGetBooleanv`, ilut_states.cpp:156-196. -/
def ilutGetBoolean (s : Sys) (mode : Nat) : C (Nat × Sys) := do
  let a ← rd s.stack s.pos
  match enabledSlot a mode with
  | some v => pure (v, s)
  | none => pure (0, setErr s IL_INVALID_ENUM)

/-- The switch of `ilutGetIntegerv`, ilut_states.cpp:199-253.  Line 231: the value for `ILUT_GL_GEN_S3TC` is `ilutUseS3TC`. -/
def getSlot (a : Attr) (mode : Nat) : Option Int :=
  if mode = ILUT_MAXTEX_WIDTH then some a.maxTexW
  else if mode = ILUT_MAXTEX_HEIGHT then some a.maxTexH
  else if mode = ILUT_MAXTEX_DEPTH then some a.maxTexD
  else if mode = ILUT_VERSION_NUM then some 180
  else if mode = ILUT_PALETTE_MODE then some a.ilutUsePalettes
  else if mode = ILUT_FORCE_INTEGER_FORMAT then some a.ilutForceIntegerFormat
  else if mode = ILUT_OPENGL_CONV then some a.ilutOglConv
  else if mode = ILUT_GL_USE_S3TC then some a.ilutUseS3TC
  else if mode = ILUT_GL_GEN_S3TC then some a.ilutUseS3TC
  else if mode = ILUT_S3TC_FORMAT then some (toI32 a.ilutDXTCFormat)
  else if mode = ILUT_GL_AUTODETECT_TEXTURE_TARGET then some a.ilutAutodetectTextureTarget
  else if mode = ILUT_D3D_MIPLEVELS then some (toI32 a.d3dMipLevels)
  else if mode = ILUT_D3D_ALPHA_KEY_COLOR then some a.d3dAlphaKeyColor
  else if mode = ILUT_D3D_POOL then some (toI32 a.d3dPool)
  else none

/-- `ilutGetInteger` and `ilutGetIntegerv`, ilut_states.cpp:199-261. -/
def ilutGetInteger (s : Sys) (mode : Nat) : C (Int × Sys) := do
  let a ← rd s.stack s.pos
  match getSlot a mode with
  | some v => pure (v, s)
  | none => pure (0, setErr s IL_INVALID_ENUM)

/-- The switch of `ilutSetInteger`, ilut_states.cpp:264-340: `some (some a)` when a value is stored, `some none` after `break`, `none` for
`default`.  The case `ILUT_S3TC_FORMAT` goes on into `ILUT_MAXTEX_WIDTH` when the value is not accepted (lines 268-279). -/
def setSlot (a : Attr) (mode : Nat) (v : Int) : Option (Option Attr) :=
  if mode = ILUT_S3TC_FORMAT then
    if (IL_DXT1 : Int) ≤ v ∧ v ≤ (IL_DXT5 : Int) then some (some { a with ilutDXTCFormat := toU32 v })
    else if 1 ≤ v then some (some { a with maxTexW := v })
    else some none
  else if mode = ILUT_MAXTEX_WIDTH then some (if 1 ≤ v then some { a with maxTexW := v } else none)
  else if mode = ILUT_MAXTEX_HEIGHT then some (if 1 ≤ v then some { a with maxTexH := v } else none)
  else if mode = ILUT_MAXTEX_DEPTH then some (if 1 ≤ v then some { a with maxTexD := v } else none)
  else if mode = ILUT_GL_USE_S3TC then some (if v = 1 ∨ v = 0 then some { a with ilutUseS3TC := toU8 v } else none)
  else if mode = ILUT_GL_GEN_S3TC then some (if v = 1 ∨ v = 0 then some { a with ilutGenS3TC := toU8 v } else none)
  else if mode = ILUT_GL_AUTODETECT_TEXTURE_TARGET then
    some (if v = 1 ∨ v = 0 then some { a with ilutAutodetectTextureTarget := toU8 v } else none)
  else if mode = ILUT_D3D_MIPLEVELS then some (if 0 ≤ v then some { a with d3dMipLevels := toU32 v } else none)
  else if mode = ILUT_D3D_ALPHA_KEY_COLOR then some (some { a with d3dAlphaKeyColor := v })
  else if mode = ILUT_D3D_POOL then some (if 0 ≤ v ∧ v ≤ 2 then some { a with d3dPool := toU32 v } else none)
  else none

/-- `ilutSetInteger`, ilut_states.cpp:264-340. -/
def ilutSetInteger (s : Sys) (mode : Nat) (v : Int) : C Sys := do
  let a ← rd s.stack s.pos
  match setSlot a mode v with
  | some (some a) => do
    let st ← wr s.stack s.pos a
    pure { s with stack := st }
  | some none => pure (setErr s IL_INVALID_PARAM)
  | none => pure (setErr (setErr s IL_INVALID_ENUM) IL_INVALID_PARAM)

/-- `ilutD3D8MipFunc`, ilut_states.cpp:45-49. -/
def ilutD3D8MipFunc (s : Sys) (n : Nat) : C Sys := do
  let a ← rd s.stack s.pos
  let st ← wr s.stack s.pos { a with d3dMipLevels := n }
  pure { s with stack := st }

/-- What `ilutPushAttrib` copies from the level below, ilut_states.cpp:357-364. -/
def copyBits (bits : Nat) (frm to : Attr) : Attr :=
  let to := if bits &&& 1 ≠ 0 then { to with ilutUsePalettes := frm.ilutUsePalettes, ilutOglConv := frm.ilutOglConv } else to
  if bits &&& 2 ≠ 0 then { to with d3dMipLevels := frm.d3dMipLevels, d3dAlphaKeyColor := frm.d3dAlphaKeyColor } else to

/-- `ilutPushAttrib`, ilut_states.cpp:343-367. -/
def ilutPushAttrib (s : Sys) (bits : Nat) : C Sys :=
  if s.pos ≥ stackMax - 1 then pure (setErr { s with pos := stackMax - 1 } ILUT_STACK_OVERFLOW)
  else do
    let frm ← rd s.stack s.pos
    let to ← rd s.stack (s.pos + 1)
    let st ← wr s.stack (s.pos + 1) (copyBits bits frm to)
    pure { s with stack := st, pos := s.pos + 1 }

/-- `ilutPopAttrib`, ilut_states.cpp:370-382. -/
def ilutPopAttrib (s : Sys) : Sys :=
  if s.pos = 0 then setErr { s with pos := 0 } ILUT_STACK_UNDERFLOW
  else { s with pos := s.pos - 1 }

/-- The part of `ilutInit` that concerns the state, ilut_main.cpp:59-76. -/
def ilutInit (s : Sys) : C Sys := do
  let st ← wr s.stack s.pos defaults
  pure { s with stack := st }

/-- The state when the program begins, ilut_states.h:24, 53. -/
def start : Sys := ⟨List.replicate stackMax zeros, 0, []⟩

/-- One call.  The functions of ilut_states.cpp:27-382. -/
inductive Op where
  | init
  | able (mode flag : Nat)
  | setInteger (mode : Nat) (v : Int)
  | mipFunc (n : Nat)
  | push (bits : Nat)
  | pop
  | isEnabled (mode : Nat)
  | getInteger (mode : Nat)
  deriving DecidableEq

/-- Effect of one call.  The functions of ilut_states.cpp:27-382. -/
def step (s : Sys) : Op → C Sys
  | .init => ilutInit s
  | .able m f => (·.2) <$> ilutAble s m f
  | .setInteger m v => ilutSetInteger s m v
  | .mipFunc n => ilutD3D8MipFunc s n
  | .push b => ilutPushAttrib s b
  | .pop => pure (ilutPopAttrib s)
  | .isEnabled m => (·.2) <$> ilutIsEnabled s m
  | .getInteger m => (·.2) <$> ilutGetInteger s m

/-- A history of calls.  A history is not in the code. -/
def run (s : Sys) : List Op → C Sys
  | [] => .ok s
  | o :: os => do
      let s ← step s o
      run s os

end DevIL.Ilut
