import Verif.Core
/-! Model of file types by extension (DevIL/src-IL/src/il_io.cpp, il_internal.cpp) and of the registered handlers
(DevIL/src-IL/src/il_register.cpp).  A string is the list of its bytes without the final zero, none of which is zero. -/
set_option autoImplicit false
namespace DevIL.Register

/-! File types, include/IL/il.h:191-245. -/
/-- include/IL/il.h:191. -/
abbrev IL_TYPE_UNKNOWN : Nat := 0
/-- include/IL/il.h:192. -/
abbrev IL_BMP : Nat := 0x0420
/-- include/IL/il.h:193. -/
abbrev IL_CUT : Nat := 0x0421
/-- include/IL/il.h:196. -/
abbrev IL_ICO : Nat := 0x0424
/-- include/IL/il.h:197. -/
abbrev IL_JPG : Nat := 0x0425
/-- include/IL/il.h:199. -/
abbrev IL_ILBM : Nat := 0x0426
/-- include/IL/il.h:200. -/
abbrev IL_PCD : Nat := 0x0427
/-- include/IL/il.h:201. -/
abbrev IL_PCX : Nat := 0x0428
/-- include/IL/il.h:202. -/
abbrev IL_PIC : Nat := 0x0429
/-- include/IL/il.h:203. -/
abbrev IL_PNG : Nat := 0x042A
/-- include/IL/il.h:204. -/
abbrev IL_PNM : Nat := 0x042B
/-- include/IL/il.h:205. -/
abbrev IL_SGI : Nat := 0x042C
/-- include/IL/il.h:206. -/
abbrev IL_TGA : Nat := 0x042D
/-- include/IL/il.h:207. -/
abbrev IL_TIF : Nat := 0x042E
/-- include/IL/il.h:210. -/
abbrev IL_MDL : Nat := 0x0431
/-- include/IL/il.h:211. -/
abbrev IL_WAL : Nat := 0x0432
/-- include/IL/il.h:212. -/
abbrev IL_LIF : Nat := 0x0434
/-- include/IL/il.h:214. -/
abbrev IL_JNG : Nat := 0x0435
/-- include/IL/il.h:213. -/
abbrev IL_MNG : Nat := 0x0435
/-- include/IL/il.h:215. -/
abbrev IL_GIF : Nat := 0x0436
/-- include/IL/il.h:216. -/
abbrev IL_DDS : Nat := 0x0437
/-- include/IL/il.h:218. -/
abbrev IL_PSD : Nat := 0x0439
/-- include/IL/il.h:220. -/
abbrev IL_PSP : Nat := 0x043B
/-- include/IL/il.h:221. -/
abbrev IL_PIX : Nat := 0x043C
/-- include/IL/il.h:222. -/
abbrev IL_PXR : Nat := 0x043D
/-- include/IL/il.h:223. -/
abbrev IL_XPM : Nat := 0x043E
/-- include/IL/il.h:224. -/
abbrev IL_HDR : Nat := 0x043F
/-- include/IL/il.h:225. -/
abbrev IL_ICNS : Nat := 0x0440
/-- include/IL/il.h:226. -/
abbrev IL_JP2 : Nat := 0x0441
/-- include/IL/il.h:227. -/
abbrev IL_EXR : Nat := 0x0442
/-- include/IL/il.h:228. -/
abbrev IL_WDP : Nat := 0x0443
/-- include/IL/il.h:229. -/
abbrev IL_VTF : Nat := 0x0444
/-- include/IL/il.h:230. -/
abbrev IL_WBMP : Nat := 0x0445
/-- include/IL/il.h:231. -/
abbrev IL_SUN : Nat := 0x0446
/-- include/IL/il.h:232. -/
abbrev IL_IFF : Nat := 0x0447
/-- include/IL/il.h:233. -/
abbrev IL_TPL : Nat := 0x0448
/-- include/IL/il.h:234. -/
abbrev IL_FITS : Nat := 0x0449
/-- include/IL/il.h:235. -/
abbrev IL_DICOM : Nat := 0x044A
/-- include/IL/il.h:236. -/
abbrev IL_IWI : Nat := 0x044B
/-- include/IL/il.h:237. -/
abbrev IL_BLP : Nat := 0x044C
/-- include/IL/il.h:238. -/
abbrev IL_FTX : Nat := 0x044D
/-- include/IL/il.h:239. -/
abbrev IL_ROT : Nat := 0x044E
/-- include/IL/il.h:240. -/
abbrev IL_TEXTURE : Nat := 0x044F
/-- include/IL/il.h:241. -/
abbrev IL_DPX : Nat := 0x0450
/-- include/IL/il.h:242. -/
abbrev IL_UTX : Nat := 0x0451
/-- include/IL/il.h:243. -/
abbrev IL_MP3 : Nat := 0x0452
/-- include/IL/il.h:244. -/
abbrev IL_KTX : Nat := 0x0453
/-- include/IL/il.h:245. -/
abbrev IL_SCITEX : Nat := 0x0454

/-- A string constant.  il_register.cpp:30-120. -/
def txt (s : List Char) : List UInt8 := s.map fun c => UInt8.ofNat c.toNat

/-- What `strcasecmp` does to a letter, il_internal.cpp:25-28 ("C" locale). -/
def lower (b : UInt8) : UInt8 := if 65 ≤ b.toNat ∧ b.toNat ≤ 90 then b + 32 else b

/-- `!iStrCmp(a, b)`, il_internal.cpp:58-61: `stricmp` (`strcasecmp`) finds no difference. -/
def sameStr (a b : List UInt8) : Bool := a.map lower == b.map lower

/-- The loop of `iGetExtension` and `iCheckExtension`, il_internal.cpp:119-125 and 149-155, from position `i` down: the position of the period. -/
def scanDot (buf : List UInt8) : Nat → C (Option Nat)
  | 0 => do
    let b ← rd buf 0
    pure (if b = 46 then some 0 else none)
  | i + 1 => do
    let b ← rd buf (i + 1)
    if b = 46 then pure (some (i + 1)) else scanDot buf i

/-- `iGetExtension`, il_internal.cpp:138-161; `none` is NULL. -/
def iGetExtension (name : List UInt8) : C (Option (List UInt8)) :=
  if name.length = 0 then pure none
  else do
    match ← scanDot (name ++ [0]) name.length with
    | none => pure none
    | some p => pure (some (name.drop (p + 1)))

/-- `iCheckExtension`, il_internal.cpp:108-135. -/
def iCheckExtension (name ext : List UInt8) : C Bool :=
  if name.length = 0 ∨ ext.length = 0 then pure false
  else do
    match ← scanDot (name ++ [0]) name.length with
    | none => pure false
    | some p => pure (sameStr (name.drop (p + 1)) ext)

/-- The comparisons of `ilTypeFromExt`, il_io.cpp:61-167, in order. -/
def extTable : List (List (List Char) × Nat) := [
  ([['t', 'g', 'a'], ['v', 'd', 'a'], ['i', 'c', 'b'], ['v', 's', 't']], IL_TGA),
  ([['j', 'p', 'g'], ['j', 'p', 'e'], ['j', 'p', 'e', 'g'], ['j', 'i', 'f'], ['j', 'f', 'i', 'f']], IL_JPG),
  ([['j', 'p', '2'], ['j', 'p', 'x'], ['j', '2', 'k'], ['j', '2', 'c']], IL_JP2),
  ([['d', 'd', 's']], IL_DDS),
  ([['p', 'n', 'g']], IL_PNG),
  ([['b', 'm', 'p'], ['d', 'i', 'b']], IL_BMP),
  ([['g', 'i', 'f']], IL_GIF),
  ([['b', 'l', 'p']], IL_BLP),
  ([['c', 'u', 't']], IL_CUT),
  ([['c', 'h'], ['c', 't'], ['s', 'c', 't']], IL_SCITEX),
  ([['d', 'c', 'm'], ['d', 'i', 'c', 'o', 'm']], IL_DICOM),
  ([['d', 'p', 'x']], IL_DPX),
  ([['e', 'x', 'r']], IL_EXR),
  ([['f', 'i', 't'], ['f', 'i', 't', 's']], IL_FITS),
  ([['f', 't', 'x']], IL_FTX),
  ([['h', 'd', 'r']], IL_HDR),
  ([['i', 'f', 'f']], IL_IFF),
  ([['i', 'l', 'b', 'm'], ['l', 'b', 'm'], ['h', 'a', 'm']], IL_ILBM),
  ([['i', 'c', 'o'], ['c', 'u', 'r']], IL_ICO),
  ([['i', 'c', 'n', 's']], IL_ICNS),
  ([['i', 'w', 'i']], IL_IWI),
  ([['i', 'w', 'i']], IL_IWI),
  ([['j', 'n', 'g']], IL_JNG),
  ([['k', 't', 'x']], IL_KTX),
  ([['l', 'i', 'f']], IL_LIF),
  ([['m', 'd', 'l']], IL_MDL),
  ([['m', 'n', 'g'], ['j', 'n', 'g']], IL_MNG),
  ([['m', 'p', '3']], IL_MP3),
  ([['p', 'c', 'd']], IL_PCD),
  ([['p', 'c', 'x']], IL_PCX),
  ([['p', 'i', 'c']], IL_PIC),
  ([['p', 'i', 'x']], IL_PIX),
  ([['p', 'b', 'm'], ['p', 'g', 'm'], ['p', 'n', 'm'], ['p', 'p', 'm'], ['p', 'a', 'm']], IL_PNM),
  ([['p', 's', 'd'], ['p', 'd', 'd']], IL_PSD),
  ([['p', 's', 'p']], IL_PSP),
  ([['p', 'x', 'r']], IL_PXR),
  ([['r', 'o', 't']], IL_ROT),
  ([['s', 'g', 'i'], ['b', 'w'], ['r', 'g', 'b'], ['r', 'g', 'b', 'a']], IL_SGI),
  ([['s', 'u', 'n'], ['r', 'a', 's'], ['r', 's'], ['i', 'm', '1'], ['i', 'm', '8'], ['i', 'm', '2', '4'], ['i', 'm', '3', '2']], IL_SUN),
  ([['t', 'e', 'x', 't', 'u', 'r', 'e']], IL_TEXTURE),
  ([['t', 'i', 'f'], ['t', 'i', 'f', 'f']], IL_TIF),
  ([['t', 'p', 'l']], IL_TPL),
  ([['u', 't', 'x']], IL_UTX),
  ([['v', 't', 'f']], IL_VTF),
  ([['w', 'a', 'l']], IL_WAL),
  ([['w', 'b', 'm', 'p']], IL_WBMP),
  ([['w', 'd', 'p'], ['h', 'd', 'p']], IL_WDP),
  ([['x', 'p', 'm']], IL_XPM)]

/-- `ilTypeFromExt`, il_io.cpp:45-170. -/
def ilTypeFromExt (name : List UInt8) : C Nat :=
  if name.length < 1 then pure IL_TYPE_UNKNOWN
  else do
    match ← iGetExtension name with
    | none => pure IL_TYPE_UNKNOWN
    | some ext =>
      match extTable.find? fun r => r.1.any fun x => sameStr ext (txt x) with
      | some r => pure r.2
      | none => pure IL_TYPE_UNKNOWN

/-! ### Registered handlers -/

/-- `iFormatL`, il_register.h: an extension and its handler, a number here.  The list stands for the chain from `LoadProcs`.
il_register.h:21-26. -/
abbrev Procs := List (List UInt8 × Nat)

/-- `ilRegisterLoad`, il_register.cpp:26-56, also `ilRegisterSave`, 59-89; allocation succeeds.  The loop compares the nodes after the first. -/
def ilRegisterLoad (procs : Procs) (ext : List UInt8) (f : Nat) : Bool × Procs :=
  match procs with
  | [] => (true, [(ext, f)])
  | h :: t => if t.any fun n => sameStr n.1 ext then (true, h :: t) else (true, (h :: t) ++ [(ext, f)])

/-- `ilRemoveLoad`, il_register.cpp:93-119, also `ilRemoveSave`, 123-149. -/
def ilRemoveLoad (ext : List UInt8) : Procs → Bool × Procs
  | [] => (false, [])
  | n :: t => if sameStr ext n.1 then (true, t) else ((ilRemoveLoad ext t).1, n :: (ilRemoveLoad ext t).2)

/-- `iRegisterLoad`, il_register.cpp:175-200, also `iRegisterSave`, 203-228: the handler called, if any, and the result.  `run f` is what
handler `f` returns; 0 is `IL_NO_ERROR`. -/
def iRegisterLoad (run : Nat → Nat) (procs : Procs) (name : List UInt8) : C (Option Nat × Bool) := do
  match ← iGetExtension name with
  | none => pure (none, false)
  | some ext =>
    match procs.find? fun n => sameStr ext n.1 with
    | none => pure (none, false)
    | some n => pure (some n.2, run n.2 = 0)

end DevIL.Register
