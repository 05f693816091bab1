import Verif.Model.Stack
import Verif.Model.Canvas
/-! Model of the settings of the utility library: the filter and the placement (ilu_states.cpp), the language of the error texts
(ilu_error.cpp), the region (ilu_region.cpp), and of the functions that make or load an image (ilu_utilities.cpp, ilu_main.cpp). -/
set_option autoImplicit false
namespace DevIL.IluMisc

/-! ### Filter and placement -/

/-- `ILU_FILTER`, ilu.h:44. -/
abbrev ILU_FILTER : Nat := 0x2600
/-- `ILU_PLACEMENT`, ilu.h:66. -/
abbrev ILU_PLACEMENT : Nat := 0x0700
/-- `ILU_NEAREST`, ilu.h:45. -/
abbrev ILU_NEAREST : Nat := 0x2601

/-- `iluFilter` and `iluPlacement`, ilu_states.cpp:67-68, and the error queue, newest first. -/
structure Par where
  filter : Nat
  placement : Nat
  errs : List Nat
  deriving DecidableEq

/-- The initial values, ilu_states.cpp:67-68. -/
def par0 : Par := ⟨ILU_NEAREST, Ilu.ILU_CENTER, []⟩

/-- The filters listed in `iluImageParameter`, ilu_states.cpp:77-86 and ilu.h:45-53. -/
def filters : List Nat := [0x2601, 0x2602, 0x2603, 0x2604, 0x2605, 0x2606, 0x2607, 0x2608, 0x2609]

/-- The placements listed in `iluImageParameter`, ilu_states.cpp:97-102 and ilu.h:67-71. -/
def placements : List Nat := [0x0701, 0x0702, 0x0703, 0x0704, 0x0705]

/-- `iluImageParameter`, ilu_states.cpp:70-116. -/
def iluImageParameter (s : Par) (pname param : Nat) : Par :=
  if pname = ILU_FILTER then
    if filters.contains param then { s with filter := param } else { s with errs := IL_INVALID_ENUM :: s.errs }
  else if pname = ILU_PLACEMENT then
    if placements.contains param then { s with placement := param } else { s with errs := IL_INVALID_ENUM :: s.errs }
  else { s with errs := IL_INVALID_ENUM :: s.errs }

/-- `iluGetInteger` and `iluGetIntegerv`, ilu_states.cpp:39-64. -/
def iluGetInteger (s : Par) (mode : Nat) : Int × Par :=
  if mode = IL_VERSION_NUM then (180, s)
  else if mode = ILU_FILTER then (s.filter, s)
  else (0, { s with errs := IL_INVALID_ENUM :: s.errs })

/-- One call.  The functions of ilu_states.cpp:39-116. -/
inductive POp where
  | param (pname param : Nat)
  | get (mode : Nat)
  deriving DecidableEq

/-- A history of calls.  A history is not in the code. -/
def prun (s : Par) (ops : List POp) : Par :=
  ops.foldl (fun s o => match o with
    | .param a b => iluImageParameter s a b
    | .get m => (iluGetInteger s m).2) s

/-! ### Language -/

/-- The languages that have a header of texts, include/ilu_error/ilu_err-english.h:19-53 and its seven companions. -/
inductive Lang where
  | english | arabic | dutch | french | german | italian | japanese | spanish
  deriving DecidableEq

/-- A text: the language and the place in its array of errors (18 texts), of library errors (7) or of others (2).
include/ilu_error/ilu_err-english.h:19-53 and the headers of the other languages, which have the same shape. -/
inductive Msg where
  | err (l : Lang) (i : Nat)
  | lib (l : Lang) (i : Nat)
  | misc (l : Lang) (i : Nat)
  deriving DecidableEq

/-- `iluErrorStrings...`, the array of a language.  include/ilu_error/ilu_err-english.h:19-38. -/
def errTexts (l : Lang) : List Msg := (List.range 18).map (.err l)
/-- `iluLibErrorStrings...`, the array of a language.  include/ilu_error/ilu_err-english.h:40-48. -/
def libTexts (l : Lang) : List Msg := (List.range 7).map (.lib l)
/-- `iluMiscErrorStrings...`, the array of a language.  include/ilu_error/ilu_err-english.h:50-53. -/
def miscTexts (l : Lang) : List Msg := (List.range 2).map (.misc l)

/-- `iluErrorStrings`, ilu_error.cpp:30-39. -/
def iluErrorStrings : List Lang := [.english, .arabic, .dutch, .french, .japanese, .spanish, .german, .italian]
/-- `iluLibErrorStrings`, ilu_error.cpp:41-50. -/
def iluLibErrorStrings : List Lang := [.english, .arabic, .dutch, .french, .japanese, .spanish, .german, .italian]
/-- `iluMiscErrorStrings`, ilu_error.cpp:52-61. -/
def iluMiscErrorStrings : List Lang := [.english, .arabic, .dutch, .french, .japanese, .spanish, .german, .italian]

/-- `iluErrors`, `iluLibErrors`, `iluMiscErrors`, ilu_error.cpp:25-27: NULL before the first `iluSetLanguage`. -/
structure Txt where
  errors : Option Lang
  libErrors : Option Lang
  miscErrors : Option Lang
  errs : List Nat
  deriving DecidableEq

/-- The initial values, ilu_error.cpp:25-27. -/
def txt0 : Txt := ⟨none, none, none, []⟩

/-- `iluSetLanguage`, ilu_error.cpp:84-106; `ILU_ENGLISH` to `ILU_ITALIAN` are 0x800 to 0x807 (ilu.h:79-86). -/
def iluSetLanguage (s : Txt) (language : Nat) : C (Bool × Txt) :=
  if [0x0800, 0x0801, 0x0802, 0x0803, 0x0804, 0x0805, 0x0806, 0x0807].contains language then do
    let a ← rd iluErrorStrings (language - 0x0800)
    let b ← rd iluLibErrorStrings (language - 0x0800)
    let c ← rd iluMiscErrorStrings (language - 0x0800)
    pure (true, { s with errors := some a, libErrors := some b, miscErrors := some c })
  else pure (false, { s with errs := IL_INVALID_ENUM :: s.errs })

/-- `iluInit`, ilu_main.cpp:47-55. -/
def iluInit (s : Txt) : C Txt := do
  let (_, s) ← iluSetLanguage s 0x0800
  pure s

/-- `p[i]` for one of the three pointers.  ilu_error.cpp:64-81. -/
def pick (p : Option Lang) (arr : Lang → List Msg) (i : Nat) : C Msg :=
  match p with
  | none => .error .nullDeref
  | some l => rd (arr l) i

/-- `iluErrorString`, ilu_error.cpp:64-81. -/
def iluErrorString (s : Txt) (e : Nat) : C Msg :=
  if e = IL_NO_ERROR then pick s.miscErrors miscTexts 0
  else if e = IL_UNKNOWN_ERROR then pick s.miscErrors miscTexts 1
  else if e ≥ IL_INVALID_ENUM ∧ e ≤ IL_FILE_READ_ERROR then pick s.errors errTexts (e - IL_INVALID_ENUM)
  else if e ≥ 0x05E1 ∧ e ≤ 0x05E7 then pick s.libErrors libTexts (e - 0x05E1)
  else pick s.miscErrors miscTexts 0

/-- A history of calls to `iluSetLanguage`.  A history is not in the code. -/
def lrun (s : Txt) : List Nat → C Txt
  | [] => .ok s
  | l :: ls => do
      let (_, s) ← iluSetLanguage s l
      lrun s ls

/-- The texts of the English header.  include/ilu_error/ilu_err-english.h:19-53. -/
def english : Msg → Option String
  | .err .english i => ["invalid enumerant", "out of memory", "format not supported yet", "internal error", "invalid value",
      "illegal operation", "illegal file value", "invalid file header", "invalid parameter", "could not open file", "invalid extension",
      "file already exists", "out format equivalent", "stack overflow", "stack underflow", "invalid conversion", "bad dimensions",
      "file read error"][i]?
  | .lib .english i => ["gif library error", "jpeg library error", "png library error", "tiff library error", "mng library error",
      "jp2 library error", "exr library error"][i]?
  | .misc .english i => ["no error", "unknown error"][i]?
  | _ => none

/-! ### Region -/

/-- A block of memory holding points, or freed.  The memory behind ilu_region.cpp:17-18; `F` is the type of the coordinates of an
`ILpointf`. -/
inductive Blk (F : Type) where
  | ints (ps : List (Int × Int))
  | floats (ps : List (F × F))
  | freed

/-- `RegionPointsi`, `RegionPointsf`, `PointNum`, ilu_region.cpp:17-19, the memory and the error queue, newest first. -/
structure Reg (F : Type) where
  heap : List (Blk F)
  pi : Option Nat
  pf : Option Nat
  num : Nat
  errs : List Nat

/-- The initial values, ilu_region.cpp:17-19. -/
def reg0 (F : Type) : Reg F := ⟨[], none, none, 0, []⟩

/-- `ifree`, il_alloc.cpp:96-100. -/
def ifree {F : Type} (h : List (Blk F)) (p : Option Nat) : C (List (Blk F)) :=
  match p with
  | none => .ok h
  | some a => match h[a]? with
    | some .freed => .error .doubleFree
    | some _ => .ok (h.set a .freed)
    | none => .error .oobRead

/-- `iluRegionfv`, ilu_region.cpp:22-43; `none` is a NULL pointer, `n` is the number of points in the array. -/
def iluRegionfv {F : Type} (s : Reg F) (points : Option (List (F × F))) : C (Reg F) :=
  match points with
  | none => do
    let h ← ifree s.heap s.pi
    let h ← ifree h s.pf
    pure { s with heap := h, pf := none, num := 0 }
  | some ps =>
    if ps.length = 0 then do
      let h ← ifree s.heap s.pi
      let h ← ifree h s.pf
      pure { s with heap := h, pf := none, num := 0 }
    else if ps.length < 3 then pure { s with errs := IL_INVALID_PARAM :: s.errs }
    else do
      let h ← ifree s.heap s.pi
      let h ← ifree h s.pf
      pure { s with heap := h ++ [.floats ps], pf := some h.length, num := ps.length }

/-- `iluRegioniv`, ilu_region.cpp:46-67. -/
def iluRegioniv {F : Type} (s : Reg F) (points : Option (List (Int × Int))) : C (Reg F) :=
  match points with
  | none => do
    let h ← ifree s.heap s.pi
    let h ← ifree h s.pf
    pure { s with heap := h, pi := none, num := 0 }
  | some ps =>
    if ps.length = 0 then do
      let h ← ifree s.heap s.pi
      let h ← ifree h s.pf
      pure { s with heap := h, pi := none, num := 0 }
    else if ps.length < 3 then pure { s with errs := IL_INVALID_PARAM :: s.errs }
    else do
      let h ← ifree s.heap s.pi
      let h ← ifree h s.pf
      pure { s with heap := h ++ [.ints ps], pi := some h.length, num := ps.length }

/-- Reading the points through `RegionPointsf`, ilu_region.cpp:242-246. -/
def readF {F : Type} (h : List (Blk F)) (a : Nat) : C (List (F × F)) :=
  match h[a]? with
  | some (.floats ps) => .ok ps
  | some .freed => .error .useAfterFree
  | _ => .error .oobRead

/-- Reading the points through `RegionPointsi`, ilu_region.cpp:247. -/
def readI {F : Type} (h : List (Blk F)) (a : Nat) : C (List (Int × Int)) :=
  match h[a]? with
  | some (.ints ps) => .ok ps
  | some .freed => .error .useAfterFree
  | _ => .error .oobRead

/-- The accesses `edges[lower.y]` of `BuildEdgeList` and `MakeEdgeRec`, ilu_region.cpp:114-151: `v1` is the point before the first of the
list.  The lists of edges are not modelled. -/
def buildEdges (height : Nat) : Int × Int → List (Int × Int) → C Unit
  | _, [] => .ok ()
  | v1, v2 :: ps =>
    if v1.2 ≠ v2.2 ∧ ¬(0 ≤ min v1.2 v2.2 ∧ min v1.2 v2.2 < height) then .error .oobRead
    else buildEdges height v2 ps

/-- `iScanFill`, ilu_region.cpp:226-305, as far as the points and the array of edge lists: the polygon the mask is made from, or `none` when NULL
is returned.  `conv w x` is `(ILuint)(w * x)` (lines 244-245).  The mask itself is not modelled (lines 255-273). -/
def iScanFill {F : Type} (conv : Nat → F → Int) (s : Reg F) (width height : Nat) : C (Option (List (Int × Int)) × Reg F) :=
  if (s.pi = none ∧ s.pf = none) ∨ s.num = 0 then pure (none, s)
  else match s.pf with
    | some a => do
      let fs ← readF s.heap a
      let ps := fs.map (fun p => (conv width p.1, conv height p.2))
      -- the block of `RegionPointsi` made on line 237 is freed again on lines 285-288 or 293-296
      let s := { s with pi := none }
      if ps.any (fun p => p.1 ≥ width || p.2 ≥ height) then pure (none, s)
      else do
        buildEdges height (ps.getLastD (0, 0)) ps
        pure (some ps, s)
    | none => match s.pi with
      | none => .error .nullDeref
      | some a => do
        let ps ← readI s.heap a
        if ps.any (fun p => p.1 ≥ width || p.2 ≥ height) then pure (none, s)
        else do
          buildEdges height (ps.getLastD (0, 0)) ps
          pure (some ps, s)

/-- One call: setting the region, or an operation that uses it on an image of the given size.  ilu_region.cpp:22-305. -/
inductive ROp (F : Type) where
  | fv (points : Option (List (F × F)))
  | iv (points : Option (List (Int × Int)))
  | use (width height : Nat)

/-- Effect of one call.  ilu_region.cpp:22-305. -/
def rstep {F : Type} (conv : Nat → F → Int) (s : Reg F) : ROp F → C (Reg F)
  | .fv p => iluRegionfv s p
  | .iv p => iluRegioniv s p
  | .use w h => (·.2) <$> iScanFill conv s w h

/-- A history of calls.  A history is not in the code. -/
def rrun {F : Type} (conv : Nat → F → Int) (s : Reg F) : List (ROp F) → C (Reg F)
  | [] => .ok s
  | o :: os => do
      let s ← rstep conv s o
      rrun conv s os

/-! ### Making and loading an image -/

/-- `iluGenImage`, ilu_utilities.cpp:24-30. -/
def iluGenImage (s : Stack.Sys) : C (Nat × Stack.Sys) := do
  let (ns, s) ← Stack.ilGenImages s 1
  let id ← rd ns 0
  let s ← Stack.ilBindImage s id
  pure (id, s)

/-- `iluDeleteImage`, ilu_utilities.cpp:17-21. -/
def iluDeleteImage (s : Stack.Sys) (id : Nat) : C Stack.Sys := Stack.ilDeleteImages s [id]

/-- `iluLoadImage`, ilu_main.cpp:59-70; `file` is what `ilLoadImage` would store in the bound image, `none` when it fails. -/
def iluLoadImage (s : Stack.Sys) (file : Option Nat) : C (Nat × Stack.Sys) := do
  let (ns, s) ← Stack.ilGenImages s 1
  let id ← rd ns 0
  if id = 0 then pure (0, s)
  else match file with
    | none => do
      let s ← Stack.ilDeleteImages s [id]
      pure (0, s)
    | some v => do
      let s ← Stack.writeCur s v
      pure (id, s)

end DevIL.IluMisc
