import Verif.Model.Stack
import Verif.Model.Manip
/-! Model of `ilFixImage` and `ilFixCur`, DevIL/src-IL/src/il_convert.cpp:986-1125: what every loader ends with. -/
set_option autoImplicit false
namespace DevIL.Fix
open DevIL.Stack (Link)

/-- The image objects with their links, and the contents of each, by its address.  `iCurImage` is `sys.cur`; the contents are what Stack.Node calls `payload`.
include/IL/devil_internal_exports.h:60-90. -/
structure S where
  sys : Stack.Sys
  pix : Nat → Img

/-- The settings `ilFixCur` looks at, il_convert.cpp:988-1013. -/
structure Settings where
  originSet : Bool
  originMode : Nat
  typeSet : Bool
  typeMode : Nat
  formatSet : Bool
  formatMode : Nat
  convPal : Bool

/-- The chain of images from `p` along a link: `for (SubImage = ...; SubImage; SubImage = SubImage->...)`, il_states.cpp:623-638; `pCurImage = pCurImage->Next`,
il_convert.cpp:407-437.  A chain that does not end is a hang. -/
def chain (l : Link) (h : Stack.Heap) : Nat → Nat → C (List Nat)
  | 0, _ => .error .hang
  | fuel + 1, p => do
    let n ← Stack.load h p
    match l.get n with
    | none => pure [p]
    | some q => do
      let r ← chain l h fuel q
      pure (p :: r)

/-- `ilGetInteger(IL_NUM_IMAGES)` and the like of the current image, il_states.cpp:586-638: the number of images after it. -/
def num (l : Link) (s : S) : C Nat :=
  match s.sys.cur with
  | none => pure 0
  | some c => do
    let r ← chain l s.sys.heap (s.sys.heap.length + 1) c
    pure (r.length - 1)

/-- The images `ps` get the contents `ms`.  il_convert.cpp:418-436. -/
def setAll (pix : Nat → Img) (ps : List Nat) (ms : List Img) (p : Nat) : Img := (ms[ps.idxOf p]?).getD (pix p)

/-- `ilConvertImage`, il_convert.cpp:383-439, on the current image; `conv` is what it does to the images of the `Next` chain (ConvImage.ilConvertImage for images without palette). -/
def convert (conv : Nat → Nat → List Img → C (Bool × List Img)) (df dt : Nat) (s : S) : C (Bool × S) :=
  match s.sys.cur with
  | none => pure (false, s)
  | some c => do
    let ps ← chain .next s.sys.heap (s.sys.heap.length + 1) c
    let (b, ms) ← conv df dt (ps.map s.pix)
    pure (b, { s with pix := setAll s.pix ps ms })

/-- `ilFlipImage` on the current image, il_manip.cpp:268-281. -/
def flip (s : S) (c : Nat) : C S := do
  let m ← Manip.ilFlipImage (s.pix c)
  pure { s with pix := fun p => if p = c then m else s.pix p }

/-- The first part of `ilFixCur`, il_convert.cpp:988-994. -/
def fixOrigin (a : Settings) (s : S) (c : Nat) : C S :=
  if a.originSet ∧ a.originMode ≠ (s.pix c).origin then flip s c else pure s

/-- The second part of `ilFixCur`, il_convert.cpp:996-1002. -/
def fixType (a : Settings) (conv : Nat → Nat → List Img → C (Bool × List Img)) (s : S) (c : Nat) : C (Bool × S) :=
  if a.typeSet ∧ a.typeMode ≠ (s.pix c).type then convert conv (s.pix c).format a.typeMode s else pure (true, s)

/-- The third part of `ilFixCur`, il_convert.cpp:1003-1009. -/
def fixFormat (a : Settings) (conv : Nat → Nat → List Img → C (Bool × List Img)) (s : S) (c : Nat) : C (Bool × S) :=
  if a.formatSet ∧ a.formatMode ≠ (s.pix c).format then convert conv a.formatMode (s.pix c).type s else pure (true, s)

/-- The fourth part of `ilFixCur`, il_convert.cpp:1011-1017. -/
def fixPal (a : Settings) (conv : Nat → Nat → List Img → C (Bool × List Img)) (s : S) (c : Nat) : C (Bool × S) :=
  if (s.pix c).format = IL_COLOUR_INDEX ∧ a.convPal then convert conv IL_BGR IL_UNSIGNED_BYTE s else pure (true, s)

/-- `ilFixCur`, il_convert.cpp:986-1025. -/
def ilFixCur (a : Settings) (conv : Nat → Nat → List Img → C (Bool × List Img)) (s : S) : C (Bool × S) :=
  match s.sys.cur with
  | none => .error .nullDeref
  | some c => do
    let s ← fixOrigin a s c
    let (b, s) ← fixType a conv s c
    if !b then pure (false, s)
    else do
      let (b, s) ← fixFormat a conv s c
      if !b then pure (false, s)
      else fixPal a conv s c

/-- `ilBindImage(ilGetCurName())`, il_convert.cpp:1083 and il_stack.cpp:92-119, 515-520. -/
def rebind (s : S) : C S := do
  let sys ← Stack.ilBindImage s.sys (if s.sys.cur.isNone ∨ s.sys.stack = [] then 0 else s.sys.curName)
  pure { s with sys := sys }

/-- A sequence of `if (!ilActive...(n)) return IL_FALSE;`, il_convert.cpp:1090-1093 and others. -/
def descend : List (Link × Nat) → S → C (Bool × S)
  | [], s => pure (true, s)
  | (l, n) :: rest, s => do
    let (b, sys) ← Stack.ilActive l s.sys n
    if !b then pure (false, { s with sys := sys })
    else descend rest { s with sys := sys }

/-- `ilBindImage(ilGetCurName())` and the selections that follow it.  il_convert.cpp:1083-1085, 1089-1093, 1097-1103, 1107-1115. -/
def select (path : List (Link × Nat)) (s : S) : C (Bool × S) := do
  let s ← rebind s
  descend path s

/-- `for (i = i0; k more times; i++)` with a body that may return `IL_FALSE`.  il_convert.cpp:1082, 1088, 1096, 1106. -/
def forAll : Nat → Nat → (Nat → S → C (Bool × S)) → S → C (Bool × S)
  | 0, _, _, s => pure (true, s)
  | k + 1, i, f, s => do
    let (b, s) ← f i s
    if !b then pure (false, s) else forAll k (i + 1) f s

/-- The innermost loop, il_convert.cpp:1105-1117. -/
def fixMipmaps (a : Settings) (conv : Nat → Nat → List Img → C (Bool × List Img)) (i f k : Nat) (s : S) : C (Bool × S) := do
  let (b, s) ← select [(.next, i), (.face, f), (.layer, k)] s
  if !b then pure (false, s)
  else do
    let n ← num .mip s
    forAll (n + 1) 0 (fun j s => do
      let (b, s) ← select [(.next, i), (.face, f), (.layer, k), (.mip, j)] s
      if !b then pure (false, s) else ilFixCur a conv s) s

/-- The loop over the layers, il_convert.cpp:1095-1118. -/
def fixLayers (a : Settings) (conv : Nat → Nat → List Img → C (Bool × List Img)) (i f : Nat) (s : S) : C (Bool × S) := do
  let (b, s) ← select [(.next, i), (.face, f)] s
  if !b then pure (false, s)
  else do
    let n ← num .layer s
    forAll (n + 1) 0 (fun k s => fixMipmaps a conv i f k s) s

/-- The loop over the faces, il_convert.cpp:1087-1119. -/
def fixFaces (a : Settings) (conv : Nat → Nat → List Img → C (Bool × List Img)) (i : Nat) (s : S) : C (Bool × S) := do
  let (b, s) ← select [(.next, i)] s
  if !b then pure (false, s)
  else do
    let n ← num .face s
    forAll (n + 1) 0 (fun f s => fixLayers a conv i f s) s

/-- `ilFixImage`, il_convert.cpp:1074-1125. -/
def ilFixImage (a : Settings) (conv : Nat → Nat → List Img → C (Bool × List Img)) (s : S) : C (Bool × S) := do
  let n ← num .next s
  let (b, s) ← forAll (n + 1) 0 (fun i s => fixFaces a conv i s) s
  if !b then pure (false, s)
  else do
    let s ← rebind s
    pure (true, s)

end DevIL.Fix
