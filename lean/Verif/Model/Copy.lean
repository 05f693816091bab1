import Verif.Model.Stack
import Verif.Model.Image
/-! Model of the functions that give an image new contents or the contents of another one: il_devil.cpp:126-220, 952-1115, on top of the image table
(Model/Stack.lean).  The number `payload` of an object counts how often its block of pixels has been replaced, so that a pointer to a block is the address of
the object and this number, and a pointer to a block that has been freed is noticed when it is used.  Allocation succeeds. -/
set_option autoImplicit false
namespace DevIL.Copy
open DevIL.Stack (Heap load store closeOpt close closeField Link)
open DevIL.Utility

/-- The fields of an image object other than the links, `ILimage`, include/IL/devil_internal_exports.h:60-90; a block is `none` for NULL. -/
structure Content where
  img : Img
  pal : Option (List UInt8)
  palSize : Nat
  palType : Nat
  anim : Option (List Nat)
  animSize : Nat
  profile : Option (List UInt8)
  profileSize : Nat
  dxtc : Option (List UInt8)
  dxtcFormat : Nat
  dxtcSize : Nat
  duration : Nat
  cubeFlags : Nat
  offX : Nat
  offY : Nat
  deriving DecidableEq

/-- What `ilInitImage` leaves in the other fields, il_devil.cpp:27, 45-47. -/
def blank (m : Img) : Content :=
  { img := m, pal := none, palSize := 0, palType := IL_PAL_NONE, anim := none, animSize := 0, profile := none, profileSize := 0, dxtc := none,
    dxtcFormat := IL_DXT_NO_COMP, dxtcSize := 0, duration := 0, cubeFlags := 0, offX := 0, offY := 0 }

/-- The image made by `ilNewImage(1,1,1,1,1)`, il_devil.cpp:63-86, 19-58. -/
def freshC (junk : Nat → UInt8) : Content :=
  blank (Image.geometry 1 1 1 1 (ilGetFormatBpp 1) (ilGetTypeBpc 1) (alloc junk 1))

/-- The image table of il_stack.cpp:36-43 and the contents of the objects, by address. -/
structure Sys where
  base : Stack.Sys
  cont : Nat → Content

/-- After a function of il_stack.cpp:47-511, which only makes new objects, or frees objects.  The new ones are those of `ilNewImage(1,1,1,1,1)`. -/
def sync (junk : Nat → UInt8) (y : Sys) (s : Stack.Sys) : Sys :=
  ⟨s, fun a => if a < y.base.heap.length then y.cont a else freshC junk⟩

/-- `ilBindImage`, il_stack.cpp:92-119. -/
def ilBindImage (junk : Nat → UInt8) (y : Sys) (n : Nat) : C Sys := do
  let s ← Stack.ilBindImage y.base n
  pure (sync junk y s)

/-- `ilGenImages`, il_stack.cpp:47-82. -/
def ilGenImages (junk : Nat → UInt8) (y : Sys) (k : Nat) : C (List Nat × Sys) := do
  let (ns, s) ← Stack.ilGenImages y.base k
  pure (ns, sync junk y s)

/-- `ilGetCurName`, il_stack.cpp:515-520. -/
def ilGetCurName (y : Sys) : Nat := if y.base.cur = none ∨ y.base.stack = [] then 0 else y.base.curName

/-- The `Data` argument of `ilTexImage_`: NULL, memory of the caller, or a pointer to the block of pixels of an image object.  il_devil.cpp:132. -/
inductive Src where
  | null
  | ext (d : List UInt8)
  | obj (p version : Nat)

/-- `memcpy(Image->Data, Data, Image->SizeOfData)`, il_devil.cpp:53-55. -/
def fill (junk : Nat → UInt8) (y : Sys) (src : Src) (size : Nat) : C (List UInt8) :=
  match src with
  | .null => pure (alloc junk size)
  | .ext d => memcpy (alloc junk size) 0 d 0 size
  | .obj p v => do
    let n ← load y.base.heap p
    if n.payload = v then memcpy (alloc junk size) 0 (y.cont p).img.data 0 size else .error .useAfterFree

/-- Changing the contents of the object `p`.  For example il_devil.cpp:33-48. -/
def setC (y : Sys) (p : Nat) (c : Content) : Sys := { y with cont := fun a => if a = p then c else y.cont a }

/-- Changing the memory of the image objects, il_alloc.cpp:88-123. -/
def setH (y : Sys) (h : Heap) : Sys := { y with base := { y.base with heap := h } }

/-- `ilCloseImage(Image->F)` where the pointer is not cleared, il_devil.cpp:147-150. -/
def closeLink (l : Link) (p : Nat) (h : Heap) : C Heap := do
  let n ← load h p
  closeOpt h (l.get n)

/-- `ilInitImage` on the object `p`, which frees nothing, il_devil.cpp:19-58, for a type that it accepts. -/
def initImage (junk : Nat → UInt8) (y : Sys) (p w h d bpp format type : Nat) (src : Src) : C Sys := do
  let n ← load y.base.heap p
  let hp ← store y.base.heap p ⟨n.payload + 1, none, none, none, none⟩
  let y := setH y hp
  let g := Image.geometry w h d bpp format type []
  let b ← fill junk y src g.size
  pure (setC y p (blank { g with data := b }))

/-- `ilTexImage_`, il_devil.cpp:132-165, for a type that `ilInitImage` accepts (the other types are the subject of `Image.texImagePtr`). -/
def ilTexImage_ (junk : Nat → UInt8) (y : Sys) (p w h d bpp format type : Nat) (src : Src) : C Sys := do
  let hp ← closeLink .mip p y.base.heap
  let hp ← closeLink .next p hp
  let hp ← closeLink .face p hp
  let hp ← closeLink .layer p hp
  initImage junk (setH y hp) p w h d bpp format type src

/-- `ilTexImageSurface_`, il_devil.cpp:185-239, for a type that `ilInitImage` accepts. -/
def ilTexImageSurface_ (junk : Nat → UInt8) (y : Sys) (p w h d bpp format type : Nat) (src : Src) : C Sys := do
  let n ← load y.base.heap p
  let flags := (y.cont p).cubeFlags
  let origin := (y.cont p).img.origin
  let y ← initImage junk y p w h d bpp format type src
  let m ← load y.base.heap p
  let hp ← store y.base.heap p { m with mips := n.mips, next := n.next, faces := n.faces, layers := n.layers }
  let c := y.cont p
  pure (setC (setH y hp) p { c with cubeFlags := flags, img := { c.img with origin := origin } })

/-- `Dest->B = ialloc(n); memcpy(Dest->B, Src->B, n);`, for example il_devil.cpp:998-1003. -/
def copyBlk {α : Type} (p : List α) (n : Nat) : C (List α) := if n ≤ p.length then pure (p.take n) else .error .oobRead

/-- The assignments of `ilCopyImageAttr`, il_devil.cpp:984-1039.  The palette is freed on 964-967 only when it is a proper one. -/
def copyAttrC (d s : Content) : C Content := do
  let d := if d.profile.isSome then { d with profile := none, profileSize := 0 } else d
  let d := if d.dxtc.isSome then { d with dxtc := none, dxtcFormat := IL_DXT_NO_COMP, dxtcSize := 0 } else d
  let anim ← (match s.anim with
    | some a => if s.animSize ≠ 0 then (do let b ← copyBlk a s.animSize; pure (some b)) else pure d.anim
    | none => pure d.anim)
  let profile ← (match s.profile with
    | some p => do let b ← copyBlk p s.profileSize; pure (some b, s.profileSize)
    | none => pure (d.profile, d.profileSize))
  let pal ← (match s.pal with
    | some p => do let b ← copyBlk p s.palSize; pure (some b)
    | none => pure none)
  pure { d with anim := anim, animSize := s.animSize, profile := profile.1, profileSize := profile.2, pal := pal, palSize := s.palSize,
                palType := s.palType, img := { s.img with data := d.img.data }, duration := s.duration, cubeFlags := s.cubeFlags, offX := s.offX,
                offY := s.offY }

/-- `ilCopyImageAttr(Dest, Src)`, il_devil.cpp:957-1043. -/
def ilCopyImageAttr (y : Sys) (dest src : Nat) : C Sys := do
  let fuel := y.base.heap.length + 1
  let h ← closeField (close fuel) dest (·.faces) (fun n => { n with faces := none }) y.base.heap
  let h ← closeField (close fuel) dest (·.layers) (fun n => { n with layers := none }) h
  let h ← closeField (close fuel) dest (·.mips) (fun n => { n with mips := none }) h
  let h ← closeField (close fuel) dest (·.next) (fun n => { n with next := none }) h
  let _ ← load h src
  let c ← copyAttrC (y.cont dest) (y.cont src)
  pure (setC (setH y h) dest c)

/-- `ilSetError`, as in Model/Stack.lean.  il_error.cpp:23-52. -/
def err (y : Sys) (e : Nat) : Sys := { y with base := { y.base with errs := e :: y.base.errs } }

/-- `ilTexImage` and `ilCopyImageAttr` with the image `src`, il_devil.cpp:1061-1062, 1107-1108: `p` is the object `ilTexImage` works on, `dest` the one whose
attributes are set.  The arguments are read from `src` before `ilTexImage` begins. -/
def copyFrom (junk : Nat → UInt8) (y : Sys) (p dest src : Nat) : C Sys := do
  let n ← load y.base.heap src
  let m := (y.cont src).img
  let y ← ilTexImage_ junk y p m.width m.height m.depth m.bpp m.format m.type (.obj src n.payload)
  ilCopyImageAttr y dest src

/-- `iCurImage` where the code uses it without a test.  For example il_devil.cpp:1058. -/
def curObj (y : Sys) : C Nat :=
  match y.base.cur with
  | some p => .ok p
  | none => .error .nullDeref

/-- `ilCopyImage`, il_devil.cpp:1047-1065. -/
def ilCopyImage (junk : Nat → UInt8) (y : Sys) (src : Nat) : C (Bool × Sys) :=
  match y.base.cur with
  | none => pure (false, err y IL_ILLEGAL_OPERATION)
  | some dest =>
    let name := ilGetCurName y
    if name = 0 then pure (false, err y IL_ILLEGAL_OPERATION)
    else do
      let y ← ilBindImage junk y src
      let s ← curObj y
      let y ← ilBindImage junk y name
      let p ← curObj y
      let y ← copyFrom junk y p dest s
      pure (true, y)

/-- `ilCloneCurImage`, il_devil.cpp:1091-1115: the name returned. -/
def ilCloneCurImage (junk : Nat → UInt8) (y : Sys) : C (Nat × Sys) :=
  match y.base.cur with
  | none => pure (0, err y IL_ILLEGAL_OPERATION)
  | some c => do
    let (ns, y) ← ilGenImages junk y 1
    let id ← rd ns 0
    if id = 0 then pure (0, y)
    else do
      let y ← ilBindImage junk y id
      let p ← curObj y
      let y ← copyFrom junk y p p c
      pure (id, { y with base := { y.base with cur := some c } })

/-- `ilDeleteImages`, il_stack.cpp:123-173. -/
def ilDeleteImages (junk : Nat → UInt8) (y : Sys) (names : List Nat) : C Sys := do
  let s ← Stack.ilDeleteImages y.base names
  pure (sync junk y s)

/-- `ilActiveMipmap/Image/Face/Layer`, il_stack.cpp:303-455. -/
def ilActive (junk : Nat → UInt8) (l : Link) (y : Sys) (k : Nat) : C (Bool × Sys) := do
  let (b, s) ← Stack.ilActive l y.base k
  pure (b, sync junk y s)

/-- `ilCreateSubImage`, il_stack.cpp:458-511. -/
def ilCreateSubImage (junk : Nat → UInt8) (y : Sys) (type k : Nat) : C (Nat × Sys) := do
  let (r, s) ← Stack.ilCreateSubImage y.base type k
  pure (r, sync junk y s)

/-- `ilTexImage`, il_devil.cpp:126-129, for an image that is bound and a type that is accepted. -/
def ilTexImage (junk : Nat → UInt8) (y : Sys) (w h d bpp format type : Nat) (src : Src) : C Sys := do
  let p ← curObj y
  ilTexImage_ junk y p w h d bpp format type src

/-- `ilTexImageSurface`, il_devil.cpp:179-182, for an image that is bound and a type that is accepted. -/
def ilTexImageSurface (junk : Nat → UInt8) (y : Sys) (w h d bpp format type : Nat) (src : Src) : C Sys := do
  let p ← curObj y
  ilTexImageSurface_ junk y p w h d bpp format type src

/-- Any call that changes the pixels, the palette and so on of the bound image without touching other images, for example il_manip.cpp:587-780. -/
def change (y : Sys) (c : Content) : C Sys := do
  let p ← curObj y
  let s ← Stack.writeCur y.base (← load y.base.heap p).payload.succ
  pure (setC ⟨s, y.cont⟩ p c)

/-- One API call other than a copy, il_stack.cpp:47-511 and il_devil.cpp:126-239. -/
inductive Op where
  | gen (k : Nat)
  | bind (n : Nat)
  | delete (ns : List Nat)
  | active (l : Link) (k : Nat)
  | createSub (type k : Nat)
  | change (c : Content)
  | tex (w h d bpp format type : Nat) (data : List UInt8)
  | surface (w h d bpp format type : Nat) (data : List UInt8)

/-- Effect of a call.  il_stack.cpp:47-511 and il_devil.cpp:126-239. -/
def step (junk : Nat → UInt8) (y : Sys) : Op → C Sys
  | .gen k => (·.2) <$> ilGenImages junk y k
  | .bind n => ilBindImage junk y n
  | .delete ns => ilDeleteImages junk y ns
  | .active l k => (·.2) <$> ilActive junk l y k
  | .createSub t k => (·.2) <$> ilCreateSubImage junk y t k
  | .change c => change y c
  | .tex w h d bpp f t data => ilTexImage junk y w h d bpp f t (.ext data)
  | .surface w h d bpp f t data => ilTexImageSurface junk y w h d bpp f t (.ext data)

/-- The state after the first `ilInit`, il_stack.cpp:612-633. -/
def initial (junk : Nat → UInt8) : Sys := ⟨Stack.initial, fun _ => freshC junk⟩

end DevIL.Copy
