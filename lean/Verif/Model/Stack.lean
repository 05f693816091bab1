import Verif.Core
import Verif.Model.Enums
/-! Model of DevIL/src-IL/src/il_stack.cpp: image names, image objects, sub-image chains. -/
namespace DevIL.Stack

/-- An image object (`ILimage`, include/IL/devil_internal_exports.h:60-90).  `payload` stands for everything
but the links to other image objects: pixel data, dimensions, palette, profile; those blocks are owned by the
object and freed with it (il_stack.cpp:208-216, 240-257). -/
structure Node where
  payload : Nat
  next : Option Nat
  faces : Option Nat
  mips : Option Nat
  layers : Option Nat
  deriving DecidableEq

/-- A heap cell; the address of an object is its index.  Addresses are not reused, so a stale pointer is
detected whenever it is used.  The memory behind il_alloc.cpp:88-123. -/
inductive Cell where
  | live (n : Node)
  | freed
  deriving DecidableEq

/-- The memory behind il_alloc.cpp:88-123. -/
abbrev Heap := List Cell

/-- Read an object through a pointer.  `p->...`, for example il_stack.cpp:203-260. -/
def load (h : Heap) (p : Nat) : C Node :=
  match h[p]? with
  | some (.live n) => .ok n
  | some .freed => .error .useAfterFree
  | none => .error .oobRead

/-- Write an object through a pointer.  `p->... = ...`, for example il_stack.cpp:203-260. -/
def store (h : Heap) (p : Nat) (n : Node) : C Heap :=
  match h[p]? with
  | some (.live _) => .ok (h.set p (.live n))
  | some .freed => .error .useAfterFree
  | none => .error .oobWrite

/-- `ifree` of an image object.  il_alloc.cpp:96-100, il_stack.cpp:258. -/
def free (h : Heap) (p : Nat) : C Heap :=
  match h[p]? with
  | some (.live _) => .ok (h.set p .freed)
  | some .freed => .error .doubleFree
  | none => .error .oobWrite

/-- The object made by `ilNewImage(1,1,1,1,1)`, il_devil.cpp:63-86: no links. -/
def fresh : Node := ⟨0, none, none, none, none⟩

/-- `ilNewImage(1,1,1,1,1)`; allocation succeeds.  il_devil.cpp:63-86. -/
def newImage (h : Heap) : Heap × Nat := (h ++ [.live fresh], h.length)

/-- One `if (Image->F != NULL) { ilCloseImage(Image->F); Image->G = NULL; }` of `ilCloseImage`; `rec` is
the recursive call, `get` reads `F`, `clr` clears `G`.  il_stack.cpp:218-236. -/
def closeField (rec : Heap → Nat → C Heap) (p : Nat) (get : Node → Option Nat) (clr : Node → Node)
    (h : Heap) : C Heap := do
  let n ← load h p
  match get n with
  | none => pure h
  | some q => do
      let h ← rec h q
      let n ← load h p
      store h p (clr n)

/-- `ilCloseImage`, il_stack.cpp:203-260 for a non-NULL argument.  `fuel` bounds the recursion depth (outcome
`hang`).  Note lines 223-226: after the faces, it is `Mipmaps` that is cleared. -/
def close : Nat → Heap → Nat → C Heap
  | 0, _, _ => .error .hang
  | fuel + 1, h, p => do
      let h ← closeField (close fuel) p (·.next) (fun n => { n with next := none }) h
      let h ← closeField (close fuel) p (·.faces) (fun n => { n with mips := none }) h
      let h ← closeField (close fuel) p (·.mips) (fun n => { n with mips := none }) h
      let h ← closeField (close fuel) p (·.layers) (fun n => { n with layers := none }) h
      free h p

/-- `if (p) ilCloseImage(p);`.  For example il_stack.cpp:471-475. -/
def closeOpt (h : Heap) : Option Nat → C Heap
  | none => .ok h
  | some p => close (h.length + 1) h p

/-- The static variables of il_stack.cpp:20, 36-43 and `iCurImage`; `stack` is `ImageStack` (its length is
`StackSize`), `errs` the recorded errors, newest first. -/
structure Sys where
  heap : Heap
  stack : List (Option Nat)
  lastUsed : Nat
  free : List Nat
  cur : Option Nat
  curName : Nat
  errs : List Nat
  deriving DecidableEq

/-- `I_STACK_INCREMENT`, il_stack.cpp:25. -/
def increment : Nat := 1024

/-- `iEnlargeStack`, il_stack.cpp:577-598 (new entries are zeroed by `ilRecalloc`, 545-566).  Simplification:
the byte count `StackSize * sizeof(ILimage*)` is a 32-bit quantity in the code; the model is the code for
tables of fewer than 2^29 - 1024 entries (see Model/StackSize.lean). -/
def enlarge (s : Sys) : Sys := { s with stack := s.stack ++ List.replicate increment none }

/-- One round of the loop of `ilGenImages`, il_stack.cpp:62-79. -/
def gen1 (s : Sys) : C (Nat × Sys) :=
  match s.free with
  | n :: rest =>
    let (h, p) := newImage s.heap
    do
      let stack ← wr s.stack n (some p)
      pure (n, { s with heap := h, stack := stack, free := rest })
  | [] =>
    let s := if s.lastUsed ≥ s.stack.length then enlarge s else s
    let (h, p) := newImage s.heap
    do
      let stack ← wr s.stack s.lastUsed (some p)
      pure (s.lastUsed, { s with heap := h, stack := stack, lastUsed := s.lastUsed + 1 })

/-- `k` rounds of the loop; the names written to `Images`.  il_stack.cpp:57-80. -/
def genLoop : Nat → Sys → C (List Nat × Sys)
  | 0, s => .ok ([], s)
  | k + 1, s => do
      let (n, s) ← gen1 s
      let (ns, s) ← genLoop k s
      pure (n :: ns, s)

/-- `ilGenImages`, il_stack.cpp:47-82, with a non-NULL `Images` that has room for `num` names. -/
def ilGenImages (s : Sys) (num : Nat) : C (List Nat × Sys) :=
  if num < 1 then pure ([], { s with errs := IL_INVALID_VALUE :: s.errs })
  else genLoop num (if s.stack = [] then enlarge s else s)

/-- The `while (Image >= StackSize) iEnlargeStack()` of il_stack.cpp:100-104: `fuel` rounds at most. -/
def enlargeTo (image : Nat) : Nat → Sys → C Sys
  | 0, _ => .error .hang
  | fuel + 1, s => if image ≥ s.stack.length then enlargeTo image fuel (enlarge s) else .ok s

/-- `ilBindImage`, il_stack.cpp:92-119. -/
def ilBindImage (s : Sys) (image : Nat) : C Sys := do
  let s := if s.stack = [] then enlarge s else s
  let s ← enlargeTo image (image + 1) s
  let slot ← rd s.stack image
  match slot with
  | none =>
    let (h, p) := newImage s.heap
    let stack ← wr s.stack image (some p)
    pure { s with heap := h, stack := stack, cur := some p, curName := image,
                  lastUsed := if image ≥ s.lastUsed then image + 1 else s.lastUsed }
  | some p => pure { s with cur := some p, curName := image }

/-- One round of the loop of `ilDeleteImages`, il_stack.cpp:135-171 (`continue` in a do-while goes to the
loop test). -/
def delete1 (s : Sys) (n : Nat) : C Sys :=
  if n > 0 ∧ n < s.lastUsed then do
    let slot ← rd s.stack n
    match slot with
    | none => pure s
    | some p => do
        let zero ← rd s.stack 0
        let s := if n = s.curName ∨ n = 0 then { s with cur := zero, curName := 0 } else s
        let h ← close (s.heap.length + 1) s.heap p
        let stack ← wr s.stack n none
        pure { s with heap := h, stack := stack, free := n :: s.free }
  else pure s

/-- The loop of `ilDeleteImages`.  il_stack.cpp:136-171. -/
def deleteLoop : List Nat → Sys → C Sys
  | [], s => .ok s
  | n :: ns, s => do
      let s ← delete1 s n
      deleteLoop ns s

/-- `ilDeleteImages`, il_stack.cpp:123-173; the argument is the array of names. -/
def ilDeleteImages (s : Sys) (names : List Nat) : C Sys :=
  if s.stack = [] then pure s else deleteLoop names s

/-- `ilIsImage`, il_stack.cpp:181-199. -/
def ilIsImage (s : Sys) (image : Nat) : C Bool :=
  if s.stack = [] then pure false
  else if image ≥ s.lastUsed ∨ image = 0 then pure false
  else do
    let slot ← rd s.stack image
    pure slot.isSome

/-- The four kinds of links.  devil_internal_exports.h:77-80. -/
inductive Link where
  | next | face | mip | layer
  deriving DecidableEq

/-- The pointer of a kind.  devil_internal_exports.h:77-80. -/
def Link.get : Link → Node → Option Nat
  | .next => (·.next)
  | .face => (·.faces)
  | .mip => (·.mips)
  | .layer => (·.layers)

/-- The `for` loop shared by `ilActiveMipmap/Image/Face/Layer` (il_stack.cpp:325-332, 364-371, 403-410,
443-450): `k` more steps along the link; `none` when a NULL is met. -/
def walk (l : Link) (h : Heap) : Nat → Nat → C (Option Nat)
  | 0, p => .ok (some p)
  | k + 1, p => do
      let n ← load h p
      match l.get n with
      | none => pure none
      | some q => walk l h k q

/-- `ilActiveMipmap/Image/Face/Layer`, il_stack.cpp:303-455: the four functions differ only in the link
followed (and in the way `Number - 1` rounds are counted). -/
def ilActive (l : Link) (s : Sys) (number : Nat) : C (Bool × Sys) :=
  match s.cur with
  | none => pure (false, { s with errs := IL_ILLEGAL_OPERATION :: s.errs })
  | some c =>
    if number = 0 then pure (true, s)
    else do
      let n ← load s.heap c
      match l.get n with
      | none => pure (false, { s with errs := IL_ILLEGAL_OPERATION :: s.errs })
      | some q => do
          let r ← walk l s.heap (number - 1) q
          match r with
          | none => pure (false, { s with errs := IL_ILLEGAL_OPERATION :: s.errs })
          | some d => pure (true, { s with cur := some d })

/-- The `for` loop of `ilCreateSubImage`, il_stack.cpp:503-508: `k` further images linked through `Next`. -/
def chainNext : Nat → Heap → Nat → C Heap
  | 0, h, _ => .ok h
  | k + 1, h, sub => do
      let (h, q) := newImage h
      let n ← load h sub
      let h ← store h sub { n with next := some q }
      chainNext k h q

/-- Set the link of a kind.  devil_internal_exports.h:77-80. -/
def Link.set : Link → Node → Option Nat → Node
  | .next, n, q => { n with next := q }
  | .face, n, q => { n with faces := q }
  | .mip, n, q => { n with mips := q }
  | .layer, n, q => { n with layers := q }

/-- The link selected by the `Type` argument, il_stack.cpp:471-497. -/
def subLink (type : Nat) : Option Link :=
  if type = IL_SUB_NEXT then some .next
  else if type = IL_SUB_MIPMAP then some .mip
  else if type = IL_SUB_LAYER then some .layer
  else none

/-- `ilCreateSubImage`, il_stack.cpp:458-511; the returned count and the new state. -/
def ilCreateSubImage (s : Sys) (type num : Nat) : C (Nat × Sys) :=
  match s.cur with
  | none => pure (0, { s with errs := IL_ILLEGAL_OPERATION :: s.errs })
  | some c =>
    if num = 0 then pure (0, s)
    else match subLink type with
      | none => pure (0, { s with errs := IL_INVALID_ENUM :: s.errs })
      | some l => do
          let n ← load s.heap c
          let h ← closeOpt s.heap (l.get n)
          let (h, q) := newImage h
          let n ← load h c
          let h ← store h c (l.set n (some q))
          let h ← chainNext (num - 1) h q
          pure (num, { s with heap := h })

/-- Any call that only rewrites the contents of the bound image (`ilSetPixels`, `ilTexImage`, `ilSetData`,
`ilClearImage`...): its payload becomes `v`.  For example il_manip.cpp:587-780, il_devil.cpp:132-165. -/
def writeCur (s : Sys) (v : Nat) : C Sys :=
  match s.cur with
  | none => pure { s with errs := IL_ILLEGAL_OPERATION :: s.errs }
  | some c => do
      let n ← load s.heap c
      let h ← store s.heap c { n with payload := v }
      pure { s with heap := h }

/-- The state after the first `ilInit` (il_stack.cpp:612-633): `iSetImage0` (675-690) has made image 0,
`iBindImageTemp` (693-708) image 1, which stays bound. -/
def initial : Sys where
  heap := [.live fresh, .live fresh]
  stack := some 0 :: some 1 :: List.replicate (increment - 2) none
  lastUsed := 2
  free := []
  cur := some 1
  curName := 1
  errs := []

/-- `ilShutDown`, il_stack.cpp:638-671 (initialised case): closes every image of the table and frees the
table.  `iCurImage` and `CurName` are left as they are. -/
def closeAll : List (Option Nat) → Heap → C Heap
  | [], h => .ok h
  | none :: rest, h => closeAll rest h
  | some p :: rest, h => do
      let h ← close (h.length + 1) h p
      closeAll rest h

/-- `ilShutDown`.  il_stack.cpp:638-672. -/
def ilShutDown (s : Sys) : C Sys := do
  let h ← closeAll s.stack s.heap
  pure { s with heap := h, stack := [], lastUsed := 0, free := [] }

/-- One API call.  The functions of il_stack.cpp:48-706. -/
inductive Op where
  | gen (num : Nat)
  | bind (image : Nat)
  | delete (names : List Nat)
  | active (l : Link) (number : Nat)
  | createSub (type num : Nat)
  | write (v : Nat)
  deriving DecidableEq

/-- Effect of a call; the list is what `ilGenImages` wrote.  The functions of il_stack.cpp:48-706. -/
def step (s : Sys) : Op → C (List Nat × Sys)
  | .gen k => ilGenImages s k
  | .bind n => do let s ← ilBindImage s n; pure ([], s)
  | .delete ns => do let s ← ilDeleteImages s ns; pure ([], s)
  | .active l k => do let r ← ilActive l s k; pure ([], r.2)
  | .createSub t k => do let r ← ilCreateSubImage s t k; pure ([], r.2)
  | .write v => do let s ← writeCur s v; pure ([], s)

/-- A history: every call with the names it returned, and the final state.  A history is not in the code. -/
def run (s : Sys) : List Op → C (List (Op × List Nat) × Sys)
  | [] => .ok ([], s)
  | o :: os => do
      let (out, s) ← step s o
      let (tr, s) ← run s os
      pure ((o, out) :: tr, s)

end DevIL.Stack
