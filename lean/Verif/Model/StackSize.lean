import Verif.Core
/-! Model of the size arithmetic of the image name table, DevIL/src-IL/src/il_stack.cpp:550-598 and 100-104. -/
set_option autoImplicit false
namespace DevIL.StackSize

/-- `StackSize` (32 bits) and the byte size of the block `ImageStack` points to.  il_stack.cpp:36, 40. -/
structure Table where
  size : Nat
  bytes : Nat
  deriving DecidableEq, Repr

/-- `iEnlargeStack`, il_stack.cpp:581-602: `ilRecalloc(ImageStack, StackSize * sizeof(ILimage*),
(StackSize + 1024) * sizeof(ILimage*))` allocates `NewSize` bytes, where `NewSize` is an `ILuint`
parameter (553).  Pointers have 8 bytes; allocation succeeds. -/
def enlarge (t : Table) : Table :=
  { size := u32 (t.size + 1024), bytes := u32 (u32 (t.size + 1024) * 8) }

/-- The `while (Image >= StackSize)` of `ilBindImage`, il_stack.cpp:101-105, at most `fuel` tests. -/
def grow (image : Nat) : Nat → Table → C Table
  | 0, _ => .error .hang
  | fuel + 1, t => if t.size ≤ image then grow image fuel (enlarge t) else .ok t

/-- `ImageStack[Image]`, il_stack.cpp:107: an 8-byte access at byte `8 * Image` of the block. -/
def access (t : Table) (image : Nat) : C Unit :=
  if 8 * image + 8 ≤ t.bytes then .ok () else .error .oobRead

/-- `ilBindImage(Image)` up to its first table access, il_stack.cpp:92-107, on a fresh table. -/
def bindAccess (image : Nat) : C Unit := do
  let t ← grow image (image + 2) (enlarge ⟨0, 0⟩)
  access t image

end DevIL.StackSize
