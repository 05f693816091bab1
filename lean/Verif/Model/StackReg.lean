import Verif.Model.Stack
/-! Model of `ilRegisterNumFaces`, `ilRegisterMipNum` and `ilRegisterNumImages` (DevIL/src-IL/src/il_register.cpp).  Allocation succeeds, so that the branches that clean up are left out. -/
set_option autoImplicit false
namespace DevIL.Stack

/-- The `while (Num)` loops, il_register.cpp:285-299, 322-336, 359-373: `k` further images, each linked to the one before through `via`. -/
def chainVia (via : Link) : Nat → Heap → Nat → C Heap
  | 0, h, _ => .ok h
  | k + 1, h, sub => do
      let (h, q) := newImage h
      let n ← load h sub
      let h ← store h sub (via.set n (some q))
      chainVia via k h q

/-- The body shared by the three functions, il_register.cpp:272-301, 309-338, 346-375: `l` is the link of the current image, `via` that between the new ones.
(`ilBindImage` leaves no NULL in `iCurImage`.) -/
def registerNum (l via : Link) (s : Sys) (num : Nat) : C (Bool × Sys) := do
  let s ← ilBindImage s s.curName
  match s.cur with
  | none => .error .nullDeref
  | some c => do
    let n ← load s.heap c
    let h ← closeOpt s.heap (l.get n)
    let n ← load h c
    let h ← store h c (l.set n none)
    if num = 0 then pure (true, { s with heap := h })
    else do
      let (h, q) := newImage h
      let n ← load h c
      let h ← store h c (l.set n (some q))
      let h ← chainVia via (num - 1) h q
      pure (true, { s with heap := h })

/-- `ilRegisterNumFaces`, il_register.cpp:268-302. -/
def ilRegisterNumFaces (s : Sys) (num : Nat) : C (Bool × Sys) := registerNum .face .face s num

/-- `ilRegisterMipNum`, il_register.cpp:305-339. -/
def ilRegisterMipNum (s : Sys) (num : Nat) : C (Bool × Sys) := registerNum .mip .next s num

/-- `ilRegisterNumImages`, il_register.cpp:342-376. -/
def ilRegisterNumImages (s : Sys) (num : Nat) : C (Bool × Sys) := registerNum .next .next s num

end DevIL.Stack
