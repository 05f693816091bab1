import Verif.Model.Clear
import Verif.Model.Manip
import Verif.Model.Image
/-! Model of `iluEnlargeCanvas`, ilu_manip.cpp:113-231. -/
set_option autoImplicit false
namespace DevIL.Ilu
open DevIL.Utility

/-- `ILU_LOWER_LEFT`, ilu.h:67. -/
abbrev ILU_LOWER_LEFT : Nat := 0x0701
/-- `ILU_LOWER_RIGHT`, ilu.h:68. -/
abbrev ILU_LOWER_RIGHT : Nat := 0x0702
/-- `ILU_UPPER_LEFT`, ilu.h:69. -/
abbrev ILU_UPPER_LEFT : Nat := 0x0703
/-- `ILU_UPPER_RIGHT`, ilu.h:70. -/
abbrev ILU_UPPER_RIGHT : Nat := 0x0704
/-- `ILU_CENTER`, ilu.h:71. -/
abbrev ILU_CENTER : Nat := 0x0705

/-- `AddX` and `AddY`, ilu_manip.cpp:132-187, before `AddX` is multiplied; `none` for an invalid placement.  `dx` and `dy` are the differences of the widths and heights. -/
def addXY (origin placement dx dy : Nat) : Option (Nat × Nat) :=
  if origin = IL_ORIGIN_LOWER_LEFT then
    if placement = ILU_LOWER_LEFT then some (0, 0)
    else if placement = ILU_LOWER_RIGHT then some (dx, 0)
    else if placement = ILU_UPPER_LEFT then some (0, dy)
    else if placement = ILU_UPPER_RIGHT then some (dx, dy)
    else if placement = ILU_CENTER then some (dx / 2, dy / 2)
    else none
  else
    if placement = ILU_LOWER_LEFT then some (0, dy)
    else if placement = ILU_LOWER_RIGHT then some (dx, dy)
    else if placement = ILU_UPPER_LEFT then some (0, 0)
    else if placement = ILU_UPPER_RIGHT then some (dx, 0)
    else if placement = ILU_CENTER then some (dx / 2, dy / 2)
    else none

/-- The loops of ilu_manip.cpp:218-225. -/
def pasteOld (m n : Img) (addX addY : Nat) (src : List UInt8) : C (List UInt8) :=
  loopN m.depth (fun z d => loopN m.height (fun y d => loopN m.bps (fun x d => do
    let v ← rd src (u32 (z * m.plane + y * m.bps + x))
    wr d (u32 (z * n.plane + (y + addY) * n.bps + x + addX)) v) d) d) n.data

/-- `iluEnlargeCanvas`, ilu_manip.cpp:113-231: the current image afterwards and its palette if `ilClearImage` sets one; `none` is `IL_FALSE`.  `placement` is `iluPlacement`,
`mode` the origin mode as for `ilCopyPixels`, `enc` the clear colour; `junk` is the new pixel block, `junk'` the temporary one, `junk''` the array of `ilClearImage`.
Allocation succeeds.  When `ilTexImage` refuses the type, the old block, which is freed, is written. -/
def iluEnlargeCanvas (enc : Clear.Chan → List UInt8) (junk junk' junk'' : Nat → UInt8) (mode : Option Nat) (placement : Nat) (m : Img) (w h d : Nat) :
    C (Option (Img × Option (List UInt8))) :=
  if w < m.width ∨ h < m.height ∨ d < m.depth then pure none
  else match addXY m.origin placement (w - m.width) (h - m.height) with
    | none => pure none
    | some (addX, addY) => do
      let (_, src) ← Manip.ilCopyPixels junk' m mode 0 0 0 m.width m.height m.depth (alloc junk' m.size)
      match ← Image.ilInitImage junk w h d m.bpp m.format m.type none with
      | none => .error .useAfterFree
      | some n => do
        let (n, pal) ← Clear.ilClearImage enc junk'' { n with origin := m.origin }
        let data ← pasteOld m n (u32 (addX * m.bpp)) addY src
        pure (some ({ n with data := data }, pal))

end DevIL.Ilu
