import Verif.Core
/-! Model of the half-float conversions: DevIL/src-IL/src/il_manip.cpp:25-215.  C `int` arithmetic is modelled on
integers; no intermediate value leaves the range of `int`. -/
set_option autoImplicit false
namespace DevIL.Half

/-- `if (m & 0x1000) m += 0x2000`, il_manip.cpp:77-78. -/
def roundUp (m : Nat) : Nat := if m &&& 0x1000 ≠ 0 then m + 0x2000 else m

/-- The branch `e <= 0` of `ilFloatToHalf`, il_manip.cpp:48-86.  `k` is `1 - e`. -/
def toDenormal (s k m : Nat) : Nat :=
  if 11 < k then 0
  else s ||| (roundUp ((m ||| 0x00800000) >>> k) >>> 13)

/-- The branch `e == 0xff - (127 - 15)`, il_manip.cpp:87-113. -/
def toSpecial (s m : Nat) : Nat :=
  if m = 0 then s ||| 0x7c00
  else s ||| 0x7c00 ||| (m >>> 13) ||| (if m >>> 13 = 0 then 1 else 0)

/-- The last branch, il_manip.cpp:114-151 (`ilFloatToHalfOverflow` only raises a floating-point flag). -/
def toNormal (s e m : Nat) : Nat :=
  let m1 := roundUp m
  let over := m &&& 0x1000 ≠ 0 ∧ m1 &&& 0x00800000 ≠ 0
  let m2 := if over then 0 else m1
  let e2 := if over then e + 1 else e
  if 30 < e2 then s ||| 0x7c00
  else s ||| (e2 <<< 10) ||| (m2 >>> 13)

/-- `ilFloatToHalf`, il_manip.cpp:29-153, on the bits of the float. -/
def ilFloatToHalf (i : Nat) : Nat :=
  let s := (i >>> 16) &&& 0x8000
  let ef := (i >>> 23) &&& 0xff
  let m := i &&& 0x7fffff
  if ef ≤ 112 then toDenormal s (113 - ef) m
  else if ef - 112 = 0xff - 112 then toSpecial s m
  else toNormal s (ef - 112) m

/-- `while (!(m & 0x400)) { m <<= 1; e -= 1; }`, il_manip.cpp:178-182, with `m` a non-zero 10-bit number; returns `m` and
the number of rounds. -/
def renorm : Nat → Nat → Nat → Nat × Nat
  | 0, m, k => (m, k)
  | fuel + 1, m, k => if m &&& 0x400 ≠ 0 then (m, k) else renorm fuel (m <<< 1) (k + 1)

/-- `ilHalfToFloat`, il_manip.cpp:156-215.  Ten rounds always suffice for the loop. -/
def ilHalfToFloat (y : Nat) : Nat :=
  let s := (y >>> 15) &&& 1
  let e := (y >>> 10) &&& 0x1f
  let m := y &&& 0x3ff
  if e = 0 then
    if m = 0 then s <<< 31
    else
      let r := renorm 11 m 0
      (s <<< 31) ||| ((113 - r.2) <<< 23) ||| ((r.1 &&& 0x3ff) <<< 13)
  else if e = 31 then
    if m = 0 then (s <<< 31) ||| 0x7f800000
    else (s <<< 31) ||| 0x7f800000 ||| (m <<< 13)
  else (s <<< 31) ||| ((e + 112) <<< 23) ||| (m <<< 13)

end DevIL.Half
