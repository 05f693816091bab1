import Verif.Core
/-! Model of `ilSaveCHeader`, il_header.cpp:21-131, from the point where the file is open.  The arrays are the characters that are written, as ASCII codes; the `#define` lines are the numbers
that `fprintf` prints with `%d`, `%u` or `%X`. -/
set_option autoImplicit false
namespace DevIL.CHeader

/-- `%4d` of a byte, il_header.cpp:95-98 and 118-121. -/
def num (v : Nat) : List Nat :=
  if v < 10 then [32, 32, 32, 48 + v] else if v < 100 then [32, 32, 48 + v / 10, 48 + v % 10] else [32, 48 + v / 100, 48 + v / 10 % 10, 48 + v % 10]

/-- The loop over `j`, il_header.cpp:93-100 and 116-123: `k` turns are left, and `pre` is what the format has before `%4d`. -/
def line (pre : List Nat) (data : List UInt8) (size i : Nat) : Nat → Nat → C (List Nat)
  | 0, _ => pure []
  | k + 1, j => do
    let v ← rd data (u32 (i + j))
    if size - 1 ≤ u32 (i + j) then pure (pre ++ num v.toNat)
    else do
      let rest ← line pre data size i k (j + 1)
      pure (pre ++ num v.toNat ++ 44 :: rest)

/-- The loop over `i`, il_header.cpp:91-102 and 114-125. -/
def rows (pre : List Nat) (data : List UInt8) (size : Nat) : Nat → Nat → C (List Nat)
  | 0, _ => .error .hang
  | fuel + 1, i =>
    if i < size then do
      let l ← line pre data size i 14 0
      let r ← rows pre data size fuel (u32 (i + 14))
      pure (9 :: l ++ 10 :: r)
    else pure []

/-- The fields of the image that are used, il_header.cpp:79-131. -/
structure Img where
  width : Nat
  height : Nat
  depth : Nat
  bpp : Nat
  bpc : Nat
  type : Nat
  format : Nat
  data : List UInt8
  pal : List UInt8
  palType : Nat

/-- What is in the file: the numbers of the `#define` lines, and the characters between the braces of the arrays, il_header.cpp:79-131. -/
structure File where
  bpp : Nat
  width : Nat
  height : Nat
  depth : Nat
  type : Nat
  format : Nat
  text : List Nat
  pal : Option (Nat × Nat × List Nat)

/-- `ilSaveCHeader`, il_header.cpp:21-131: from the conversion of :55-61 on.  `conv` is what `iConvertImage` makes of the data, if it succeeds; the result is `none` when it does not. -/
def save (conv : Img → Option (List UInt8)) (img : Img) : C (Option File) := do
  let data := if img.bpc > 1 then conv img else some img.data
  match data with
  | none => pure none
  | some d => do
    let text ← rows [] d d.length (d.length + 1) 0
    let pal ← (do
      if img.pal.length ≠ 0 ∧ img.palType ≠ 0x400 then do
        let p ← rows [32] img.pal img.pal.length (img.pal.length + 1) 0
        pure (some (img.pal.length, img.palType, p))
      else pure none)
    pure (some ⟨img.bpp, img.width, img.height, img.depth, img.type, img.format, text, pal⟩)

end DevIL.CHeader
