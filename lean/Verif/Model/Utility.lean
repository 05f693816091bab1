import Verif.Model.Enums
/-! Model of DevIL/src-IL/src/il_utility.cpp and `iSqrt` of il_internal.cpp. -/
namespace DevIL.Utility

/-- `ilGetBppFormat`, il_utility.cpp:18-36. -/
def ilGetBppFormat (f : Nat) : Nat :=
  if f = IL_COLOUR_INDEX ∨ f = IL_LUMINANCE ∨ f = IL_ALPHA then 1
  else if f = IL_LUMINANCE_ALPHA then 2
  else if f = IL_RGB ∨ f = IL_BGR then 3
  else if f = IL_RGBA ∨ f = IL_BGRA then 4
  else 0

/-- `ilGetFormatBpp`, il_utility.cpp:40-54. -/
def ilGetFormatBpp (bpp : Nat) : Nat :=
  if bpp = 1 then IL_LUMINANCE
  else if bpp = 2 then IL_LUMINANCE_ALPHA
  else if bpp = 3 then IL_RGB
  else if bpp = 4 then IL_RGBA
  else 0

/-- `ilGetBpcType`, il_utility.cpp:58-77. -/
def ilGetBpcType (t : Nat) : Nat :=
  if t = IL_BYTE ∨ t = IL_UNSIGNED_BYTE then 1
  else if t = IL_SHORT ∨ t = IL_UNSIGNED_SHORT ∨ t = IL_HALF then 2
  else if t = IL_INT ∨ t = IL_UNSIGNED_INT ∨ t = IL_FLOAT then 4
  else if t = IL_DOUBLE then 8
  else 0

/-- `ilGetTypeBpc`, il_utility.cpp:81-95. -/
def ilGetTypeBpc (bpc : Nat) : Nat :=
  if bpc = 1 then IL_UNSIGNED_BYTE
  else if bpc = 2 then IL_UNSIGNED_SHORT
  else if bpc = 4 then IL_UNSIGNED_INT
  else if bpc = 8 then IL_DOUBLE
  else 0

/-- `ilGetBppPal`, il_utility.cpp:99-113. -/
def ilGetBppPal (p : Nat) : Nat :=
  if p = IL_PAL_RGB24 ∨ p = IL_PAL_BGR24 then 3
  else if p = IL_PAL_RGB32 ∨ p = IL_PAL_RGBA32 ∨ p = IL_PAL_BGR32 ∨ p = IL_PAL_BGRA32 then 4
  else 0

/-- `ilGetPalBaseType`, il_utility.cpp:116-135. -/
def ilGetPalBaseType (p : Nat) : Nat :=
  if p = IL_PAL_RGB24 then IL_RGB
  else if p = IL_PAL_RGB32 then IL_RGBA
  else if p = IL_PAL_RGBA32 then IL_RGBA
  else if p = IL_PAL_BGR24 then IL_BGR
  else if p = IL_PAL_BGR32 then IL_BGRA
  else if p = IL_PAL_BGRA32 then IL_BGRA
  else 0

/-- `ilNextPower2`, il_utility.cpp:139-146, run for at most `fuel` loop tests: a `while` loop on a
32-bit unsigned accumulator. -/
def ilNextPower2 (fuel n : Nat) : C Nat :=
  whileF (fun power => decide (power < n)) (fun power => .ok (u32 (power * 2))) fuel 1

/-- `memcpy(dst + dOff, src + sOff, n)` as used by `iMemSwap` (il_utility.cpp:157-167) on
non-overlapping regions; a copy past the end of either region is a fault.  Simplification: the
temporary block of `iMemSwap` is a value and its allocation succeeds. -/
def memcpyChecked (dst : List UInt8) (dOff : Nat) (src : List UInt8) (sOff n : Nat) :
    C (List UInt8) :=
  if sOff + n ≤ src.length then
    if dOff + n ≤ dst.length then
      .ok (dst.take dOff ++ (src.drop sOff).take n ++ dst.drop (dOff + n))
    else .error .oobWrite
  else .error .oobRead

/-- One block exchange, il_utility.cpp:157-159 and 165-167. -/
def swapBlock (s1 s2 : List UInt8) (off n : Nat) : C (List UInt8 × List UInt8) := do
  let block ← memcpyChecked (List.replicate n 0) 0 s1 off n
  let s1 ← memcpyChecked s1 off s2 off n
  let s2 ← memcpyChecked s2 off block 0 n
  pure (s1, s2)

/-- `block_size`, il_utility.cpp:150. -/
def blockSize : Nat := 4096

/-- `iMemSwap`, il_utility.cpp:148-171. -/
def iMemSwap (s1 s2 : List UInt8) (size : Nat) : C (List UInt8 × List UInt8) := do
  let blocks := size / blockSize
  let (s1, s2) ← loopN blocks (fun i s => swapBlock s.1 s.2 (i * blockSize) blockSize) (s1, s2)
  let rest := size - blocks * blockSize
  if rest > 0 then swapBlock s1 s2 (blocks * blockSize) rest else pure (s1, s2)

/-- The table of il_internal.cpp:205-225. -/
def sqrtTable : List Nat := [
  0, 16, 22, 27, 32, 35, 39, 42, 45, 48, 50, 53, 55, 57, 59, 61,
  64, 65, 67, 69, 71, 73, 75, 76, 78, 80, 81, 83, 84, 86, 87, 89,
  90, 91, 93, 94, 96, 97, 98, 99, 101, 102, 103, 104, 106, 107, 108, 109,
  110, 112, 113, 114, 115, 116, 117, 118, 119, 120, 121, 122, 123, 124, 125, 126,
  128, 128, 129, 130, 131, 132, 133, 134, 135, 136, 137, 138, 139, 140, 141, 142,
  143, 144, 144, 145, 146, 147, 148, 149, 150, 150, 151, 152, 153, 154, 155, 155,
  156, 157, 158, 159, 160, 160, 161, 162, 163, 163, 164, 165, 166, 167, 167, 168,
  169, 170, 170, 171, 172, 173, 173, 174, 175, 176, 176, 177, 178, 178, 179, 180,
  181, 181, 182, 183, 183, 184, 185, 185, 186, 187, 187, 188, 189, 189, 190, 191,
  192, 192, 193, 193, 194, 195, 195, 196, 197, 197, 198, 199, 199, 200, 201, 201,
  202, 203, 203, 204, 204, 205, 206, 206, 207, 208, 208, 209, 209, 210, 211, 211,
  212, 212, 213, 214, 214, 215, 215, 216, 217, 217, 218, 218, 219, 219, 220, 221,
  221, 222, 222, 223, 224, 224, 225, 225, 226, 226, 227, 227, 228, 229, 229, 230,
  230, 231, 231, 232, 232, 233, 234, 234, 235, 235, 236, 236, 237, 237, 238, 238,
  239, 240, 240, 241, 241, 242, 242, 243, 243, 244, 244, 245, 245, 246, 246, 247,
  247, 248, 248, 249, 249, 250, 250, 251, 251, 252, 252, 253, 253, 254, 254, 255]

/-- `iSqrt`, il_internal.cpp:227-270. -/
def iSqrt (x : Int) : C Int :=
  if x < 0 then .ok (-1)
  else
    let n := x.toNat
    let look (s : Nat) : C Nat := rd sqrtTable (n >>> s)
    (fun (v : Nat) => (v : Int)) <$>
      if n ≥ 0x10000 then
        if n ≥ 0x1000000 then
          if n ≥ 0x10000000 then
            if n ≥ 0x40000000 then (· <<< 8) <$> look 24 else (· <<< 7) <$> look 22
          else if n ≥ 0x4000000 then (· <<< 6) <$> look 20
          else (· <<< 5) <$> look 18
        else if n ≥ 0x100000 then
          if n ≥ 0x400000 then (· <<< 4) <$> look 16 else (· <<< 3) <$> look 14
        else if n ≥ 0x40000 then (· <<< 2) <$> look 12
        else (· <<< 1) <$> look 10
      else if n ≥ 0x100 then
        if n ≥ 0x1000 then
          if n ≥ 0x4000 then look 8 else (· >>> 1) <$> look 6
        else if n ≥ 0x400 then (· >>> 2) <$> look 4
        else (· >>> 3) <$> look 2
      else (· >>> 4) <$> look 0

end DevIL.Utility
