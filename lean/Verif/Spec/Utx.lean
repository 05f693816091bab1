/-! Specification of the compact numbers of Unreal packages: how a number is written.  Nothing here refers to the model. -/
set_option autoImplicit false
namespace DevIL.UtxSpec

/-- The rest of a magnitude, seven bits in a byte, the lowest first; every byte but the last has 128 added. -/
def rest (m : Nat) : List UInt8 :=
  if m < 128 then [UInt8.ofNat m] else UInt8.ofNat (m % 128 + 128) :: rest (m / 128)
termination_by m

/-- A number as it is written: the first byte has the sign (128), whether there are more bytes (64), and the lowest six bits of the magnitude. -/
def compact (v : Int) : List UInt8 :=
  UInt8.ofNat ((if v < 0 then 128 else 0) + (if v.natAbs < 64 then 0 else 64) + v.natAbs % 64) :: (if v.natAbs < 64 then [] else rest (v.natAbs / 64))

/-- What is read from these bytes, one after the other: after the end, 255. -/
def reads (bs : List UInt8) (i : Nat) : UInt8 := (bs[i]?).getD 255

end DevIL.UtxSpec
