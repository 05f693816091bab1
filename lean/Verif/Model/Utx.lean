import Verif.Core
/-! Model of the compact numbers of Unreal packages, il_utx.cpp.  `int` has 32 bits, and a shift into its sign sets that bit. -/
set_option autoImplicit false
namespace DevIL.Utx

/-- The loop of `UtxReadCompactInteger`, il_utx.cpp:181-212: so many turns are left, the next is number `i`, and `get i` is what `igetc` gives in it.  The bits of `output`, and the number of bytes read. -/
def go (get : Nat → UInt8) : Nat → Nat → Nat → Nat × Nat
  | 0, i, output => (output, i)
  | n + 1, i, output =>
    let x := (get i).toNat
    if i = 0 then
      let output := output ||| (x &&& 0x3F)
      if x &&& 0x40 = 0 then (output, i + 1) else go get n (i + 1) output
    else if i = 4 then go get n (i + 1) (output ||| u32 ((x &&& 0x1F) <<< (6 + 3 * 7)))
    else
      let output := output ||| ((x &&& 0x7F) <<< (6 + (i - 1) * 7))
      if x &&& 0x80 = 0 then (output, i + 1) else go get n (i + 1) output

/-- `UtxReadCompactInteger`, il_utx.cpp:175-217: the number, and how many bytes were read. -/
def UtxReadCompactInteger (get : Nat → UInt8) : C (Int × Nat) :=
  let r := go get 5 0 0
  let output : Int := if r.1 < 2147483648 then r.1 else (r.1 : Int) - 4294967296
  if (get 0).toNat &&& 0x80 > 0 then
    if output = -2147483648 then .error .overflow else pure (output * -1, r.2)
  else pure (output, r.2)

end DevIL.Utx
