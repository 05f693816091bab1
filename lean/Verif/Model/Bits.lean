import Verif.Model.Lump
/-! Model of DevIL/src-IL/src/il_bits.cpp over a memory lump. -/
set_option autoImplicit false
namespace DevIL.Bits
open DevIL.Lump

/-- `BITFILE` (il_bits.h:22-28) together with the input it reads from. -/
structure B where
  bitPos : Nat
  off : Int
  buff : UInt8
  inp : R
  deriving DecidableEq

/-- `bfile`, il_bits.cpp:39-54, for a non-null handle. -/
def bfile (l : R) : B := { bitPos := u32 (tell l * 8), off := 8, buff := 0, inp := l }

/-- `!!(Buff & (1 << ByteBitOff))`, il_bits.cpp:139 and 169, for an offset in 0..7. -/
def bit (s : B) : Bool := s.buff.toNat.testBit s.off.toNat

/-- il_bits.cpp:133-137 (and 163-167): fetch the next byte when the current one is used up; `false` means that the input
is exhausted. -/
def refill (s : B) : C (Bool × B) :=
  if s.off < 0 ∨ s.off > 7 then do
    let (g, l) ← read s.inp 1 1
    let s := { s with off := 7, inp := l }
    match g.bytes with
    | b :: _ => pure (decide (g.ret = 1), { s with buff := b })
    | [] => pure (decide (g.ret = 1), s)
  else .ok (true, s)

/-- The loop of `bread`, il_bits.cpp:132-143, with `n` iterations left; the bits stored so far are in `acc`. -/
def breadLoop : Nat → B → List Bool → C (List Bool × B)
  | 0, s, acc => .ok (acc, s)
  | n + 1, s, acc => do
      let (ok, s) ← refill s
      if ok then breadLoop n { s with off := s.off - 1 } (acc ++ [bit s])
      else pure (acc, s)

/-- `bread`, il_bits.cpp:123-146: the bits stored in the buffer (one per byte, as 0 or 1); the return value is their
number. -/
def bread (size number : Nat) (s : B) : C (List Bool × B) := breadLoop (u32 (size * number)) s []

/-- The loop of `breadVal`, il_bits.cpp:161-173: `BuffPos` and `Buffer`. -/
def valLoop : Nat → B → Nat → Nat → C (Nat × Nat × B)
  | 0, s, p, v => .ok (p, v, s)
  | n + 1, s, p, v => do
      let (ok, s) ← refill s
      if ok then valLoop n { s with off := s.off - 1 } (p + 1) (u32 (v * 2 + (bit s).toNat))
      else pure (p, v, s)

/-- `breadVal`, il_bits.cpp:150-176: it returns `BuffPos`, not the `Buffer` it assembled. -/
def breadVal (numBits : Nat) (s : B) : C (Nat × B) :=
  if numBits > 32 then .ok (0, s)
  else do
    let (p, _, s) ← valLoop numBits s 0 0
    pure (p, s)

/-- `bseek` with `IL_SEEK_SET`, il_bits.cpp:89-94; the function returns 0 in every case. -/
def bseekSet (offset : Nat) (s : B) : C B := do
  let (ok, l) ← seek s.inp (toInt (offset / 8)) SEEK_SET
  if ok then pure { s with inp := l, bitPos := offset, off := ((offset % 8 : Nat) : Int) }
  else pure { s with inp := l }

end DevIL.Bits
