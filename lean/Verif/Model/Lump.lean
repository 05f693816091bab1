import Verif.Core
/-!
Model of the memory-lump input and output of DevIL/src-IL/src/il_files.cpp and of the dry-run output of
DevIL/src-IL/src/il_size.cpp.  The code keeps the state in globals; here it is a structure passed along.
-/
set_option autoImplicit false
namespace DevIL.Lump

/-- An `ILint` converted to `ILuint`.  il_files.cpp:613-643. -/
def ofInt (i : Int) : Nat := (i % 4294967296).toNat

/-- An `ILuint` converted to `ILint` (two's complement, as every supported compiler does).  il_files.cpp:613-643. -/
def toInt (n : Nat) : Int := if n < 2147483648 then (n : Int) else (n : Int) - 4294967296

/-- `IL_SEEK_SET`, `IL_SEEK_CUR`, `IL_SEEK_END` (include/IL/il.h:497-499). -/
abbrev SEEK_SET : Nat := 0
/-- include/IL/il.h:498. -/
abbrev SEEK_CUR : Nat := 1
/-- include/IL/il.h:499. -/
abbrev SEEK_END : Nat := 2

/-! ### Reading -/

/-- The globals `ReadLump`, `ReadLumpSize` and `ReadLumpPos` of il_files.cpp.  `data` is the memory block behind the
pointer; `size` is the size the caller announced.  il_files.cpp:39-42. -/
structure R where
  data : List UInt8
  size : Nat
  pos : Nat
  deriving DecidableEq, Repr

/-- `iSetInputLump`, il_files.cpp:318-328. -/
def open_ (data : List UInt8) (size : Nat) : R := { data := data, size := size, pos := 0 }

/-- `iEofLump`, il_files.cpp:425-430. -/
def eof (l : R) : Bool := if l.size ≠ 0 then decide (l.pos ≥ l.size) else false

/-- `iTellRLump`, il_files.cpp:652-655. -/
def tell (l : R) : Nat := l.pos

/-- `iGetcLump`, il_files.cpp:447-459; `none` is `IL_EOF` together with `IL_FILE_READ_ERROR`. -/
def getc (l : R) : C (Option UInt8 × R) :=
  if l.size > 0 ∧ u32 (l.pos + 1) > l.size then .ok (none, { l with pos := ofInt ((l.pos : Int) - 1) })
  else do
    let b ← rd l.data l.pos
    pure (some b, { l with pos := u32 (l.pos + 1) })

/-- The loop of `iReadLump`, il_files.cpp:520-529, with `n` iterations left and `i` done; `acc` is what has been stored
into the caller's buffer.  The flag tells whether the loop returned from the function. -/
def readLoop (l : R) : Nat → Nat → List UInt8 → C (List UInt8 × Nat × Bool)
  | 0, i, acc => .ok (acc, i, false)
  | n + 1, i, acc => do
      let b ← rd l.data (l.pos + i)
      if l.size > 0 ∧ u32 (l.pos + i) > l.size then pure (acc ++ [b], i, true)
      else readLoop l n (i + 1) (acc ++ [b])

/-- What `iread` delivers: the bytes stored at the start of the caller's buffer, the return value, and whether
`IL_FILE_READ_ERROR` was raised.  il_files.cpp:516-538. -/
structure Got where
  bytes : List UInt8
  ret : Nat
  err : Bool
  deriving DecidableEq, Repr

/-- `iReadLump`, il_files.cpp:516-538.  The caller's buffer is taken to be large enough for `Size*Number` bytes. -/
def read (l : R) (size number : Nat) : C (Got × R) := do
  let byteSize := min (u32 (size * number)) (ofInt ((l.size : Int) - l.pos))
  let (acc, i, early) ← readLoop l byteSize 0 []
  if early then pure (⟨acc, i, decide (i ≠ number)⟩, { l with pos := u32 (l.pos + i) })
  else
    let r := if size ≠ 0 then i / size else i
    pure (⟨acc, r, decide (r ≠ number)⟩, { l with pos := u32 (l.pos + i) })

/-- The position arithmetic that `iSeekRLump` (il_files.cpp:613-643) and `iSeekWLump` (il_files.cpp:731-761) share;
`none` is the return value 1 (refused).  `abs(INT_MIN)` is signed overflow. -/
def seekTo (size pos : Nat) (off : Int) (mode : Nat) : C (Option Nat) :=
  if mode = SEEK_SET then
    if off > toInt size then .ok none else .ok (some (ofInt off))
  else if mode = SEEK_CUR then
    if ofInt ((pos : Int) + off) > size then .ok none else .ok (some (ofInt ((pos : Int) + off)))
  else if mode = SEEK_END then
    if off > 0 then .ok none
    else if off = -2147483648 then .error .overflow
    else if (off.natAbs : Int) > toInt size then .ok none
    else .ok (some (ofInt ((size : Int) + off)))
  else .ok none

/-- `iSeekRLump`, il_files.cpp:613-643: the return value is `true` for 0 (success). -/
def seek (l : R) (off : Int) (mode : Nat) : C (Bool × R) := do
  match ← seekTo l.size l.pos off mode with
  | some p => pure (true, { l with pos := p })
  | none => pure (false, l)

/-- `iread(dst + off, size, number)` into a block of the program: a fault if a delivered byte falls outside it.  il_files.cpp:516-538. -/
def readAt (l : R) (dst : List UInt8) (off size number : Nat) : C (Nat × List UInt8 × R) := do
  let (g, l) ← read l size number
  if off + g.bytes.length ≤ dst.length then
    pure (g.ret, dst.take off ++ (g.bytes ++ dst.drop (off + g.bytes.length)), l)
  else .error .oobWrite

/-- `(ILubyte)igetc()`: the end of the file (-1) becomes 255.  il_files.cpp:449-458. -/
def getb (l : R) : C (UInt8 × R) := do
  let (b, l) ← getc l
  pure (match b with | some b => b | none => 255, l)

/-! ### Writing -/

/-- The calls a saver can make on its output, through the function pointers `iputc`, `iwrite` and `iseekw`;
`write buf size number` hands over the buffer `buf`.  A saver is modelled as the list of calls it makes.  il_files.h:50-75. -/
inductive WOp where
  | putc (b : UInt8)
  | write (buf : List UInt8) (size number : Nat)
  | seek (off : Int) (mode : Nat)
  deriving DecidableEq

/-- The bytes one call appends to the output, when the saver does not seek.  il_files.cpp:678-720. -/
def WOp.bytes : WOp → List UInt8
  | .putc b => [b]
  | .write buf s n => buf.take (s * n)
  | .seek _ _ => []

/-- The globals `WriteLump`, `WriteLumpSize` and `WriteLumpPos` of il_files.cpp; `data` is the caller's buffer.  il_files.cpp:39-42. -/
structure W where
  data : List UInt8
  size : Nat
  pos : Nat
  deriving DecidableEq, Repr

/-- `iSetOutputLump` with a non-null pointer, il_files.cpp:360-374. -/
def openW (data : List UInt8) (size : Nat) : W := { data := data, size := size, pos := 0 }

/-- `iTellWLump`, il_files.cpp:770-773, and `ilGetLumpPos`, il_files.cpp:377-382. -/
def tellw (w : W) : Nat := w.pos

/-- `iPutcLump`, il_files.cpp:678-684; the flag is false for the return value `IL_EOF`. -/
def putc (w : W) (b : UInt8) : C (Bool × W) :=
  if w.pos ≥ w.size then .ok (false, w)
  else do
    let d ← wr w.data w.pos b
    pure (true, { w with data := d, pos := u32 (w.pos + 1) })

/-- The loop of `iWriteLump`, il_files.cpp:704-714, with `n` iterations left and `i` done; the flag tells whether it
returned from the function (with `IL_FILE_WRITE_ERROR`). -/
def writeLoop (w : W) (buf : List UInt8) : Nat → Nat → List UInt8 → C (List UInt8 × Nat × Bool)
  | 0, i, d => .ok (d, i, false)
  | n + 1, i, d =>
      if w.size > 0 ∧ u32 (w.pos + i) ≥ w.size then .ok (d, i, true)
      else do
        let b ← rd buf i
        let d ← wr d (w.pos + i) b
        writeLoop w buf n (i + 1) d

/-- `iWriteLump`, il_files.cpp:699-719; the result is the return value and the new state. -/
def write (w : W) (buf : List UInt8) (size number : Nat) : C (Nat × W) := do
  let n := u32 (size * number)
  let (d, i, early) ← writeLoop w buf n 0 w.data
  if early then pure (i, { w with data := d, pos := u32 (w.pos + i) })
  else pure (n, { w with data := d, pos := u32 (w.pos + n) })

/-- `iSeekWLump`, il_files.cpp:731-761: the return value is `true` for 0 (success). -/
def seekw (w : W) (off : Int) (mode : Nat) : C (Bool × W) := do
  match ← seekTo w.size w.pos off mode with
  | some p => pure (true, { w with pos := p })
  | none => pure (false, w)

/-! ### The dry run -/

/-- The globals `CurPos` and `MaxPos`, il_size.cpp:19-20. -/
structure Dry where
  cur : Nat
  max : Nat
  deriving DecidableEq, Repr

/-- il_size.cpp:82, the state in which `ilDetermineSize` starts the save. -/
def dry0 : Dry := ⟨0, 0⟩

/-- `if (CurPos > MaxPos) MaxPos = CurPos;` (il_size.cpp:30-31, 47-48, 61-62, 69-70). -/
def Dry.bump (s : Dry) : Dry := if s.cur > s.max then { s with max := s.cur } else s

/-- `iSizePutc`, il_size.cpp:58-64. -/
def dryPutc (s : Dry) : Dry := Dry.bump { s with cur := u32 (s.cur + 1) }

/-- `iSizeWrite`, il_size.cpp:66-72. -/
def dryWrite (s : Dry) (size number : Nat) : Dry := Dry.bump { s with cur := u32 (s.cur + u32 (size * number)) }

/-- `iSizeSeek`, il_size.cpp:24-51 (an unknown mode changes nothing). -/
def drySeek (s : Dry) (off : Int) (mode : Nat) : Dry :=
  if mode = SEEK_SET then Dry.bump { s with cur := ofInt off }
  else if mode = SEEK_CUR then Dry.bump { s with cur := ofInt ((s.cur : Int) + off) }
  else if mode = SEEK_END then Dry.bump { s with cur := ofInt ((s.max : Int) + off) }
  else s

end DevIL.Lump
