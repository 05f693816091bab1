import Verif.Buf
import Verif.Model.Lump
import Verif.Spec.Cache
/-! Model of the read cache, il_files.cpp:59-61 and 428-676: `iPreCache`, `iUnCache`, `iGetcFile`, `iReadFile`, `iSeekRFile`, `iTellRFile`, on a file accessed by the default functions. -/
set_option autoImplicit false
namespace DevIL.Cache

open DevIL.Lump (SEEK_SET SEEK_CUR SEEK_END)

/-- The file `FileRead` and its position, `ReadFileStart`, and the cache, il_files.cpp:38-41, 59-61. -/
structure S where
  data : List UInt8
  pos : Nat
  start : Nat
  use : Bool
  cache : List UInt8
  size : Nat
  cpos : Nat
  cstart : Nat
  cread : Nat
  deriving DecidableEq

/-- `iSetInputFile` on a file at a position, il_files.cpp:304-313.  The cache is as the last load left it. -/
def iSetInputFile (s : S) (data : List UInt8) (pos : Nat) : S := { s with data := data, pos := pos, start := pos }

/-- `fgetc`: `iDefaultGetc`, il_files.cpp:174-189; `none` is `IL_EOF`. -/
def fgetc (s : S) : Option UInt8 × S :=
  match s.data[s.pos]? with
  | some b => (some b, { s with pos := s.pos + 1 })
  | none => (none, s)

/-- `fread`: `iDefaultRead`, il_files.cpp:192-195: the bytes and the number of complete items. -/
def fread (s : S) (size number : Nat) : List UInt8 × Nat × S :=
  let got := (s.data.drop s.pos).take (size * number)
  (got, if size = 0 then 0 else got.length / size, { s with pos := s.pos + got.length })

/-- `iSeekRFile`, il_files.cpp:604-612, and `fseek`: whether it succeeds (the file position may be beyond the end). -/
def iSeekRFile (s : S) (off : Int) (mode : Nat) : Bool × S :=
  let t := if mode = SEEK_SET then off + s.start else if mode = SEEK_CUR then s.pos + off else s.data.length + off
  if t < 0 ∨ mode > 2 then (false, s) else (true, { s with pos := t.toNat })

/-- `iTellRFile`, il_files.cpp:646-654. -/
def iTellRFile (s : S) : Nat := u32 s.pos

/-- `iEofFile`, il_files.cpp:419-425, and `iDefaultEof`, 158-172. -/
def iEofFile (s : S) : Bool × S :=
  let orig := iTellRFile s
  let (_, s) := iSeekRFile s 0 SEEK_END
  let size := iTellRFile s
  let (_, s) := iSeekRFile s (Lump.toInt orig) SEEK_SET
  (decide (iTellRFile s ≥ size), s)

/-- `iPreCache` on a file, il_files.cpp:543-579.  Allocation succeeds. -/
def iPreCache (junk : Nat → UInt8) (s : S) (size : Nat) : C S := do
  let size := if size = 0 then 1 else size
  let start := iTellRFile s
  let (got, _, s) := fread s 1 size
  let b ← memcpy (alloc junk size) 0 got 0 got.length
  pure { s with cache := b, cstart := start, size := size, cpos := 0, use := true, cread := 0 }

/-- `iUnCache` on a file, il_files.cpp:582-604. -/
def iUnCache (s : S) : S :=
  if !s.use then s
  else
    let s := { s with size := 0, cpos := 0, cache := [], use := false }
    (iSeekRFile s (Lump.toInt (u32 (s.cstart + s.cread))) SEEK_SET).2

/-- `iGetcFile`, il_files.cpp:434-445; `none` is `IL_EOF`. -/
def iGetcFile (junk : Nat → UInt8) (s : S) : C (Option UInt8 × S) :=
  if !s.use then pure (fgetc s)
  else do
    let s ← (if s.cpos ≥ s.size then iPreCache junk s s.size else pure s)
    let b ← rd s.cache s.cpos
    pure (some b, { s with cread := u32 (s.cread + 1), cpos := s.cpos + 1 })

/-- The loop of `iReadFile`, il_files.cpp:488-502, with the bytes copied so far. -/
def readLoop (junk : Nat → UInt8) (want : Nat) (s : S) : C (List UInt8 × S) :=
  whileF (fun t : List UInt8 × S => decide (t.1.length < want)) (fun t => do
    let (acc, s) := t
    let n := if u32 (acc.length + s.size - s.cpos) > want then want - acc.length else s.size - s.cpos
    let b ← memcpy (List.replicate n 0) 0 s.cache s.cpos n
    let acc := acc ++ b
    let s := { s with cpos := s.cpos + n }
    let s ← (if acc.length < want then iPreCache junk s s.size else pure s)
    pure (acc, s)) (want + 2) ([], s)

/-- `iReadFile`, il_files.cpp:462-513: the bytes written to the buffer and the returned number. -/
def iReadFile (junk : Nat → UInt8) (s : S) (size number : Nat) : C (List UInt8 × Nat × S) :=
  if !s.use then pure (fread s size number)
  else
    let want := u32 (size * number)
    if want < s.size - s.cpos then do
      let b ← memcpy (List.replicate want 0) 0 s.cache s.cpos want
      pure (b, if size ≠ 0 then want / size else want, { s with cpos := s.cpos + want, cread := u32 (s.cread + want) })
    else do
      let (b, s) ← readLoop junk want s
      pure (b, if size ≠ 0 then b.length / size else b.length, { s with cread := s.cpos })

/-- One request.  il_files.cpp:434-513, 543-612, 651-654. -/
def step (junk : Nat → UInt8) (s : S) : Op → C (Got × S)
  | .getc => do let (b, s) ← iGetcFile junk s; pure (.byte b, s)
  | .read size number => do let (b, n, s) ← iReadFile junk s size number; pure (.bytes b n, s)
  | .seek off mode => let (r, s) := iSeekRFile s off mode; pure (.ok r, s)
  | .tell => pure (.at_ (iTellRFile s), s)
  | .eof => let (b, s) := iEofFile s; pure (.ok b, s)
  | .pre size => do let s ← iPreCache junk s size; pure (.nothing, s)
  | .un => pure (.nothing, iUnCache s)

/-- A sequence of requests.  A sequence is not in the code. -/
def run (junk : Nat → UInt8) : List Op → S → C (List Got × S)
  | [], s => pure ([], s)
  | op :: ops, s => do
    let (g, s) ← step junk s op
    let (gs, s) ← run junk ops s
    pure (g :: gs, s)

end DevIL.Cache
