import Verif.Model.Pal
import Verif.Model.Pnm
/-! Model of palette files: `ilSaveJascPal`, `ilLoadJascPal`, `ilLoadActPal`, `ilLoadPltPal` and `ilLoadHaloPal` of il_pal.cpp, on a host where text files are not translated. -/
set_option autoImplicit false
namespace DevIL.PalFile
open DevIL.Utility DevIL.Register

/-! ### Text -/

/-- `fgetc`: the character (`none` for `EOF`) and the position after it.  il_pal.cpp:152. -/
def fgetc (d : List UInt8) (p : Nat) : Option UInt8 × Nat :=
  match d[p]? with
  | none => (none, p)
  | some c => (some c, p + 1)

/-- `isprint` in the "C" locale; `EOF` does not print.  il_pal.cpp:165. -/
def isprint (c : Option UInt8) : Bool :=
  match c with
  | none => false
  | some c => 32 ≤ c && c ≤ 126

/-- Locals of `iFgetw`, il_pal.cpp:143-144: the word so far, the position, and whether the loop was left. -/
structure W where
  word : List UInt8
  pos : Nat
  out : Bool
  deriving DecidableEq

/-- One turn of the loop of `iFgetw`, il_pal.cpp:151-173.  The inner loops end or they read `EOF` for ever. -/
def wordStep (d : List UInt8) (s : W) : C W :=
  let (t, p) := fgetc d s.pos
  if t = some 10 ∨ t = some 0 ∨ t = none then pure { s with pos := p, out := true }
  else if t = some 32 then do
    let (_, p) ← whileF (fun s : Option UInt8 × Nat => s.1 == some 32) (fun s => pure (fgetc d s.2)) (d.length + 2) (t, p)
    pure { s with pos := p - 1, out := true }
  else if !isprint t then do
    let (_, p) ← whileF (fun s : Option UInt8 × Nat => !isprint s.1) (fun s => pure (fgetc d s.2)) (d.length + 2) (t, p)
    pure { s with pos := p - 1, out := true }
  else pure { s with word := s.word ++ t.toList, pos := p }

/-- `iFgetw` with a buffer of 256 bytes, il_pal.cpp:141-178: the word and the position after it. -/
def iFgetw (d : List UInt8) (p : Nat) : C (List UInt8 × Nat) := do
  let s ← loopN 255 (fun _ s => if s.out then pure s else wordStep d s) ⟨[], p, false⟩
  pure (s.word, s.pos)

/-- `atoi` of a word without white space; a number that is no `int` is undefined behaviour.  il_pal.cpp:111, 129. -/
def atoi (w : List UInt8) : C Int :=
  let neg := w.head? == some 45
  let ds := (if neg ∨ w.head? = some 43 then w.drop 1 else w).takeWhile Pnm.isdigit
  if Pnm.val ds ≥ 2147483648 then .error .overflow
  else pure (if neg then - (Pnm.val ds : Int) else Pnm.val ds)

/-! ### JASC palettes -/

/-- What a palette loader leaves: the new palette, or none, after the old one was freed (`bad`) or was not touched (`same`).  il_pal.cpp:96-121. -/
inductive Loaded where
  | pal (p : Pal)
  | bad
  | same
  deriving DecidableEq

/-- `ilLoadJascPal` on a file with a `.pal` name that could be opened, for a current image with a palette, il_pal.cpp:68-136.  Allocation succeeds. -/
def ilLoadJascPal (junk : Nat → UInt8) (d : List UInt8) : C Loaded := do
  let (w1, p) ← iFgetw d 0
  let (w2, p) ← iFgetw d p
  let (w3, p) ← iFgetw d p
  let n ← atoi w3
  let n := (n % 4294967296).toNat
  if n = 0 ∨ ¬ (sameStr w1 (txt ['J','A','S','C','-','P','A','L'])) ∨ ¬ (sameStr w2 (txt ['0','1','0','0'])) then pure .bad
  else do
    let size := u32 (n * 3)
    let (b, _) ← loopN n (fun i s => loopN 3 (fun c (s : List UInt8 × Nat) => do
      let (w, p) ← iFgetw d s.2
      let v ← atoi w
      let b ← wr s.1 (u32 (i * 3 + c)) (UInt8.ofNat (v % 256).toNat)
      pure (b, p)) s) (alloc junk size, p)
    pure (.pal ⟨b, size, IL_PAL_RGB24⟩)

/-- `fprintf(PalFile, "%d %d %d\n", …)`, il_pal.cpp:271-272. -/
def line (r g b : UInt8) : List UInt8 := Pnm.printD r.toNat ++ [32] ++ Pnm.printD g.toNat ++ [32] ++ Pnm.printD b.toNat ++ [10]

/-- `ilSaveJascPal` when the name and the mode allow it and the file can be opened, il_pal.cpp:214-291: the file and the palette of the image afterwards, or `none` when it is refused.
The colours are counted first (216); the palette is copied and the copy converted, which changes `PalSize` and `PalType`; then the old block is put back.  Allocation succeeds. -/
def ilSaveJascPal (junk : Nat → UInt8) (p : Pal) : C (Option (List UInt8 × Pal)) :=
  let cols := p.size / ilGetBppPal p.type
  if cols = 0 ∨ cols > 256 then pure none
  else do
    let copy ← memcpy (alloc junk p.size) 0 p.data 0 p.size
    match ← Palette.ilConvertPal junk ⟨copy, p.size, p.type⟩ IL_PAL_RGB24 with
    | none => pure none
    | some q => do
      let t ← forStep 0 q.size (ilGetBppPal q.type) (fun i t => do
        let r ← rd q.data i
        let g ← rd q.data (i + 1)
        let b ← rd q.data (i + 2)
        pure (t ++ line r g b)) (txt ['J','A','S','C','-','P','A','L','\n','0','1','0','0','\n','2','5','6','\n'])
      let t ← loopN (256 - cols) (fun _ t => pure (t ++ txt ['0',' ','0',' ','0','\n'])) t
      pure (some (t, ⟨p.data, q.size, q.type⟩))

/-! ### The other palettes -/

/-- The file that `iread` reads: the handle given to the last `iSetInputFile`, il_files.cpp:304-313, which may be closed by now, or none yet. -/
inductive Input where
  | none
  | closed
  | open_ (data : List UInt8)
  deriving DecidableEq

/-- `iread` of `n` bytes from the start, il_files.cpp:462-477: what there is. -/
def iread (i : Input) (n : Nat) : C (List UInt8) :=
  match i with
  | .none => .error .nullDeref
  | .closed => .error .useAfterFree
  | .open_ d => pure (d.take n)

/-- `ilLoadActPal` on a file with the contents `d`, for a current image with a palette, il_pal.cpp:449-490.  The file is opened, but nothing tells `iread` so: `i` is what it reads. -/
def ilLoadActPal (junk : Nat → UInt8) (i : Input) (_d : List UInt8) : C (Bool × Loaded) := do
  let r ← iread i 768
  let b ← memcpy (alloc junk 768) 0 r 0 r.length
  pure (decide (r.length = 768), .pal ⟨b, 768, IL_PAL_RGB24⟩)

end DevIL.PalFile
