import Verif.Model.Games
/-! Model of the loader of pictures in MP3 files, il_mp3.cpp.  An image is bound.  The loaders of JPEG and PNG are parameters. -/
set_option autoImplicit false
namespace DevIL.Mp3
open DevIL.Games DevIL.Detect DevIL.Image
open DevIL.Lump (SEEK_SET SEEK_CUR)

/-- `GetSynchInt`, il_mp3.cpp:83-93, of the number read; the masks and shifts are written as divisions, and `|` of numbers without common bits as sums. -/
def synch (v : Nat) : Nat := v / 2 ^ 24 % 128 * 2 ^ 21 + v / 2 ^ 16 % 128 * 2 ^ 14 + v / 2 ^ 8 % 128 * 2 ^ 7 + v % 128

section
variable {σ : Type} (o : Ops σ) (junk : Nat → UInt8)

/-- The loops over `MimeType` and `Description`, il_mp3.cpp:162-169, 181-187, with so many turns left: the string.  After the last turn, `MimeType[65]` is read. -/
def cstr : Nat → List UInt8 → σ → C (List UInt8 × σ)
  | 0, _, _ => .error .oobRead
  | n + 1, acc, s => do
    let (c, s) ← o.getc s
    let c := match c with | some c => c | none => 255
    if c = 0 then pure (acc, s) else cstr n (acc ++ [c]) s

/-- What follows the head of a frame with a picture, il_mp3.cpp:158-188: `Type`, 1 for JPEG and 2 for PNG. -/
def apicFrame (s : σ) : C (Nat × σ) := do
  let (_, s) ← o.getc s
  let (mime, s) ← cstr o 65 [] s
  let type := if mime = [105, 109, 97, 103, 101, 47, 106, 112, 101, 103] then 1 else if mime = [105, 109, 97, 103, 101, 47, 112, 110, 103] then 2 else 0
  let (_, s) ← o.getc s
  let (_, s) ← cstr o 65 [] s
  pure (type, s)

/-- `iFindMp3Pic`, il_mp3.cpp:137-198, in at most so many turns. -/
def iFindMp3Pic (major : UInt8) (length : Nat) : Nat → σ → C (Nat × σ)
  | 0, _ => .error .hang
  | f + 1, s => do
    let (n, id, s) ← into o s (alloc junk 4) 4 1
    if n ≠ 1 then pure (0, s)
    else do
      let (h, s) ← head o junk [u32f, u16] s
      let size := if major = 3 then fbe h 0 else synch (fbe h 0)
      if id = [65, 80, 73, 67] then apicFrame o s
      else do
        let (_, s) ← o.seek s (Lump.toInt size) SEEK_CUR
        let (e, s) := o.eof s
        if !e && decide (o.tell s < length) then iFindMp3Pic major length f s else pure (0, s)

/-- `iLoadMp3Internal`, `iGetMp3Head` and `iCheckMp3`, il_mp3.cpp:97-107, 126-134, 243-280. -/
def iLoadMp3Internal (jpg png : σ → C (Bool × List Img × σ)) (fuel : Nat) (cur : Img) (s : σ) : C (Bool × List Img × σ) := do
  let (n, sig, s) ← into o s (alloc junk 3) 3 1
  if n ≠ 1 then pure (false, [cur], s)
  else do
    let (h, s) ← head o junk [.getc, .getc, .getc, u32f] s
    if sig ≠ [73, 68, 51] then pure (false, [cur], s)
    else if fld h 0 ≠ [3] ∧ fld h 1 ≠ [4] then pure (false, [cur], s)
    else do
      let (type, s) ← iFindMp3Pic o junk ((fld h 0).headD 0) (synch (fbe h 3)) fuel s
      if type = 1 then jpg s else if type = 2 then png s else pure (false, [cur], s)

end
end DevIL.Mp3
