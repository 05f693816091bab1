import Verif.Model.Pnm
import Verif.Model.Games
/-! Model of the FITS loader, il_fits.cpp.  As in Model/Games.lean an image is bound, allocation succeeds and `ilFixImage` is left out.  The machine is little-endian. -/
set_option autoImplicit false
namespace DevIL.Fits
open DevIL.Games DevIL.Detect DevIL.Image DevIL.DetectSpec
open DevIL.Lump (SEEK_CUR)

/-- The fields of `FITSHEAD` that cards set, il_fits.cpp:19-33.  `memset(Header, 0, sizeof(Header))` (105) clears as many bytes as a pointer has: `IsSimple` and
`BitsPixel`.  The other fields are `none` until they are set. -/
structure Head where
  simple : Bool
  bits : Int
  axes : Option Int
  width : Option Int
  height : Option Int
  depth : Option Int
deriving DecidableEq

/-- The header as `iGetFitsHead` begins, il_fits.cpp:105. -/
def Head.init : Head := ⟨false, 0, none, none, none, none⟩

/-- What `GetCardImage` returns, il_fits.cpp:35-44; cards that are taken or skipped are not told apart by the caller. -/
inductive Key where
  | fail | stop | notSimple | go
deriving DecidableEq

/-- What `atoi` skips first, il_fits.cpp:467. -/
def isspace (c : UInt8) : Bool := c == 32 || (9 ≤ c && c ≤ 13)

/-- `atoi`, il_fits.cpp:467: white space, a sign, digits.  A number that is no `int` is undefined behaviour. -/
def atoi (b : List UInt8) : C Int :=
  let b := b.dropWhile isspace
  let neg := b.head? == some 45
  let v := Pnm.val ((if neg ∨ b.head? = some 43 then b.drop 1 else b).takeWhile Pnm.isdigit)
  if neg then (if v > 2147483648 then .error .overflow else pure (- (v : Int)))
  else if v ≥ 2147483648 then .error .overflow else pure v

/-- `GetCardInt`, il_fits.cpp:448-470: `none` for `IL_FALSE`.  At most 21 bytes and the zero are put into `ValString`, which has 22. -/
def cardInt (b : List UInt8) : C (Option Int) := do
  let x ← rd b 7
  let y ← rd b 8
  if x ≠ 61 ∧ y ≠ 61 then pure none
  else
    let v := ((b.drop 9).take 21).dropWhile (fun c => c == 32 || c == 0)
    if v = [] then pure none
    else do
      let n ← atoi v
      pure (some n)

/-- A use of a field of the header, il_fits.cpp:146, 217, 400, 411, 416, 429, 434. -/
def use (v : Option Int) : C Int :=
  match v with
  | some v => pure v
  | none => .error .uninit

/-- `!strncmp(Buffer, word, length of word)`; no word has a zero in it.  il_fits.cpp:356-428. -/
def starts (b word : List UInt8) : Bool := b.take word.length == word

/-- "END ", il_fits.cpp:356. -/
def wEnd : List UInt8 := [69, 78, 68, 32]
/-- "SIMPLE ", il_fits.cpp:359. -/
def wSimple : List UInt8 := [83, 73, 77, 80, 76, 69, 32]
/-- "BITPIX ", il_fits.cpp:371. -/
def wBitpix : List UInt8 := [66, 73, 84, 80, 73, 88, 32]
/-- "NAXIS ", il_fits.cpp:388. -/
def wNaxis : List UInt8 := [78, 65, 88, 73, 83, 32]
/-- "NAXIS1 ", "NAXIS2 ", "NAXIS3 " for the digits 49, 50, 51; il_fits.cpp:399, 410, 428. -/
def wAxis (d : UInt8) : List UInt8 := [78, 65, 88, 73, 83, d, 32]

/-- What `GetCardImage` does with the card it has read, il_fits.cpp:355-444. -/
def card (h : Head) (b : List UInt8) : C (Key × Head) :=
  if starts b wEnd then pure (.stop, h)
  else if starts b wSimple then do
    let t ← rd b 29
    if t ≠ 84 then pure (.notSimple, { h with simple := false })
    else pure (.go, { h with simple := true })
  else if starts b wBitpix then
    if !h.simple then pure (.fail, h)
    else do
      let v ← cardInt b
      match v with
      | none => pure (.fail, h)
      | some v => if v = 0 then pure (.fail, { h with bits := v }) else pure (.go, { h with bits := v })
  else if starts b wNaxis then do
    let v ← cardInt b
    match v with
    | none => pure (.fail, h)
    | some v => if v < 1 ∨ v > 3 then pure (.fail, { h with axes := some v }) else pure (.go, { h with axes := some v })
  else if starts b (wAxis 49) then do
    let n ← use h.axes
    if n = 0 then pure (.fail, h)
    else do
      let v ← cardInt b
      match v with
      | none => pure (.fail, h)
      | some v => pure (.go, { h with width := some v })
  else if starts b (wAxis 50) then do
    let n ← use h.axes
    if n = 0 ∨ n = 1 then pure (.fail, h)
    else do
      let v ← cardInt b
      match v with
      | none => pure (.fail, h)
      | some v => pure (.go, { h with height := some v })
  else if starts b (wAxis 51) then do
    let n ← use h.axes
    if n < 3 then pure (.fail, h)
    else do
      let v ← cardInt b
      match v with
      | none => pure (.fail, h)
      | some v => pure (.go, { h with depth := some v })
  else pure (.go, h)

/-- The pixel type, il_fits.cpp:124-144: its number and its size. -/
def typeOf (bits : Int) : Option (Nat × Nat) :=
  if bits = 8 then some (IL_UNSIGNED_BYTE, 1)
  else if bits = 16 then some (IL_SHORT, 2)
  else if bits = 32 then some (IL_INT, 4)
  else if bits = -32 then some (IL_FLOAT, 4)
  else if bits = -64 then some (IL_DOUBLE, 8)
  else none

/-- The switch over the number of axes, il_fits.cpp:146-170. -/
def axesOf (h : Head) : C (Option Head) := do
  let n ← use h.axes
  if n = 1 then pure (some { h with height := some 1, depth := some 1 })
  else if n = 2 then pure (some { h with depth := some 1 })
  else if n = 3 then pure (some h)
  else pure none

/-- The dimensions, if all are above 0: the last check of `iCheckFits`, il_fits.cpp:216-220.  The checks before it repeat those of `iGetFitsHead`. -/
def dims (h : Head) : C (Option (Nat × Nat × Nat)) := do
  let w ← use h.width
  if w ≤ 0 then pure none
  else do
    let y ← use h.height
    if y ≤ 0 then pure none
    else do
      let z ← use h.depth
      if z ≤ 0 then pure none else pure (some (w.toNat, y.toNat, z.toNat))

/-- `Header.Width * Header.Height * Header.Depth`, products of `int`s, il_fits.cpp:292. -/
def numPix (w h d : Nat) : C Nat :=
  if w * h ≥ 2147483648 then .error .overflow
  else if w * h * d ≥ 2147483648 then .error .overflow
  else pure (w * h * d)

section
variable {σ : Type} (o : Ops σ) (junk : Nat → UInt8)

/-- `GetCardImage`, il_fits.cpp:348-445. -/
def getCard (h : Head) (s : σ) : C (Key × Head × σ) := do
  let (g, n, s) ← o.read s 1 80
  if n ≠ 80 then pure (.fail, h, s)
  else do
    let (k, h) ← card h g
    pure (k, h, s)

/-- The state of the loop over the cards: the header, the input, whether it goes on and whether all went well.  il_fits.cpp:107-115. -/
structure Cards (σ : Type) where
  head : Head
  inp : σ
  more : Bool
  ok : Bool

/-- One turn of the loop, il_fits.cpp:107-115. -/
def cardStep (t : Cards σ) : C (Cards σ) := do
  let (k, h, s) ← getCard o t.head t.inp
  match k with
  | .stop => pure ⟨h, s, false, true⟩
  | .fail => pure ⟨h, s, false, false⟩
  | .notSimple => pure ⟨h, s, false, false⟩
  | .go =>
    let (e, s) := o.eof s
    pure ⟨h, s, !e, true⟩

/-- `iGetFitsHead`, il_fits.cpp:100-173, and `iCheckFits`, 192-223: the dimensions and the type with its size, if all is well. -/
def getHead (fuel : Nat) (s : σ) : C (Option (Nat × Nat × Nat × Nat × Nat) × σ) := do
  let t ← whileF (fun t : Cards σ => t.more) (cardStep o) fuel ⟨Head.init, s, true, true⟩
  if !t.ok then pure (none, t.inp)
  else
    let (e, s) := o.eof t.inp
    if e then pure (none, s)
    else do
      let (_, s) ← o.seek s (((2880 - o.tell s % 2880) % 2880 : Nat) : Int) SEEK_CUR
      match typeOf t.head.bits with
      | none => pure (none, s)
      | some (type, b) => do
        let h ← axesOf t.head
        match h with
        | none => pure (none, s)
        | some h => do
          let r ← dims h
          match r with
          | none => pure (none, s)
          | some (x, y, z) => pure (some (x, y, z, type, b), s)

/-- `ilTexImage(Width, Height, Depth, 1, IL_LUMINANCE, Type, NULL)`, il_fits.cpp:286, il_devil.cpp:126-165, 19-58. -/
def texOf (w h d type : Nat) : Img :=
  let g := geometry w h d 1 IL_LUMINANCE type []
  { g with data := alloc junk g.size }

/-- `((T*)Data)[i] = GetBigT()` for a type of `b` bytes, il_fits.cpp:302, 307, 312, 328; il_endian.cpp:150-193.  What is not read keeps what was there. -/
def sample (b i : Nat) (t : List UInt8 × σ) : C (List UInt8 × σ) := do
  let (g, _, s) ← o.read t.2 b 1
  let d ← memcpy t.1 (i * b) (g ++ (alloc junk b).drop g.length).reverse 0 b
  pure (d, s)

/-- `iLoadFitsInternal`, il_fits.cpp:269-344.  The arithmetic on floating-point samples (313-324, 329-340) is a parameter: `norm b d` gives the bytes of the block
after it, if `d` was read. -/
def iLoadFitsInternal (norm : Nat → List UInt8 → Nat → UInt8) (fuel : Nat) (cur : Loaded) (s : σ) : C (Bool × Loaded × σ) := do
  let (r, s) ← getHead o fuel s
  match r with
  | none => pure (false, cur, s)
  | some (w, h, d, type, b) => do
    let m := texOf junk w h d type
    let n ← numPix w h d
    if type = IL_UNSIGNED_BYTE then do
      let (k, data, s) ← into o s m.data 1 m.size
      pure (decide (k = m.size), ({ m with data := data }, none), s)
    else do
      let (data, s) ← loopN n (sample o junk b) (m.data, s)
      if type = IL_FLOAT ∨ type = IL_DOUBLE then pure (true, ({ m with data := alloc (norm b data) data.length }, none), s)
      else pure (true, ({ m with data := data }, none), s)

end

end DevIL.Fits
