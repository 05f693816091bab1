import Verif.Model.Games
/-! Model of the loader of raw data, il_rawdata.cpp:22-94: bytes without a header, with the shape given by the caller.  Allocation succeeds;
`ilFixImage` and errors raised are left out, as in Model/Games.lean. -/
set_option autoImplicit false
namespace DevIL.RawData

open DevIL.Detect DevIL.Image DevIL.Games

section
variable {σ : Type} (o : Ops σ) (junk : Nat → UInt8)

/-- The format given to raw data of this many bytes per pixel, il_rawdata.cpp:86-91. -/
def dataFormat (bpp : Nat) : Nat := if bpp = 1 then IL_LUMINANCE else if bpp = 3 then IL_RGB else IL_RGBA

/-- The block made by `ilTexImage(Width, Height, Depth, Bpp, 0, IL_UNSIGNED_BYTE, NULL)`, il_devil.cpp:126-165, 19-58, with the origin of
il_rawdata.cpp:80. -/
def dataTex (w h d bpp : Nat) : Img :=
  let g := geometry w h d bpp 0 IL_UNSIGNED_BYTE []
  { g with data := alloc junk g.size, origin := IL_ORIGIN_UPPER_LEFT }

/-- `iLoadDataInternal`, il_rawdata.cpp:70-94.  `cur` is the bound image (`none` for none). -/
def iLoadDataInternal (w h d bpp : Nat) (cur : Option Img) (s : σ) : C (Bool × Option Img × σ) :=
  if cur.isNone ∨ (bpp ≠ 1 ∧ bpp ≠ 3 ∧ bpp ≠ 4) then pure (false, cur, s)
  else do
    let m := dataTex junk w h d bpp
    let (n, data, s) ← into o s m.data (u32 (u32 (u32 (w * h) * d) * bpp)) 1
    if n ≠ 1 then pure (false, some { m with data := data }, s)
    else pure (true, some { m with data := data, format := dataFormat bpp }, s)

end

/-- `ilLoadDataF`, il_rawdata.cpp:47-58: the file is left where it was. -/
def ilLoadDataF (junk : Nat → UInt8) (w h d bpp : Nat) (cur : Option Img) : Cache.S → C (Bool × Option Img × Cache.S) :=
  ilLoadF (iLoadDataInternal fileOps junk w h d bpp cur)

/-- `ilLoadDataL`, il_rawdata.cpp:62-66. -/
def ilLoadDataL (junk : Nat → UInt8) (w h d bpp : Nat) (cur : Option Img) : List UInt8 → Nat → C (Bool × Option Img) :=
  ilLoadL (iLoadDataInternal lumpOps junk w h d bpp cur)

/-- `ilLoadData`, il_rawdata.cpp:22-43: the file is opened, read and closed; `none` if it cannot be opened.  The result of closing is not
looked at. -/
def ilLoadData (junk : Nat → UInt8) (w h d bpp : Nat) (cur : Option Img) (file : Option (List UInt8)) (opened : List UInt8 → Cache.S) :
    C (Bool × Option Img) :=
  match file with
  | none => pure (false, cur)
  | some bs => do
      let (ok, m, _) ← ilLoadDataF junk w h d bpp cur (opened bs)
      pure (ok, m)

end DevIL.RawData
