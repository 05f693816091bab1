import Verif.Model.Endian
import Verif.Model.Image
/-! Model of DevIL/src-IL/src/il_raw.cpp. -/
set_option autoImplicit false
namespace DevIL.Raw
open DevIL.Lump DevIL.Endian DevIL.Image DevIL.Utility

/-- `iSaveRawInternal`, il_raw.cpp:170-185, for a bound image: the calls it makes. -/
def iSaveRawInternal (big : Bool) (m : Img) : List WOp :=
  [.write (SaveLittleUInt big (BitVec.ofNat 32 m.width)) 4 1,
   .write (SaveLittleUInt big (BitVec.ofNat 32 m.height)) 4 1,
   .write (SaveLittleUInt big (BitVec.ofNat 32 m.depth)) 4 1,
   .putc (UInt8.ofNat m.bpp), .putc (UInt8.ofNat m.bpc),
   .write m.data 1 m.size]

/-- il_raw.cpp:106-111, the format from the number of components. -/
def rawFormat (bpp : Nat) : Nat := if bpp = 1 then IL_LUMINANCE else if bpp = 3 then IL_RGB else IL_RGBA

/-- `iLoadRawInternal`, il_raw.cpp:71-114, for a bound image; `none` is `IL_FALSE`.  `originSet` is the origin to use
when `IL_ORIGIN_SET` is enabled (line 99-104).  `ilFixImage` is left out: it does nothing unless `IL_ORIGIN_SET`,
`IL_TYPE_SET` or `IL_FORMAT_SET` is enabled (il_convert.cpp:986-1022), and after line 100 the origin agrees. -/
def iLoadRawInternal (big : Bool) (junk : Nat → UInt8) (originSet : Option Nat) (l : R) : C (Option Img × R) := do
  let (w, l) ← GetLittleUInt big junk l
  let (h, l) ← GetLittleUInt big junk l
  let (d, l) ← GetLittleUInt big junk l
  let (bpp, l) ← getb l
  let (g, l) ← read l 1 1
  match g.bytes with
  | [] => pure (none, l)
  | bpc :: _ => do
    match ← ilInitImage junk w.toNat h.toNat d.toNat bpp.toNat 0 (ilGetTypeBpc bpc.toNat) none with
    | none => pure (none, l)
    | some m => do
      let (n, data, l) ← readAt l m.data 0 1 m.size
      if n < m.size then pure (none, l)
      else pure (some { m with data := data, format := rawFormat bpp.toNat,
                               origin := match originSet with | some o => o | none => IL_ORIGIN_UPPER_LEFT }, l)

end DevIL.Raw
