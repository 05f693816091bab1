import Verif.Model.Dds
/-! Model of the loader of Total War textures, DevIL/src-IL/src/il_texture.cpp: 48 bytes and a DDS file.  The loader of DDS files is `v`. -/
set_option autoImplicit false
namespace DevIL.Texture
open DevIL.Detect DevIL.Games
open DevIL.Lump (SEEK_SET SEEK_CUR)

/-- `ilLoadTextureF`, il_texture.cpp:38-52: its result, what is loaded, and the file. -/
def ilLoadTextureF {ρ : Type} (v : Cache.S → C (Bool × ρ × Cache.S)) (s : Cache.S) : C (Bool × ρ × Cache.S) := do
  let s := Cache.iSetInputFile s s.data s.pos
  let first := Cache.iTellRFile s
  let (b, r, s) ← ilLoadF v (Cache.iSeekRFile s 48 SEEK_CUR).2
  pure (b, r, (Cache.iSeekRFile s (Lump.toInt first) SEEK_SET).2)

/-- `ilLoadTextureL`, il_texture.cpp:56-63. -/
def ilLoadTextureL {ρ : Type} (v : Lump.R → C (Bool × ρ × Lump.R)) (data : List UInt8) (size : Nat) : C (Bool × ρ) := do
  let _ ← Lump.seek (Lump.open_ data size) 48 SEEK_CUR
  ilLoadL v data size

end DevIL.Texture
