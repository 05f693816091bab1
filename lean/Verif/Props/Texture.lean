import Verif.Lemmas.Texture
import Verif.Props.Dds
/-! Total War textures: C231. -/
set_option autoImplicit false
namespace DevIL.Texture
open DevIL.Games DevIL.Detect DevIL.Image DevIL.DetectSpec DevIL.Dds
open DevIL.Lump (SEEK_SET SEEK_CUR)

/-- What is done with cube maps depends only on the bytes that follow in the file. -/
def Local (cube : Hd → Cache.S → C (Bool × List Img × Cache.S)) : Prop := ∀ pre body h s t, Sim pre body s t → Same (SimOut pre body) (cube h s) (cube h t)

/-- **C231**, in part: loading a texture from an open file is loading what follows its first 48 bytes as a DDS file: the same result, the same images, and the same fault if there is one.  What is missing,
since the library does neither, is the same for a texture in memory, and that the file is left where it was: it is left at byte 48. -/
theorem C231_file_partial (junk : Nat → UInt8) (cube : Hd → Cache.S → C (Bool × List Img × Cache.S)) (hc : Local cube) (cur : Img) (pre body : List UInt8) (hp : pre.length = 48) :
    (∃ ok ms s t, ilLoadF (iLoadDdsInternal fileOps junk cube cur) (opened body 0) = .ok (ok, ms, s) ∧
        ilLoadTextureF (iLoadDdsInternal fileOps junk cube cur) (opened (pre ++ body) 0) = .ok (ok, ms, t) ∧ t.data = pre ++ body ∧ t.pos = 48) ∨
      ∃ e, ilLoadF (iLoadDdsInternal fileOps junk cube cur) (opened body 0) = .error e ∧ ilLoadTextureF (iLoadDdsInternal fileOps junk cube cur) (opened (pre ++ body) 0) = .error e := by
  rcases sim_load (fun s t h => sim_dds junk cube (hc pre body) cur h) hp (s := opened body 0) (t := opened (pre ++ body) 0) ⟨rfl, rfl⟩ ⟨rfl, rfl⟩ with
    ⟨⟨ok, ms, s⟩, ⟨ok', ms', t⟩, h1, h2, h3, h4, h5⟩ | ⟨e, h1, h2⟩
  · simp only [] at h3 h4 h5
    subst h3 h4
    exact .inl ⟨ok, ms, s, t, h1, h2, h5⟩
  · exact .inr ⟨e, h1, h2⟩

/-- **C231 violated**: no texture loads from memory: the loader of DDS files is given the first 48 bytes, too, so that whatever follows them the bound image is what it was. -/
theorem C231_violated_memory (junk : Nat → UInt8) (cube : Hd → Lump.R → C (Bool × List Img × Lump.R)) (cur : Img) (pre body : List UInt8) (hp : pre.length = 48) (hb : 128 ≤ body.length)
    (hl : body.length + 48 < 2147483648) (hm : at_ pre 0 4 ≠ [68, 68, 83, 32]) :
    ilLoadTextureL (iLoadDdsInternal lumpOps junk cube cur) (pre ++ body) (pre ++ body).length = .ok (false, [cur]) := by
  have hlen : (pre ++ body).length = 48 + body.length := by rw [List.length_append, hp]
  have hA := lump_at (pre ++ body) (by omega) (by omega)
  obtain ⟨r, e, -⟩ := lumpLaws.seekCur 48 hA
  have e : Lump.seek (Lump.open_ (pre ++ body) (pre ++ body).length) 48 SEEK_CUR = .ok r := e
  have hm : at_ (pre ++ body) 0 4 ≠ [68, 68, 83, 32] := by
    unfold at_ at hm ⊢
    rwa [List.drop_zero, List.take_append_of_le_length (by omega)]
  obtain ⟨ok, ms, e2, rfl, rfl⟩ := (C146_header_partial junk (fun _ s => pure (false, [], s)) cube cur (pre ++ body) (by omega) (by omega) (.inl hm)).2
  unfold ilLoadTextureL
  rw [e, bind_ok, e2]

/-- **C231 violated**: an open file from whose beginning a texture was loaded is never left there. -/
theorem C231_violated_position (junk : Nat → UInt8) (cube : Hd → Cache.S → C (Bool × List Img × Cache.S)) (hc : Local cube) (cur : Img) (pre body : List UInt8) (hp : pre.length = 48)
    (ok : Bool) (ms : List Img) (t : Cache.S) (h : ilLoadTextureF (iLoadDdsInternal fileOps junk cube cur) (opened (pre ++ body) 0) = .ok (ok, ms, t)) : t.pos ≠ (opened (pre ++ body) 0).pos := by
  rcases C231_file_partial junk cube hc cur pre body hp with ⟨_, _, _, t', -, e, -, h48⟩ | ⟨e, -, h'⟩
  · rw [h] at e
    cases e
    rw [h48]
    exact (by decide : (48 : Nat) ≠ 0)
  · rw [h] at h'
    cases h'

/-! ### A concrete case -/

theorem noCube_local : Local noCube := fun _ _ _ _ _ h => .inl ⟨_, _, rfl, rfl, rfl, rfl, h⟩

/-- The picture of two pixels in Props/Dds.lean, behind 48 other bytes, loads. -/
example : ∃ m t, ilLoadTextureF (iLoadDdsInternal fileOps (fun _ => 0xAA) noCube dot) (opened (List.replicate 48 7 ++ argbFile) 0) = .ok (true, [m], t) ∧ m.width = 2 ∧ m.height = 1 := by
  have h := C231_file_partial (fun _ => 0xAA) noCube noCube_local dot (List.replicate 48 7) argbFile rfl
  have e : ∃ m s, ilLoadF (iLoadDdsInternal fileOps (fun _ => 0xAA) noCube dot) (opened argbFile 0) = .ok (true, [m], s) ∧ m.width = 2 ∧ m.height = 1 := ⟨_, _, rfl, rfl, rfl⟩
  obtain ⟨m, s, e, h1, h2⟩ := e
  rcases h with ⟨ok, ms, s', t, h3, h4, -⟩ | ⟨f, h3, -⟩
  · rw [e] at h3
    cases h3
    exact ⟨m, t, h4, h1, h2⟩
  · rw [e] at h3
    cases h3

/-- It is left at byte 48. -/
example : ∃ t, ilLoadTextureF (iLoadDdsInternal fileOps (fun _ => 0xAA) noCube dot) (opened (List.replicate 48 7 ++ argbFile) 0) = .ok t ∧ t.2.2.pos ≠ 0 :=
  ⟨_, rfl, C231_violated_position (fun _ => 0xAA) noCube noCube_local dot (List.replicate 48 7) argbFile rfl _ _ _ rfl⟩

set_option maxRecDepth 8000 in
example (junk : Nat → UInt8) (cur : Img) : ilLoadTextureL (iLoadDdsInternal lumpOps junk noCube cur) (List.replicate 48 7 ++ argbFile) (List.replicate 48 7 ++ argbFile).length = .ok (false, [cur]) :=
  C231_violated_memory junk noCube cur (List.replicate 48 7) argbFile rfl (by decide) (by decide) (by decide)

end DevIL.Texture
