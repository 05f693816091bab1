import Verif.Lemmas.Mp3
import Verif.Props.Icns
/-! Pictures in MP3 files: C236 (the picture of the tag), C237 (safety). -/
set_option autoImplicit false
namespace DevIL.Mp3
open DevIL.Games DevIL.Detect DevIL.Image DevIL.DetectSpec DevIL.Mp3Spec
open DevIL.Icns (OnlyReads EofAny fileEofAny lumpEofAny)
open DevIL.Psd (EofLaw fileEof lumpEof)

/-- A loader of another format, for files and for memory. -/
structure Loader where
  file : Cache.S → C (Bool × List Img × Cache.S)
  lump : Lump.R → C (Bool × List Img × Lump.R)

/-- Run where an input of these bytes is at this place, the loader ends with what `P` says, and the input still has these bytes. -/
def Loader.Gives (l : Loader) (bs : List UInt8) (place : Nat) (P : Bool → List Img → Prop) : Prop :=
  (∀ s, FileAt s bs place → Holds (l.file s) (fun r => P r.1 r.2.1 ∧ ∃ q, FileAt r.2.2 bs q)) ∧
  (∀ s, LumpAt s bs place → Holds (l.lump s) (fun r => P r.1 r.2.1 ∧ ∃ q, LumpAt r.2.2 bs q))

/-- Loading from an open file and from memory. -/
def Loads (junk : Nat → UInt8) (jpg png : Loader) (fuel : Nat) (cur : Img) (bs : List UInt8) (P : Bool → List Img → Prop) : Prop :=
  Both (iLoadMp3Internal fileOps junk jpg.file png.file fuel cur) (iLoadMp3Internal lumpOps junk jpg.lump png.lump fuel cur) bs P

/-- Loading from an open file and from memory both have this fault. -/
def Fails (junk : Nat → UInt8) (jpg png : Loader) (fuel : Nat) (cur : Img) (bs : List UInt8) (e : Fault) : Prop :=
  ilLoadF (iLoadMp3Internal fileOps junk jpg.file png.file fuel cur) (opened bs 0) = .error e ∧ ilLoadL (iLoadMp3Internal lumpOps junk jpg.lump png.lump fuel cur) bs bs.length = .error e

theorem tag_parts {bs : List UInt8} (h : Tag23 bs) : at_ bs 0 3 = [73, 68, 51] ∧ at_ bs 3 1 = [3] := by
  unfold Tag23 at h
  constructor
  · have := congrArg (List.take 3) h
    unfold at_ at this ⊢
    rwa [List.take_take] at this
  · have := congrArg (List.drop 3) h
    unfold at_ at this ⊢
    rwa [List.drop_take, List.drop_drop] at this

section
variable {σ : Type} {o : Ops σ} {At : σ → List UInt8 → Nat → Prop}

/-- The way to a frame with a picture. -/
theorem load_to (L : Laws2 o At) (E : EofLaw o At) (junk : Nat → UInt8) (jpg png : σ → C (Bool × List Img × σ)) (cur : Img) {bs : List UInt8} {s : σ} (hA : At s bs 0) (ht : Tag23 bs) {k q : Nat} (F : Frames bs k 10 q)
    (hq : q + 10 ≤ bs.length) (hid : at_ bs q 4 = apic) (fuel : Nat) (hf : k < fuel) :
    ∃ s', At s' bs (q + 10) ∧ iLoadMp3Internal o junk jpg png fuel cur s = (do
      let (type, s) ← apicFrame o s'
      if type = 1 then jpg s else if type = 2 then png s else pure (false, [cur], s)) := by
  obtain ⟨t1, t2⟩ := tag_parts ht
  have h20 : 20 ≤ bs.length := by
    cases F with
    | here => exact hq
    | skip k' _ _ o' s' i' => omega
  obtain ⟨s1, A1, e1⟩ := load_head L junk jpg png fuel cur hA t1 (by omega)
  rw [t2, if_neg (fun h => h.1 rfl)] at e1
  obtain ⟨f, rfl⟩ : ∃ f, fuel = f + k + 1 := ⟨fuel - k - 1, by omega⟩
  obtain ⟨s2, A2, e2⟩ := find_frames L E junk F f s1 A1 (by omega) hq
  obtain ⟨s3, A3, e3⟩ := frame_head L junk (tagLength bs) f A2 hq
  rw [if_pos hid] at e3
  refine ⟨s3, A3, ?_⟩
  rw [e1]
  simp only [List.headD_cons]
  rw [e2, e3]

theorem load_picture (L : Laws2 o At) (E : EofLaw o At) (junk : Nat → UInt8) (jpg png : σ → C (Bool × List Img × σ)) (cur : Img) {bs : List UInt8} {s : σ} (hA : At s bs 0) (ht : Tag23 bs) {k q : Nat} (F : Frames bs k 10 q)
    {mime desc : List UInt8} {place : Nat} (hm : mime.length < 65) (P : PictureAt bs q mime desc place) (fuel : Nat) (hf : k < fuel) :
    ∃ s', At s' bs place ∧ iLoadMp3Internal o junk jpg png fuel cur s = (if mime = Mp3Spec.jpeg then jpg s' else if mime = Mp3Spec.png then png s' else pure (false, [cur], s')) := by
  have h1 := at_in P.mimeAt.2 (by rw [List.length_append]; rfl) (by omega)
  obtain ⟨s1, A1, e1⟩ := load_to L E junk jpg png cur hA ht F (by omega) P.id fuel hf
  obtain ⟨s2, e2, A2⟩ := apic_spec L hm P A1
  refine ⟨s2, A2, ?_⟩
  rw [e1, e2, bind_ok]
  simp only []
  by_cases h1 : mime = Mp3Spec.jpeg
  · rw [if_pos h1, if_pos h1]; rfl
  · rw [if_neg h1, if_neg h1]
    by_cases h2 : mime = Mp3Spec.png
    · rw [if_pos h2, if_pos h2]; rfl
    · rw [if_neg h2, if_neg h2]; rfl
end

/-- **C236**, in part: a file with an ID3 tag of version 2.3 whose first picture, behind any number of other frames, has the type "image/jpeg" or "image/png" and a description of at most 64 bytes loads as whatever the loader of
that format makes of the bytes from exactly where the picture begins.  What is missing, since the loader does not do it: tags of version 2.4 (`C236_violated_v24`), and descriptions that are longer (`C237_violated_long`). -/
theorem C236_picture_partial (junk : Nat → UInt8) (jpg png : Loader) (fuel : Nat) (cur : Img) (bs : List UInt8) (hl : bs.length < 2147483648) (ht : Tag23 bs) (k q : Nat) (F : Frames bs k 10 q) (hf : k < fuel)
    (mime desc : List UInt8) (place : Nat) (P : PictureAt bs q mime desc place) (Q : Bool → List Img → Prop)
    (hQ : (mime = Mp3Spec.jpeg ∧ jpg.Gives bs place Q) ∨ (mime = Mp3Spec.png ∧ png.Gives bs place Q)) : Loads junk jpg png fuel cur bs Q := by
  have h1 := at_in P.mimeAt.2 (by rw [List.length_append]; rfl) (by omega)
  rcases hQ with ⟨rfl, gF, gL⟩ | ⟨rfl, gF, gL⟩
  · refine both (by omega) hl (fun s hA => ?_) (fun s hA => ?_)
    · obtain ⟨s', A', e⟩ := load_picture fileLaws2 fileEof junk jpg.file png.file cur hA ht F (by decide) P fuel hf
      rw [e, if_pos rfl]; exact gF s' A'
    · obtain ⟨s', A', e⟩ := load_picture lumpLaws2 lumpEof junk jpg.lump png.lump cur hA ht F (by decide) P fuel hf
      rw [e, if_pos rfl]; exact gL s' A'
  · refine both (by omega) hl (fun s hA => ?_) (fun s hA => ?_)
    · obtain ⟨s', A', e⟩ := load_picture fileLaws2 fileEof junk jpg.file png.file cur hA ht F (by decide) P fuel hf
      rw [e, if_neg (by decide), if_pos rfl]; exact gF s' A'
    · obtain ⟨s', A', e⟩ := load_picture lumpLaws2 lumpEof junk jpg.lump png.lump cur hA ht F (by decide) P fuel hf
      rw [e, if_neg (by decide), if_pos rfl]; exact gL s' A'

/-- **C236**, in part: a picture of any other type is not loaded; the bound image is as it was. -/
theorem C236_other_partial (junk : Nat → UInt8) (jpg png : Loader) (fuel : Nat) (cur : Img) (bs : List UInt8) (hl : bs.length < 2147483648) (ht : Tag23 bs) (k q : Nat) (F : Frames bs k 10 q) (hf : k < fuel)
    (mime desc : List UInt8) (place : Nat) (P : PictureAt bs q mime desc place) (hm : mime.length < 65) (h1 : mime ≠ Mp3Spec.jpeg) (h2 : mime ≠ Mp3Spec.png) :
    Loads junk jpg png fuel cur bs (fun ok ms => ok = false ∧ ms = [cur]) := by
  have h0 := at_in P.mimeAt.2 (by rw [List.length_append]; rfl) (by omega)
  refine both (by omega) hl (fun s hA => ?_) (fun s hA => ?_)
  · obtain ⟨s', A', e⟩ := load_picture fileLaws2 fileEof junk jpg.file png.file cur hA ht F hm P fuel hf
    rw [e, if_neg h1, if_neg h2]; exact Holds.pure ⟨⟨rfl, rfl⟩, _, A'⟩
  · obtain ⟨s', A', e⟩ := load_picture lumpLaws2 lumpEof junk jpg.lump png.lump cur hA ht F hm P fuel hf
    rw [e, if_neg h1, if_neg h2]; exact Holds.pure ⟨⟨rfl, rfl⟩, _, A'⟩

/-- **C236 violated**: every file with a tag of version 2.4 is refused, whatever pictures it has, although the code has a branch for the sizes of that version. -/
theorem C236_violated_v24 (junk : Nat → UInt8) (jpg png : Loader) (fuel : Nat) (cur : Img) (bs : List UInt8) (hl : bs.length < 2147483648) (h10 : 10 ≤ bs.length) (ht : at_ bs 0 5 = [73, 68, 51, 4, 0]) :
    Loads junk jpg png fuel cur bs (fun ok ms => ok = false ∧ ms = [cur]) := by
  have t1 : at_ bs 0 3 = [73, 68, 51] := by
    have := congrArg (List.take 3) ht
    unfold at_ at this ⊢
    rwa [List.take_take] at this
  have t2 : at_ bs 3 1 = [4] := by
    have := congrArg (fun l => (List.drop 3 l).take 1) ht
    unfold at_ at this ⊢
    simp only [List.drop_take, List.drop_drop, List.take_take] at this
    exact this
  have t3 : at_ bs 4 1 = [0] := by
    have := congrArg (List.drop 4) ht
    unfold at_ at this ⊢
    rwa [List.drop_take, List.drop_drop] at this
  refine both (by omega) hl (fun s hA => ?_) (fun s hA => ?_)
  · obtain ⟨s', A', e⟩ := load_head fileLaws2 junk jpg.file png.file fuel cur hA t1 h10
    rw [e, t2, t3, if_pos (by decide)]; exact Holds.pure ⟨⟨rfl, rfl⟩, _, A'⟩
  · obtain ⟨s', A', e⟩ := load_head lumpLaws2 junk jpg.lump png.lump fuel cur hA t1 h10
    rw [e, t2, t3, if_pos (by decide)]; exact Holds.pure ⟨⟨rfl, rfl⟩, _, A'⟩

theorem fails {junk : Nat → UInt8} {jpg png : Loader} {fuel : Nat} {cur : Img} {bs : List UInt8} {e : Fault} (h0 : 0 < bs.length) (hl : bs.length < 2147483648)
    (hF : ∀ s, FileAt s bs 0 → iLoadMp3Internal fileOps junk jpg.file png.file fuel cur s = .error e) (hL : ∀ s, LumpAt s bs 0 → iLoadMp3Internal lumpOps junk jpg.lump png.lump fuel cur s = .error e) :
    Fails junk jpg png fuel cur bs e := by
  refine ⟨?_, ?_⟩
  · unfold ilLoadF
    simp only []
    rw [hF _ (input_at (opened bs 0) rfl hl)]
    rfl
  · unfold ilLoadL
    simp only []
    rw [hL _ (lump_at bs hl h0)]
    rfl

/-- **C237**, in part: whatever the bytes are, if the loaders of JPEG and PNG are safe on them then so is this one, but for reading beyond an array and not ending: nothing is written outside a block, and unless one of those
loaders made another image the bound image is as it was.  What is missing, since the loader does neither, is that it reads inside its arrays and that it ends. -/
theorem C237_safe_partial (junk : Nat → UInt8) (jpg png : Loader) (fuel : Nat) (cur : Img) (bs : List UInt8) (h0 : 0 < bs.length) (hl : bs.length < 2147483648) (P : Bool → List Img → Prop) (hP : P false [cur])
    (hj : ∀ p, jpg.Gives bs p P) (hg : ∀ p, png.Gives bs p P) :
    OnlyReads (ilLoadF (iLoadMp3Internal fileOps junk jpg.file png.file fuel cur) (opened bs 0)) (fun r => P r.1 r.2.1) ∧
      OnlyReads (ilLoadL (iLoadMp3Internal lumpOps junk jpg.lump png.lump fuel cur) bs bs.length) (fun r => P r.1 r.2) := by
  constructor
  · unfold ilLoadF
    simp only []
    rcases load_any fileLaws2 fileEofAny junk jpg.file png.file fuel cur (input_at (opened bs 0) rfl hl) P hP (fun s ⟨q, h⟩ => ((hj q).1 s h).mono fun _ g => g.1) (fun s ⟨q, h⟩ => ((hg q).1 s h).mono fun _ g => g.1) with
      ⟨⟨ok, ms, s⟩, e, h⟩ | e | e
    · rw [e, bind_ok]; exact .inl ⟨_, rfl, h⟩
    · rw [e]; exact .inr (.inl rfl)
    · rw [e]; exact .inr (.inr rfl)
  · unfold ilLoadL
    simp only []
    rcases load_any lumpLaws2 lumpEofAny junk jpg.lump png.lump fuel cur (lump_at bs hl h0) P hP (fun s ⟨q, h⟩ => ((hj q).2 s h).mono fun _ g => g.1) (fun s ⟨q, h⟩ => ((hg q).2 s h).mono fun _ g => g.1) with
      ⟨⟨ok, ms, s⟩, e, h⟩ | e | e
    · rw [e, bind_ok]; exact .inl ⟨_, rfl, h⟩
    · rw [e]; exact .inr (.inl rfl)
    · rw [e]; exact .inr (.inr rfl)

/-- **C237 violated**: a picture whose type has no end within 65 bytes makes the loader read beyond the array it collects the type in. -/
theorem C237_violated_long (junk : Nat → UInt8) (jpg png : Loader) (fuel : Nat) (cur : Img) (bs : List UInt8) (hl : bs.length < 2147483648) (ht : Tag23 bs) (k q : Nat) (F : Frames bs k 10 q) (hf : k < fuel) (hid : at_ bs q 4 = apic)
    (hq : q + 76 ≤ bs.length) (hz : ∀ c ∈ at_ bs (q + 11) 65, c ≠ 0) : Fails junk jpg png fuel cur bs .oobRead := by
  refine fails (by omega) hl (fun s hA => ?_) (fun s hA => ?_)
  · obtain ⟨s1, A1, e1⟩ := load_to fileLaws2 fileEof junk jpg.file png.file cur hA ht F (by omega) hid fuel hf
    rw [e1, apic_long fileLaws2 A1 hq hz]; rfl
  · obtain ⟨s1, A1, e1⟩ := load_to lumpLaws2 lumpEof junk jpg.lump png.lump cur hA ht F (by omega) hid fuel hf
    rw [e1, apic_long lumpLaws2 A1 hq hz]; rfl

/-- **C237 violated**: a first frame of another kind that claims 4294967286 bytes, which is -10 as a signed number, leads the loader back to itself, for ever. -/
theorem C237_violated_hang (junk : Nat → UInt8) (jpg png : Loader) (fuel : Nat) (cur : Img) (bs : List UInt8) (hl : bs.length < 2147483648) (ht : Tag23 bs) (h20 : 20 ≤ bs.length) (hid : at_ bs 10 4 ≠ apic)
    (hn : beAt bs 14 4 = 4294967286) (hin : 10 < tagLength bs) : Fails junk jpg png fuel cur bs .hang := by
  obtain ⟨t1, t2⟩ := tag_parts ht
  refine fails (by omega) hl (fun s hA => ?_) (fun s hA => ?_)
  · obtain ⟨s1, A1, e1⟩ := load_head fileLaws2 junk jpg.file png.file fuel cur hA t1 (by omega)
    rw [e1, t2, if_neg (fun h => h.1 rfl)]
    simp only [List.headD_cons]
    rw [find_hang fileLaws2 fileEof junk (p := 10) h20 hid hn hin fuel s1 A1]; rfl
  · obtain ⟨s1, A1, e1⟩ := load_head lumpLaws2 junk jpg.lump png.lump fuel cur hA t1 (by omega)
    rw [e1, t2, if_neg (fun h => h.1 rfl)]
    simp only [List.headD_cons]
    rw [find_hang lumpLaws2 lumpEof junk (p := 10) h20 hid hn hin fuel s1 A1]; rfl

/-! ### Concrete files -/

/-- A loader that makes an image as wide as the byte where it is run. -/
def probe (cur : Img) : Loader where
  file s := do
    let (c, s) ← fileOps.getc s
    pure (true, [{ cur with width := (c.getD 0).toNat }], s)
  lump s := do
    let (c, s) ← lumpOps.getc s
    pure (true, [{ cur with width := (c.getD 0).toNat }], s)

theorem probe_gives (cur : Img) {bs : List UInt8} {p : Nat} (hp : p < bs.length) : (probe cur).Gives bs p (fun ok ms => ok = true ∧ ms = [{ cur with width := (bs[p]?.getD 0).toNat }]) := by
  have core : ∀ {σ : Type} {o : Ops σ} {At : σ → List UInt8 → Nat → Prop} (_ : Laws2 o At) (s : σ), At s bs p → Holds (do
      let (c, s) ← o.getc s
      pure (true, [{ cur with width := (c.getD 0).toNat }], s) : C (Bool × List Img × σ)) (fun r => (r.1 = true ∧ r.2.1 = [{ cur with width := (bs[p]?.getD 0).toNat }]) ∧ ∃ q, At r.2.2 bs q) := by
    intro σ o At L s hA
    obtain ⟨⟨c, s1⟩, e, -, g⟩ := L.getc hA
    obtain ⟨g1, g2⟩ := g hp
    simp only [] at g1 g2
    subst g1
    rw [e, bind_ok]
    exact Holds.pure ⟨⟨rfl, rfl⟩, _, g2⟩
  exact ⟨core fileLaws2, core lumpLaws2⟩

/-- A tag with a title of two bytes and a picture. -/
def song : List UInt8 := [73, 68, 51, 3, 0, 0, 0, 0, 0, 40] ++ [84, 73, 84, 50, 0, 0, 0, 2, 0, 0, 0, 65] ++ [65, 80, 73, 67, 0, 0, 0, 16, 0, 0, 0, 105, 109, 97, 103, 101, 47, 112, 110, 103, 0, 3, 66, 0, 77, 78]

theorem song_frames : Frames song 1 10 22 := .skip 0 10 22 (by decide) (by decide) (by decide) (by decide) (.here 22)

theorem song_picture : PictureAt song 22 Mp3Spec.png [66] 46 := ⟨by decide, ⟨by decide, by decide⟩, ⟨by decide, by decide⟩, by decide, by decide⟩

example (junk : Nat → UInt8) (cur : Img) (jpg : Loader) : Loads junk jpg (probe cur) 2 cur song (fun ok ms => ok = true ∧ ms = [{ cur with width := 77 }]) :=
  C236_picture_partial junk jpg (probe cur) 2 cur song (by decide) (by decide) 1 22 song_frames (by decide) _ _ 46 song_picture _ (.inr ⟨rfl, probe_gives cur (by decide)⟩)

/-- The same of version 2.4. -/
example (junk : Nat → UInt8) (cur : Img) (jpg png : Loader) : Loads junk jpg png 2 cur (song.set 3 4) (fun ok ms => ok = false ∧ ms = [cur]) :=
  C236_violated_v24 junk jpg png 2 cur _ (by decide) (by decide) (by decide)

/-- A picture of a type that is not known. -/
example (junk : Nat → UInt8) (cur : Img) (jpg png : Loader) : Loads junk jpg png 2 cur (song.set 41 104) (fun ok ms => ok = false ∧ ms = [cur]) :=
  C236_other_partial junk jpg png 2 cur _ (by decide) (by decide) 1 22 (.skip 0 10 22 (by decide) (by decide) (by decide) (by decide) (.here 22)) (by decide) [105, 109, 97, 103, 101, 47, 112, 110, 104] [66] 46
    ⟨by decide, ⟨by decide, by decide⟩, ⟨by decide, by decide⟩, by decide, by decide⟩ (by decide) (by decide) (by decide)

/-- A type of 65 letters. -/
example (junk : Nat → UInt8) (cur : Img) (jpg png : Loader) : Fails junk jpg png 1 cur ([73, 68, 51, 3, 0, 0, 0, 0, 0, 90] ++ [65, 80, 73, 67, 0, 0, 0, 80, 0, 0, 0] ++ List.replicate 65 97) .oobRead :=
  C237_violated_long junk jpg png 1 cur _ (by decide) (by decide) 0 10 (.here 10) (by decide) (by decide) (by decide) (by decide)

example (junk : Nat → UInt8) (fuel : Nat) (cur : Img) (jpg png : Loader) : Fails junk jpg png fuel cur [73, 68, 51, 3, 0, 0, 0, 0, 0, 40, 84, 73, 84, 50, 255, 255, 255, 246, 0, 0] .hang :=
  C237_violated_hang junk jpg png fuel cur _ (by decide) (by decide) (by decide) (by decide) (by decide) (by decide)

/-- Loaders that always refuse are safe. -/
example (junk : Nat → UInt8) (fuel : Nat) (cur : Img) : OnlyReads (ilLoadL (iLoadMp3Internal lumpOps junk (fun s => pure (false, [cur], s)) (fun s => pure (false, [cur], s)) fuel cur) song song.length) (fun r => r = (false, [cur])) :=
  (C237_safe_partial junk ⟨fun s => pure (false, [cur], s), fun s => pure (false, [cur], s)⟩ ⟨fun s => pure (false, [cur], s), fun s => pure (false, [cur], s)⟩ fuel cur song (by decide) (by decide)
    (fun ok ms => (ok, ms) = (false, [cur])) rfl (fun _ => ⟨fun _ h => Holds.pure ⟨rfl, _, h⟩, fun _ h => Holds.pure ⟨rfl, _, h⟩⟩) (fun _ => ⟨fun _ h => Holds.pure ⟨rfl, _, h⟩, fun _ h => Holds.pure ⟨rfl, _, h⟩⟩)).2

end DevIL.Mp3
