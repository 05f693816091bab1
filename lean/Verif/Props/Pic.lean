import Verif.Lemmas.PicF
import Verif.Props.Games
/-! Softimage PIC files: C191 (with alpha), C192 (opaque), C193 (pure run-lengths), C194 (safety). -/
set_option autoImplicit false
namespace DevIL.Pic
open DevIL.Games DevIL.Detect DevIL.Image DevIL.DetectSpec DevIL.PicSpec DevIL.Dpx
open DevIL.PsdSpec (num)
open DevIL.Psd (fileEof lumpEof)
open DevIL.Sun (fileLaws3 lumpLaws3)

/-- Loading from an open file and from memory. -/
def Loads (junk : Nat → UInt8) (fuel : Nat) (cur : Loaded) (bs : List UInt8) (P : Bool → Loaded → Prop) : Prop :=
  Both (iLoadPicInternal fileOps junk fuel cur) (iLoadPicInternal lumpOps junk fuel cur) bs P

/-- Loading from an open file and from memory runs into this fault. -/
def Fails (junk : Nat → UInt8) (fuel : Nat) (cur : Loaded) (bs : List UInt8) (e : Fault) : Prop :=
  ilLoadF (iLoadPicInternal fileOps junk fuel cur) (opened bs 0) = .error e ∧ ilLoadL (iLoadPicInternal lumpOps junk fuel cur) bs bs.length = .error e

theorem bytes_pos {d : Doc} (hd : d.Ok) : 0 < d.bytes.length := by
  unfold Doc.bytes
  rw [List.length_append, header_length hd.note hd.ratio]
  omega

theorem failL {junk : Nat → UInt8} {fuel : Nat} {cur : Loaded} {bs : List UInt8} {e : Fault} (h0 : 0 < bs.length) (hl : bs.length < 2147483648)
    (h : ∀ s, LumpAt s bs 0 → iLoadPicInternal lumpOps junk fuel cur s = .error e) : ilLoadL (iLoadPicInternal lumpOps junk fuel cur) bs bs.length = .error e := by
  unfold ilLoadL
  rw [h _ (lump_at bs hl h0)]
  rfl

theorem fails {junk : Nat → UInt8} {fuel : Nat} {cur : Loaded} {bs : List UInt8} {e : Fault} (h0 : 0 < bs.length) (hl : bs.length < 2147483648)
    (hF : ∀ s, FileAt s bs 0 → iLoadPicInternal fileOps junk fuel cur s = .error e) (hL : ∀ s, LumpAt s bs 0 → iLoadPicInternal lumpOps junk fuel cur s = .error e) : Fails junk fuel cur bs e := by
  refine ⟨?_, failL h0 hl hL⟩
  have := hF _ (input_at (opened bs 0) rfl hl)
  unfold ilLoadF
  simp only []
  rw [this]
  rfl

theorem row_part {w : Nat} {ts : List Part} {ps : List Packet} (h : Row w ts ps) : ∀ t ∈ ts, ∃ p ∈ ps, t.Ok w p := by
  induction ts generalizing ps with
  | nil => intro t ht; cases ht
  | cons t ts ih =>
    cases ps with
    | nil => exact h.elim
    | cons p ps =>
      intro u hu
      rcases List.mem_cons.mp hu with rfl | hu
      · exact ⟨p, List.mem_cons_self, h.1⟩
      · obtain ⟨q, hq, hu⟩ := ih h.2 u hu
        exact ⟨q, List.mem_cons_of_mem _ hq, hu⟩

theorem ones_of {d : Doc} (hd : d.Ok) (hn : d.NoPure) : ∀ r ∈ d.rows, ∀ t ∈ r, t.Ones := by
  intro r hr t ht
  cases t with
  | plain _ => trivial
  | mixed _ => trivial
  | pure runs =>
    obtain ⟨p, hp, hok⟩ := row_part (hd.parts r hr) _ ht
    exact absurd hok.kind (hn p hp)

theorem depth_alpha {d : Doc} (h : d.HasAlpha) : depthOf d = 4 := if_pos ((alpha_any _).mpr h)
theorem depth_opaque {d : Doc} (h : ¬ d.HasAlpha) : depthOf d = 3 := if_neg (fun e => h ((alpha_any _).mp e))

/-! ### C191 -/

/-- **C191**: every picture with alpha whose packets are stored as they are or with mixed run-lengths, whatever the packets and sequences are, is loaded and shows its pixels:
image row `height - 1 - y` of the image, whose origin is below, is row `y` of the picture from the top. -/
theorem C191_alpha (junk : Nat → UInt8) (fuel : Nat) (cur : Loaded) (d : Doc) (hd : d.Ok) (ha : d.HasAlpha) (hn : d.NoPure) (hl : d.bytes.length < 2147483648) (hf : d.bytes.length < fuel) :
    Loads junk fuel cur d.bytes (fun ok r => ok = true ∧ r.2 = none ∧ r.1.format = IL_RGBA ∧ Shows r.1 d 4) := by
  rw [← depth_alpha ha]
  exact both (bytes_pos hd) hl
    (fun _ h => load_ok fileLaws2 fileEof junk cur d hd hf (.inl (depth_alpha ha)) (ones_of hd hn) h)
    (fun _ h => load_ok lumpLaws2 lumpEof junk cur d hd hf (.inl (depth_alpha ha)) (ones_of hd hn) h)

/-- Three by two pixels: colours with mixed run-lengths (two pixels as they are and one repeated once; a long run), alpha as it is. -/
def sample : Doc := ⟨List.replicate 84 0, List.replicate 8 0, 3, 2, [⟨8, 2, 0xE0⟩, ⟨8, 0, 0x10⟩],
  [[.mixed [.lit [[1, 2, 3]], .rep 2 [4, 5, 6]], .plain [[7], [8], [9]]], [.mixed [.long 3 [10, 11, 12]], .plain [[13], [14], [15]]]]⟩

theorem sample_ok : sample.Ok where
  note := rfl
  ratio := rfl
  width := by decide
  height := by decide
  some := by simp [sample]
  comps := by
    intro p hp
    simp only [sample, List.mem_cons, List.not_mem_nil, or_false] at hp
    rcases hp with rfl | rfl <;> decide
  rows := rfl
  parts := by
    intro r hr
    simp only [sample, List.mem_cons, List.not_mem_nil, or_false] at hr
    rcases hr with rfl | rfl
    · refine ⟨⟨rfl, ?_, rfl⟩, ⟨rfl, ?_, rfl⟩, trivial⟩
      · intro q hq
        simp only [List.mem_cons, List.not_mem_nil, or_false] at hq
        rcases hq with rfl | rfl
        · exact ⟨by decide, by decide, by simp; decide⟩
        · exact ⟨by decide, by decide, by decide⟩
      · intro q hq
        simp only [List.mem_cons, List.not_mem_nil, or_false] at hq
        rcases hq with rfl | rfl | rfl <;> decide
    · refine ⟨⟨rfl, ?_, rfl⟩, ⟨rfl, ?_, rfl⟩, trivial⟩
      · intro q hq
        simp only [List.mem_cons, List.not_mem_nil, or_false] at hq
        subst hq
        exact ⟨by decide, by decide, by decide⟩
      · intro q hq
        simp only [List.mem_cons, List.not_mem_nil, or_false] at hq
        rcases hq with rfl | rfl | rfl <;> decide

theorem sample_alpha : sample.HasAlpha := ⟨⟨8, 0, 0x10⟩, by simp [sample], by decide⟩
theorem sample_noPure : sample.NoPure := by
  intro p hp
  simp only [sample, List.mem_cons, List.not_mem_nil, or_false] at hp
  rcases hp with rfl | rfl <;> decide

/-- Green of the last pixel of the upper row comes from the repeated sequence, alpha of the lower one from the second packet. -/
example : ∃ r s', ilLoadF (iLoadPicInternal fileOps (fun _ => 0) 1000 before) (opened sample.bytes 0) = .ok (true, r, s') ∧ r.1.px 2 1 0 1 = some 5 ∧ r.1.px 2 0 0 3 = some 15 := by
  obtain ⟨⟨ok, r, s', e, ⟨h1, -, -, h2⟩, -⟩, -⟩ := C191_alpha (fun _ => 0) 1000 before sample sample_ok sample_alpha sample_noPure (by decide +kernel) (by decide +kernel)
  subst h1
  refine ⟨r, s', e, h2.px 2 0 1 5 (by decide) (by decide) ?_, h2.px 2 1 3 15 (by decide) (by decide) ?_⟩
  · refine ⟨_, 0, 1, _, _, [4, 5, 6], rfl, rfl, rfl, rfl, rfl, rfl, fun k' p' hk hp => ?_⟩
    match k', hk with
    | 1, _ => obtain rfl := Option.some.inj hp; decide
    | n + 2, _ => cases hp
  · refine ⟨_, 1, 0, _, _, [15], rfl, rfl, rfl, rfl, rfl, rfl, fun k' p' hk hp => ?_⟩
    match k', hk with
    | n + 2, _ => cases hp

/-! ### C192 -/

/-- **C192** (partial): an opaque picture of one row, with packets stored as they are or with mixed run-lengths, is loaded and shows its pixels, three bytes each.
Missing: more rows (`C192_violated_rows`) and the right format (`C192_violated_format`). -/
theorem C192_partial (junk : Nat → UInt8) (fuel : Nat) (cur : Loaded) (d : Doc) (hd : d.Ok) (ha : ¬ d.HasAlpha) (hn : d.NoPure) (hh : d.height = 1)
    (hl : d.bytes.length < 2147483648) (hf : d.bytes.length < fuel) :
    Loads junk fuel cur d.bytes (fun ok r => ok = true ∧ r.2 = none ∧ Shows r.1 d 3) := by
  rw [← depth_opaque ha]
  exact both (bytes_pos hd) hl
    (fun _ h => (load_ok fileLaws2 fileEof junk cur d hd hf (.inr hh) (ones_of hd hn) h).mono (fun r hr => ⟨⟨hr.1.1, hr.1.2.1, hr.1.2.2.2⟩, hr.2⟩))
    (fun _ h => (load_ok lumpLaws2 lumpEof junk cur d hd hf (.inr hh) (ones_of hd hn) h).mono (fun r hr => ⟨⟨hr.1.1, hr.1.2.1, hr.1.2.2.2⟩, hr.2⟩))

/-- **C192 violated**: every opaque picture of four rows or more, however it is stored, makes the loader write behind the block of the image, already with its first pixel. -/
theorem C192_violated_rows (junk : Nat → UInt8) (fuel : Nat) (cur : Loaded) (d : Doc) (hd : d.Ok) (ha : ¬ d.HasAlpha) (hh : 4 ≤ d.height)
    (hl : d.bytes.length < 2147483648) (hf : d.bytes.length < fuel) : Fails junk fuel cur d.bytes .oobWrite :=
  fails (bytes_pos hd) hl (fun _ h => opaque_err fileLaws2 fileEof junk cur d hd hf ha hh h) (fun _ h => opaque_err lumpLaws2 lumpEof junk cur d hd hf ha hh h)

/-- **C192 violated**: even the pictures that are loaded have the format for four components and three bytes per pixel. -/
theorem C192_violated_format (junk : Nat → UInt8) (fuel : Nat) (cur : Loaded) (d : Doc) (hd : d.Ok) (ha : ¬ d.HasAlpha) (hn : d.NoPure) (hh : d.height = 1)
    (hl : d.bytes.length < 2147483648) (hf : d.bytes.length < fuel) :
    Loads junk fuel cur d.bytes (fun _ r => r.1.format = IL_RGBA ∧ r.1.bpp = 3) := by
  have e := depth_opaque ha
  exact both (bytes_pos hd) hl
    (fun _ h => (load_ok fileLaws2 fileEof junk cur d hd hf (.inr hh) (ones_of hd hn) h).mono (fun r hr => ⟨⟨hr.1.2.2.1, by rw [← e]; exact hr.1.2.2.2.bpp⟩, hr.2⟩))
    (fun _ h => (load_ok lumpLaws2 lumpEof junk cur d hd hf (.inr hh) (ones_of hd hn) h).mono (fun r hr => ⟨⟨hr.1.2.2.1, by rw [← e]; exact hr.1.2.2.2.bpp⟩, hr.2⟩))

/-- An opaque picture of `h` rows of one pixel. -/
def bare (h : Nat) : Doc := ⟨List.replicate 84 0, List.replicate 8 0, 1, h, [⟨8, 0, 0xE0⟩], List.replicate h [.plain [[1, 2, 3]]]⟩

theorem bare_ok {h : Nat} (hh : 0 < h ∧ h < 32768) : (bare h).Ok where
  note := rfl
  ratio := rfl
  width := (by decide : 0 < 1 ∧ 1 < 32768)
  height := hh
  some := by simp [bare]
  comps := by
    intro p hp
    rw [List.mem_singleton.mp hp]
    decide
  rows := List.length_replicate
  parts := by
    intro r hr
    rw [(List.mem_replicate.mp hr).2]
    refine ⟨⟨rfl, ?_, rfl⟩, trivial⟩
    intro q hq
    rw [List.mem_singleton.mp hq]
    decide

theorem bare_alpha (h : Nat) : ¬ (bare h).HasAlpha := by
  rintro ⟨p, hp, h3⟩
  rw [List.mem_singleton.mp hp] at h3
  exact absurd h3 (by decide)

theorem bare_noPure (h : Nat) : (bare h).NoPure := by
  intro p hp
  rw [List.mem_singleton.mp hp]
  decide

example : Fails (fun _ => 0) 1000 before (bare 4).bytes .oobWrite :=
  C192_violated_rows _ _ _ _ (bare_ok (by decide)) (bare_alpha 4) (by decide) (by decide +kernel) (by decide +kernel)
example : ∃ r s', ilLoadF (iLoadPicInternal fileOps (fun _ => 0) 1000 before) (opened (bare 1).bytes 0) = .ok (true, r, s') ∧ r.1.px 0 0 0 2 = some 3 := by
  obtain ⟨⟨ok, r, s', e, ⟨h1, -, h2⟩, -⟩, -⟩ := C192_partial (fun _ => 0) 1000 before (bare 1) (bare_ok (by decide)) (bare_alpha 1) (bare_noPure 1) rfl (by decide +kernel) (by decide +kernel)
  subst h1
  refine ⟨r, s', e, h2.px 0 0 2 3 (by decide) (by decide) ⟨_, 0, 2, _, _, [1, 2, 3], rfl, rfl, rfl, rfl, rfl, rfl, fun k' p' hk hp => ?_⟩⟩
  match k', hk with
  | n + 1, _ => cases hp

/-! ### C193 -/

/-- **C193** (partial): a picture with alpha is loaded and shows its pixels also if it has packets with pure run-lengths, if every run is one pixel long.
Missing: longer runs, which is false (`C193_violated_run`). -/
theorem C193_partial (junk : Nat → UInt8) (fuel : Nat) (cur : Loaded) (d : Doc) (hd : d.Ok) (ha : d.HasAlpha) (h1 : ∀ r ∈ d.rows, ∀ t ∈ r, t.Ones)
    (hl : d.bytes.length < 2147483648) (hf : d.bytes.length < fuel) :
    Loads junk fuel cur d.bytes (fun ok r => ok = true ∧ r.2 = none ∧ r.1.format = IL_RGBA ∧ Shows r.1 d 4) := by
  rw [← depth_alpha ha]
  exact both (bytes_pos hd) hl
    (fun _ h => load_ok fileLaws2 fileEof junk cur d hd hf (.inl (depth_alpha ha)) h1 h)
    (fun _ h => load_ok lumpLaws2 lumpEof junk cur d hd hf (.inl (depth_alpha ha)) h1 h)

/-- **C193 violated**: a row of two to 255 equal pixels, stored as one pure run, makes the loader write behind the block of the image. -/
theorem C193_violated_run (junk : Nat → UInt8) (fuel : Nat) (cur : Loaded) (note ratio v : List UInt8) (w : Nat) (hn : note.length = 84) (hr : ratio.length = 8)
    (hw : 2 ≤ w ∧ w < 256) (hv : v.length = 4) (hf : (runDoc note ratio w v).bytes.length < fuel) :
    (runDoc note ratio w v).Ok ∧ Fails junk fuel cur (runDoc note ratio w v).bytes .oobWrite := by
  have hd := runDoc_ok hn hr ⟨by omega, hw.2⟩ hv
  refine ⟨hd, fails (bytes_pos hd) ?_ (fun _ h => run_err fileLaws2 fileEof junk cur hn hr hw hv hf h) (fun _ h => run_err lumpLaws2 lumpEof junk cur hn hr hw hv hf h)⟩
  have : (runDoc note ratio w v).bytes.length = 113 := by
    unfold Doc.bytes
    rw [List.length_append, header_length hd.note hd.ratio]
    simp [runDoc, listBytes, Part.bytes, hv]
  omega

example : Fails (fun _ => 0) 1000 before (runDoc (List.replicate 84 0) (List.replicate 8 0) 2 [1, 2, 3, 4]).bytes .oobWrite :=
  (C193_violated_run _ _ _ _ _ _ _ (by simp) (by simp) (by decide) rfl (by decide +kernel)).2
/-- One row of two pixels in two runs. -/
def ones : Doc := ⟨List.replicate 84 0, List.replicate 8 0, 2, 1, [⟨8, 1, 0xF0⟩], [[.pure [(1, [1, 2, 3, 4]), (1, [5, 6, 7, 8])]]]⟩
theorem ones_ok : ones.Ok where
  note := rfl
  ratio := rfl
  width := by decide
  height := by decide
  some := by simp [ones]
  comps := by
    intro p hp
    rw [List.mem_singleton.mp hp]
    decide
  rows := rfl
  parts := by
    intro r hr
    rw [List.mem_singleton.mp hr]
    refine ⟨⟨rfl, ?_, rfl⟩, trivial⟩
    intro q hq
    simp only [List.mem_cons, List.not_mem_nil, or_false] at hq
    rcases hq with rfl | rfl <;> decide
theorem ones_ones : ∀ r ∈ ones.rows, ∀ t ∈ r, t.Ones := by
  intro r hr t ht
  rw [List.mem_singleton.mp hr] at ht
  rw [List.mem_singleton.mp ht]
  intro q hq
  simp only [List.mem_cons, List.not_mem_nil, or_false] at hq
  rcases hq with rfl | rfl <;> rfl
example : ∃ r s', ilLoadF (iLoadPicInternal fileOps (fun _ => 0) 1000 before) (opened ones.bytes 0) = .ok (true, r, s') ∧ r.1.px 1 0 0 2 = some 7 := by
  obtain ⟨⟨ok, r, s', e, ⟨h1, -, -, h2⟩, -⟩, -⟩ := C193_partial (fun _ => 0) 1000 before ones ones_ok ⟨⟨8, 1, 0xF0⟩, by simp [ones], by decide⟩ ones_ones (by decide +kernel) (by decide +kernel)
  subst h1
  refine ⟨r, s', e, h2.px 1 0 2 7 (by decide) (by decide) ⟨_, 0, 2, _, _, [5, 6, 7, 8], rfl, rfl, rfl, rfl, rfl, rfl, fun k' p' hk hp => ?_⟩⟩
  match k', hk with
  | n + 1, _ => cases hp

/-! ### C194 -/

/-- **C194** (partial): whatever a file of 104 bytes or more holds, if its list of packets is there as a whole, one of them has alpha and none has pure run-lengths, then loading ends
without a fault, and the image is left alone or has a block of the size it reports.  Missing: opaque pictures (`C192_violated_rows`), pure run-lengths
(`C193_violated_run`), lists of packets that are cut off in memory (`C194_violated_memory`), files that end in the header. -/
theorem C194_partial (junk : Nat → UInt8) (fuel : Nat) (cur : Loaded) (bs : List UInt8) (hl : bs.length < 2147483648) (h104 : 104 ≤ bs.length) (hf : bs.length + 1 < fuel) (ps : List Packet)
    (hps : packetsOf (bs.drop 104) = some ps) (ha : ∃ p ∈ ps, 3 ∈ compsOf p.chan) (hn : ∀ p ∈ ps, p.type &&& 0x0F ≠ 1) :
    Loads junk fuel cur bs (fun _ r => r = cur ∨ (r.2 = none ∧ r.1.data.length = r.1.size)) :=
  both (by omega) hl (fun _ h => load_safe fileLaws2 fileEof junk cur h104 hf hps ha hn h) (fun _ h => load_safe lumpLaws2 lumpEof junk cur h104 hf hps ha hn h)

/-- **C194** (partial), lists that are cut off: if the list of packets of an open file is not there as a whole, loading fails and leaves the image alone. -/
theorem C194_cut_partial (junk : Nat → UInt8) (fuel : Nat) (cur : Loaded) (bs : List UInt8) (hl : bs.length < 2147483648) (h104 : 104 ≤ bs.length) (hf : bs.length + 1 < fuel)
    (hps : packetsOf (bs.drop 104) = none) :
    ∃ s', ilLoadF (iLoadPicInternal fileOps junk fuel cur) (opened bs 0) = .ok (false, cur, s') := by
  obtain ⟨ok, r, s', e, ⟨h1, h2⟩, -⟩ := loadF (v := iLoadPicInternal fileOps junk fuel cur) (s := opened bs 0) (P := fun ok r => ok = false ∧ r = cur) rfl rfl hl (fun _ h => load_cut fileLaws3 fileEof junk cur h104 hf hps h)
  subst h1 h2
  exact ⟨s', e⟩

/-- **C194 violated**: if in memory only the first byte of the list of packets is there, and it is not 0, loading never ends. -/
theorem C194_violated_memory (junk : Nat → UInt8) (fuel : Nat) (cur : Loaded) (note ratio : List UInt8) (w h : Nat) (c : UInt8) (hn : note.length = 84) (hr : ratio.length = 8)
    (hw : 0 < w ∧ w < 65536) (hh : 0 < h ∧ h < 65536) (hc : c ≠ 0) :
    ilLoadL (iLoadPicInternal lumpOps junk fuel cur) (header note w h ratio ++ [c]) (header note w h ratio ++ [c]).length = .error .hang := by
  have hl := header_length (w := w) (h := h) hn hr
  exact failL (by simp) (by rw [List.length_append, hl, List.length_singleton]; decide) (fun _ hA => load_hang lumpLaws3 lumpEof junk fuel cur hn hr hw hh hc hA)

/-- A file that ends in its second row. -/
def cutRows : List UInt8 := sample.bytes.take (sample.bytes.length - 2)
example : ∃ ps, packetsOf (cutRows.drop 104) = some ps ∧ (∃ p ∈ ps, 3 ∈ compsOf p.chan) ∧ ∀ p ∈ ps, p.type &&& 0x0F ≠ 1 :=
  ⟨[⟨8, 2, 0xE0⟩, ⟨8, 0, 0x10⟩], by decide +kernel, sample_alpha, sample_noPure⟩
example : packetsOf ((header (List.replicate 84 0) 3 2 (List.replicate 8 0) ++ [1, 8, 2, 0xE0]).drop 104) = none := by decide +kernel
example : (List.replicate 84 (0 : UInt8)).length = 84 := by simp

end DevIL.Pic
