import Verif.Lemmas.FitsD
import Verif.Props.Games
/-! FITS files: C195 (whole numbers are decoded), C196 (cut off files), C197 (safety). -/
set_option autoImplicit false
namespace DevIL.Fits
open DevIL.Games DevIL.Detect DevIL.Image DevIL.DetectSpec DevIL.FitsSpec
open DevIL.PnmSpec (IsNumber number)
open DevIL.Psd (fileEof lumpEof)

/-- Loading from an open file and from memory. -/
def Loads (junk : Nat → UInt8) (norm : Nat → List UInt8 → Nat → UInt8) (fuel : Nat) (cur : Loaded) (bs : List UInt8) (P : Bool → Loaded → Prop) : Prop :=
  Both (iLoadFitsInternal fileOps junk norm fuel cur) (iLoadFitsInternal lumpOps junk norm fuel cur) bs P

/-- Loading from an open file and from memory runs into this fault. -/
def Fails (junk : Nat → UInt8) (norm : Nat → List UInt8 → Nat → UInt8) (fuel : Nat) (cur : Loaded) (bs : List UInt8) (e : Fault) : Prop :=
  ilLoadF (iLoadFitsInternal fileOps junk norm fuel cur) (opened bs 0) = .error e ∧ ilLoadL (iLoadFitsInternal lumpOps junk norm fuel cur) bs bs.length = .error e

theorem fails {junk : Nat → UInt8} {norm : Nat → List UInt8 → Nat → UInt8} {fuel : Nat} {cur : Loaded} {bs : List UInt8} {e : Fault} (h0 : 0 < bs.length) (hl : bs.length < 2147483648)
    (hF : ∀ s, FileAt s bs 0 → iLoadFitsInternal fileOps junk norm fuel cur s = .error e) (hL : ∀ s, LumpAt s bs 0 → iLoadFitsInternal lumpOps junk norm fuel cur s = .error e) : Fails junk norm fuel cur bs e := by
  refine ⟨?_, ?_⟩
  · have := hF _ (input_at (opened bs 0) rfl hl)
    unfold ilLoadF
    simp only []
    rw [this]
    rfl
  · unfold ilLoadL
    rw [hL _ (lump_at bs hl h0)]
    rfl

theorem total_pos {d : Doc} {b type : Nat} (hd : d.Cards b) (ht : intType b = some type) : 0 < d.total b := by
  obtain ⟨-, b0, -⟩ := bpc_int ht
  exact Nat.mul_pos (Nat.mul_pos (Nat.mul_pos (dim_pos hd.pos 0) (dim_pos hd.pos 1)) (dim_pos hd.pos 2)) b0

theorem in_total {d : Doc} {b i c : Nat} (hi : i < d.dim 0 * d.dim 1 * d.dim 2) (hc : c < b) : i * b + c < d.total b := by
  unfold Doc.total
  have : (i + 1) * b ≤ d.dim 0 * d.dim 1 * d.dim 2 * b := Nat.mul_le_mul_right b hi
  rw [Nat.add_mul, Nat.one_mul] at this
  omega

/-! ### C195 -/

theorem load_whole {σ : Type} {o : Ops σ} {At : σ → List UInt8 → Nat → Prop} (L : Laws2 o At) (E : DevIL.Psd.EofLaw o At) (junk : Nat → UInt8) (norm : Nat → List UInt8 → Nat → UInt8) (fuel : Nat) (cur : Loaded)
    (d : Doc) (b type : Nat) (hd : d.Header b) (ht : intType b = some type) (hbody : d.body.length = d.total b) (hf : d.bytes.length < fuel) {s : σ} (hA : At s d.bytes 0) :
    Holds (iLoadFitsInternal o junk norm fuel cur s) (fun r => (r.1 = true ∧ r.2.1.2 = none ∧ Shows r.2.1.1 d b type) ∧ ∃ q, At r.2.2 d.bytes q) := by
  have hpos := total_pos hd.toCards ht
  have hne : d.body ++ d.rest ≠ [] := by
    intro h
    have := congrArg List.length h
    rw [List.length_append, List.length_nil] at this
    omega
  have hbs : d.bytes = d.header ++ (d.body ++ d.rest) := List.append_assoc _ _ _
  by_cases hb : b = 1
  · subst hb
    obtain rfl : type = IL_UNSIGNED_BYTE := (Option.some.inj ht).symm
    refine (load_bytes L E junk norm cur hd hbs hne hf hA).mono (fun r hr => ⟨?_, hr.2⟩)
    obtain ⟨⟨h1, h2, data, h3, h4, h5⟩, -⟩ := hr
    have hle : d.total 1 ≤ (d.body ++ d.rest).length := by rw [List.length_append]; omega
    refine ⟨by rw [h1, decide_eq_true hle], h2, ?_⟩
    rw [h3]
    have e : data = d.body := by rw [h5 hle, ← hbody, List.take_left]
    exact shows_of junk hd ht h4 d.body (fun i c _ hc => by
      obtain rfl : c = 0 := by omega
      rw [e])
  · refine (load_words L E junk norm cur hd ht hb hbs hne hf hA).mono (fun r hr => ⟨?_, hr.2⟩)
    obtain ⟨⟨h1, h2, data, h3, h4, h5⟩, -⟩ := hr
    refine ⟨h1, h2, ?_⟩
    rw [h3]
    refine shows_of junk hd ht h4 d.body (fun i c hi hc => ?_)
    have hlt := in_total (d := d) hi (show b - 1 - c < b by omega)
    rw [h5 i c hi hc, List.getElem?_append_left (by omega), List.getElem?_eq_getElem (by omega)]
    rfl

theorem bytes_pos (d : Doc) {b type : Nat} (hd : d.Header b) (ht : intType b = some type) (hbody : d.body.length = d.total b) : 0 < d.bytes.length := by
  have := total_pos hd.toCards ht
  unfold Doc.bytes
  rw [List.length_append, List.length_append]
  omega

/-- **C195**: every well-formed FITS file of whole numbers of 8, 16 or 32 bits with one to three axes, with any other cards in its header and anything behind the samples, is loaded and
the image shows the samples: those of 16 and 32 bits are put into the byte order of the machine, the lowest first. -/
theorem C195_whole (junk : Nat → UInt8) (norm : Nat → List UInt8 → Nat → UInt8) (fuel : Nat) (cur : Loaded) (d : Doc) (b type : Nat) (hd : d.Header b) (ht : intType b = some type)
    (hbody : d.body.length = d.total b) (hl : d.bytes.length < 2147483648) (hf : d.bytes.length < fuel) :
    Loads junk norm fuel cur d.bytes (fun ok r => ok = true ∧ r.2 = none ∧ Shows r.1 d b type) :=
  both (bytes_pos d hd ht hbody) hl
    (fun _ h => load_whole fileLaws2 fileEof junk norm fuel cur d b type hd ht hbody hf h)
    (fun _ h => load_whole lumpLaws2 lumpEof junk norm fuel cur d b type hd ht hbody hf h)

/-- A number on a card. -/
def num (s : String) : Num := ⟨text s, List.replicate 50 32⟩

/-- Three by two samples of 16 bits, with a comment in the header and bytes behind the samples. -/
def picture : Doc := ⟨List.replicate 50 32, num "16", num "2", [num "3", num "2"], [3, 2], [text "COMMENT " ++ List.replicate 72 120], [1, 2, 3, 4, 5, 6, 7, 8, 9, 10, 11, 12], [0, 0]⟩

theorem num_is (s : String) (v : Nat) (h : IsNumber (text s)) (hl : (text s).length ≤ 20) (hv : number (text s) = v) : (num s).Is v := ⟨h, hl, rfl, hv⟩

theorem picture_ok : picture.Header 2 where
  note := rfl
  bitpix := num_is "16" 16 (by unfold IsNumber; decide) (by decide) (by decide)
  naxis := num_is "2" 2 (by unfold IsNumber; decide) (by decide) (by decide)
  axes := rfl
  each := by
    intro i n v h1 h2
    match i with
    | 0 => cases h1; cases h2; exact num_is "3" 3 (by unfold IsNumber; decide) (by decide) (by decide)
    | 1 => cases h1; cases h2; exact num_is "2" 2 (by unfold IsNumber; decide) (by decide) (by decide)
    | i + 2 => cases h1
  count := by decide
  pos := by decide
  small := by decide
  others := by
    intro c hc
    simp only [picture, List.mem_cons, List.not_mem_nil, or_false] at hc
    subst hc
    exact ⟨by decide, by decide⟩
  fit := by decide

theorem picture_length : picture.bytes.length = 2894 := by decide +kernel

example (junk : Nat → UInt8) (norm : Nat → List UInt8 → Nat → UInt8) :
    Loads junk norm 3000 before picture.bytes (fun ok r => ok = true ∧ r.1.type = IL_SHORT ∧ r.1.width = 3 ∧ r.1.px 2 1 0 0 = some 12 ∧ r.1.px 2 1 0 1 = some 11) := by
  obtain ⟨⟨ok, r, s, e, ⟨h1, -, h2⟩, h3⟩, ⟨ok', r', e', h1', -, h2'⟩⟩ := C195_whole junk norm 3000 before picture 2 IL_SHORT picture_ok rfl (by decide) (by rw [picture_length]; decide) (by rw [picture_length]; decide)
  exact ⟨⟨ok, r, s, e, ⟨h1, h2.type, h2.width, h2.px 2 1 0 0 (by decide) (by decide) (by decide) (by decide), h2.px 2 1 0 1 (by decide) (by decide) (by decide) (by decide)⟩, h3⟩,
    ⟨ok', r', e', h1', h2'.type, h2'.width, h2'.px 2 1 0 0 (by decide) (by decide) (by decide) (by decide), h2'.px 2 1 0 1 (by decide) (by decide) (by decide) (by decide)⟩⟩

/-! ### C196 -/

/-- **C196**, in part: a file of 8-bit samples with at least one byte but not all of the samples is refused.  Missing: files of 16 and 32 bits, for which it is false
(`C196_violated_words`), and files without any sample. -/
theorem C196_cut_partial (junk : Nat → UInt8) (norm : Nat → List UInt8 → Nat → UInt8) (fuel : Nat) (cur : Loaded) (d : Doc) (hd : d.Header 1) (tail : List UInt8) (h0 : tail ≠ [])
    (hcut : tail.length < d.total 1) (hl : (d.header ++ tail).length < 2147483648) (hf : (d.header ++ tail).length < fuel) :
    Loads junk norm fuel cur (d.header ++ tail) (fun ok _ => ok = false) := by
  have hp : 0 < (d.header ++ tail).length := by
    have := List.length_pos_iff.mpr h0
    rw [List.length_append]
    omega
  refine both hp hl (fun _ h => (load_bytes fileLaws2 fileEof junk norm cur hd rfl h0 hf h).mono (fun r hr => ⟨?_, hr.2⟩))
    (fun _ h => (load_bytes lumpLaws2 lumpEof junk norm cur hd rfl h0 hf h).mono (fun r hr => ⟨?_, hr.2⟩))
  · rw [hr.1.1]; exact decide_eq_false (by omega)
  · rw [hr.1.1]; exact decide_eq_false (by omega)

/-- The samples of a file that is cut off, with what happens to be on the stack in the place of those that are missing. -/
def filled (junk : Nat → UInt8) (b n : Nat) (tail : List UInt8) : List UInt8 := (List.range n).map (fun k => (tail[k]?).getD (junk (k % b)))

/-- **C196 is violated**: every file of 16- or 32-bit samples with at least one byte of samples is loaded with success, however few there are: the missing ones are what happens to be on
the stack. -/
theorem C196_violated_words (junk : Nat → UInt8) (norm : Nat → List UInt8 → Nat → UInt8) (fuel : Nat) (cur : Loaded) (d : Doc) (b type : Nat) (hd : d.Header b) (ht : intType b = some type) (hb : b ≠ 1)
    (tail : List UInt8) (h0 : tail ≠ []) (hl : (d.header ++ tail).length < 2147483648) (hf : (d.header ++ tail).length < fuel) :
    Loads junk norm fuel cur (d.header ++ tail) (fun ok r => ok = true ∧ Shows r.1 { d with body := filled junk b (d.total b) tail } b type) := by
  have hp : 0 < (d.header ++ tail).length := by
    have := List.length_pos_iff.mpr h0
    rw [List.length_append]
    omega
  have key : ∀ data : List UInt8, (∀ i c, i < d.dim 0 * d.dim 1 * d.dim 2 → c < b → data[i * b + c]? = some ((tail[i * b + (b - 1 - c)]?).getD (junk (b - 1 - c)))) →
      ∀ i c, i < d.dim 0 * d.dim 1 * d.dim 2 → c < b → data[i * b + c]? = (filled junk b (d.total b) tail)[i * b + (b - 1 - c)]? := by
    intro data h i c hi hc
    have hlt := in_total (d := d) hi (show b - 1 - c < b by omega)
    rw [h i c hi hc]
    unfold filled
    rw [List.getElem?_map, List.getElem?_range hlt]
    simp only [Option.map_some]
    rw [Nat.mul_comm i b, Nat.mul_add_mod, Nat.mod_eq_of_lt (show b - 1 - c < b by omega)]
  refine both hp hl (fun _ h => (load_words fileLaws2 fileEof junk norm cur hd ht hb rfl h0 hf h).mono (fun r hr => ⟨?_, hr.2⟩))
    (fun _ h => (load_words lumpLaws2 lumpEof junk norm cur hd ht hb rfl h0 hf h).mono (fun r hr => ⟨?_, hr.2⟩))
  · obtain ⟨⟨h1, h2, data, h3, h4, h5⟩, -⟩ := hr
    refine ⟨h1, ?_⟩
    rw [h3]
    exact shows_of junk hd ht h4 _ (key data h5)
  · obtain ⟨⟨h1, h2, data, h3, h4, h5⟩, -⟩ := hr
    refine ⟨h1, ?_⟩
    rw [h3]
    exact shows_of junk hd ht h4 _ (key data h5)

theorem header_len : picture.header.length = 2880 := by decide +kernel

/-- Five of the twelve bytes of samples: the last sample is what happens to be there. -/
example (junk : Nat → UInt8) (norm : Nat → List UInt8 → Nat → UInt8) :
    Loads junk norm 3000 before (picture.header ++ [1, 2, 3, 4, 5]) (fun ok r => ok = true ∧ r.1.px 1 0 0 0 = some 4 ∧ r.1.px 2 1 0 0 = some (junk 1)) := by
  have hlen : (picture.header ++ [1, 2, 3, 4, 5]).length = 2885 := by rw [List.length_append, header_len]; rfl
  obtain ⟨⟨ok, r, s, e, ⟨h1, h2⟩, h3⟩, ⟨ok', r', e', h1', h2'⟩⟩ := C196_violated_words junk norm 3000 before picture 2 IL_SHORT picture_ok rfl (by decide) [1, 2, 3, 4, 5] (by decide)
    (by rw [hlen]; decide) (by rw [hlen]; decide)
  exact ⟨⟨ok, r, s, e, ⟨h1, h2.px 1 0 0 0 (show 1 < 3 by decide) (show 0 < 2 by decide) (show 0 < 1 by decide) (by decide), h2.px 2 1 0 0 (show 2 < 3 by decide) (show 1 < 2 by decide) (show 0 < 1 by decide) (by decide)⟩, h3⟩,
    ⟨ok', r', e', h1', h2'.px 1 0 0 0 (show 1 < 3 by decide) (show 0 < 2 by decide) (show 0 < 1 by decide) (by decide), h2'.px 2 1 0 0 (show 2 < 3 by decide) (show 1 < 2 by decide) (show 0 < 1 by decide) (by decide)⟩⟩

/-- The same picture with 8 bits per sample. -/
def small : Doc := { picture with bitpix := num "8" }

theorem small_ok : small.Header 1 :=
  { picture_ok with bitpix := num_is "8" 8 (by unfold IsNumber; decide) (by decide) (by decide), fit := by decide }

example (junk : Nat → UInt8) (norm : Nat → List UInt8 → Nat → UInt8) : Loads junk norm 3000 before (small.header ++ [1, 2, 3, 4, 5]) (fun ok _ => ok = false) := by
  have hlen : (small.header ++ [1, 2, 3, 4, 5]).length = 2885 := by decide +kernel
  exact C196_cut_partial junk norm 3000 before small small_ok [1, 2, 3, 4, 5] (by decide) (by decide) (by rw [hlen]; decide) (by rw [hlen]; decide)

/-! ### C197 -/

/-- Loading ends: the image is as it was or has a block of the size it reports. -/
def Sound (cur r : Loaded) : Prop := r = cur ∨ (r.2 = none ∧ r.1.data.length = r.1.size)

/-- **C197**, in part: whatever the bytes, loading never hangs, never reads outside a block, and if it ends the image is as it was or has a block of the size it reports.  Missing: the
absence of the other faults, which is false (`C197_violated_axes`, `C197_violated_size`). -/
theorem C197_any_partial (junk : Nat → UInt8) (norm : Nat → List UInt8 → Nat → UInt8) (fuel : Nat) (cur : Loaded) (bs : List UInt8) (h0 : 0 < bs.length) (hl : bs.length < 2147483648) (hf : bs.length + 1 < fuel) :
    ((∃ ok r s, ilLoadF (iLoadFitsInternal fileOps junk norm fuel cur) (opened bs 0) = .ok (ok, r, s) ∧ Sound cur r) ∨
      ∃ e, ilLoadF (iLoadFitsInternal fileOps junk norm fuel cur) (opened bs 0) = .error e ∧ (e = .uninit ∨ e = .overflow ∨ e = .oobWrite)) ∧
    ((∃ ok r, ilLoadL (iLoadFitsInternal lumpOps junk norm fuel cur) bs bs.length = .ok (ok, r) ∧ Sound cur r) ∨
      ∃ e, ilLoadL (iLoadFitsInternal lumpOps junk norm fuel cur) bs bs.length = .error e ∧ (e = .uninit ∨ e = .overflow ∨ e = .oobWrite)) := by
  constructor
  · have : Tame (ilLoadF (iLoadFitsInternal fileOps junk norm fuel cur) (opened bs 0)) (fun r => Sound cur r.2.1) := by
      unfold ilLoadF
      exact (load_tame fileLaws2 fileEof junk norm cur h0 hf (input_at (opened bs 0) rfl hl)).bind (fun r hr => .pure hr.1)
    rcases this with ⟨⟨ok, r, s⟩, e, h⟩ | e | e | e
    · exact .inl ⟨ok, r, s, e, h⟩
    · exact .inr ⟨_, e, .inl rfl⟩
    · exact .inr ⟨_, e, .inr (.inl rfl)⟩
    · exact .inr ⟨_, e, .inr (.inr rfl)⟩
  · have : Tame (ilLoadL (iLoadFitsInternal lumpOps junk norm fuel cur) bs bs.length) (fun r => Sound cur r.2) := by
      unfold ilLoadL
      exact (load_tame lumpLaws2 lumpEof junk norm cur h0 hf (lump_at bs hl h0)).bind (fun r hr => .pure hr.1)
    rcases this with ⟨⟨ok, r⟩, e, h⟩ | e | e | e
    · exact .inl ⟨ok, r, e, h⟩
    · exact .inr ⟨_, e, .inl rfl⟩
    · exact .inr ⟨_, e, .inr (.inl rfl)⟩
    · exact .inr ⟨_, e, .inr (.inr rfl)⟩

/-- **C197**, in part: a well-formed header, followed by anything, runs into no fault at all. -/
theorem C197_header_partial (junk : Nat → UInt8) (norm : Nat → List UInt8 → Nat → UInt8) (fuel : Nat) (cur : Loaded) (d : Doc) (b type : Nat) (hd : d.Header b) (ht : intType b = some type)
    (tail : List UInt8) (h0 : tail ≠ []) (hl : (d.header ++ tail).length < 2147483648) (hf : (d.header ++ tail).length < fuel) :
    Loads junk norm fuel cur (d.header ++ tail) (fun _ r => r.2 = none ∧ r.1.size = d.total b ∧ r.1.data.length = r.1.size) := by
  have hp : 0 < (d.header ++ tail).length := by
    have := List.length_pos_iff.mpr h0
    rw [List.length_append]
    omega
  obtain ⟨t1, -⟩ := tex_size junk hd ht
  by_cases hb : b = 1
  · subst hb
    obtain rfl : type = IL_UNSIGNED_BYTE := (Option.some.inj ht).symm
    refine both hp hl (fun _ h => (load_bytes fileLaws2 fileEof junk norm cur hd rfl h0 hf h).mono (fun r hr => ⟨?_, hr.2⟩))
      (fun _ h => (load_bytes lumpLaws2 lumpEof junk norm cur hd rfl h0 hf h).mono (fun r hr => ⟨?_, hr.2⟩)) <;>
    · obtain ⟨⟨-, h2, data, h3, h4, -⟩, -⟩ := hr
      rw [h3]
      exact ⟨h2, t1, h4.trans t1.symm⟩
  · refine both hp hl (fun _ h => (load_words fileLaws2 fileEof junk norm cur hd ht hb rfl h0 hf h).mono (fun r hr => ⟨?_, hr.2⟩))
      (fun _ h => (load_words lumpLaws2 lumpEof junk norm cur hd ht hb rfl h0 hf h).mono (fun r hr => ⟨?_, hr.2⟩)) <;>
    · obtain ⟨⟨-, h2, data, h3, h4, -⟩, -⟩ := hr
      rw [h3]
      exact ⟨h2, t1, h4.trans t1.symm⟩

/-- **C197 is violated**: a header without NAXIS makes the loader use numbers it never set: `sizeof(Header)` in its `memset` is the size of a pointer. -/
theorem C197_violated_axes (junk : Nat → UInt8) (norm : Nat → List UInt8 → Nat → UInt8) (fuel : Nat) (cur : Loaded) (note tail : List UInt8) (n : Num) (b type : Nat) (others : List (List UInt8))
    (hnote : note.length = 50) (hn : n.Is (8 * b)) (ht : intType b = some type) (ho : ∀ c ∈ others, Other c) (h0 : tail ≠ [])
    (hl : (first note ++ n.bytes "BITPIX" ++ others.flatten ++ last ++ tail).length < 2147483648) (hf : (first note ++ n.bytes "BITPIX" ++ others.flatten ++ last ++ tail).length < fuel) :
    Fails junk norm fuel cur (first note ++ n.bytes "BITPIX" ++ others.flatten ++ last ++ tail) .uninit := by
  have hp : 0 < (first note ++ n.bytes "BITPIX" ++ others.flatten ++ last ++ tail).length := by
    have := List.length_pos_iff.mpr h0
    rw [List.length_append]
    omega
  exact fails hp hl (fun _ h => uninit_err fileLaws2 fileEof junk norm cur hnote hn ht ho rfl h0 hf h) (fun _ h => uninit_err lumpLaws2 lumpEof junk norm cur hnote hn ht ho rfl h0 hf h)

example (junk : Nat → UInt8) (norm : Nat → List UInt8 → Nat → UInt8) :
    Fails junk norm 5000 before (first (List.replicate 50 32) ++ (num "8").bytes "BITPIX" ++ ([] : List (List UInt8)).flatten ++ last ++ [0]) .uninit := by
  have hlen : (first (List.replicate 50 32) ++ (num "8").bytes "BITPIX" ++ ([] : List (List UInt8)).flatten ++ last ++ [0]).length = 241 := by decide +kernel
  exact C197_violated_axes junk norm 5000 before _ [0] (num "8") 1 IL_UNSIGNED_BYTE [] rfl (num_is "8" 8 (by unfold IsNumber; decide) (by decide) (by decide)) rfl (by intro c hc; cases hc) (by decide)
    (by rw [hlen]; decide) (by rw [hlen]; decide)

/-- **C197 is violated**: a header for 2^30 samples of 32 bits or more (fewer than 2^31), followed by at least one byte, makes the loader write past the end of the block, because
the size of the block is computed modulo 2^32 and the samples are counted without. -/
theorem C197_violated_size (junk : Nat → UInt8) (norm : Nat → List UInt8 → Nat → UInt8) (fuel : Nat) (cur : Loaded) (d : Doc) (hd : d.Cards 4)
    (h1 : 1073741824 ≤ d.dim 0 * d.dim 1 * d.dim 2) (h2 : d.dim 0 * d.dim 1 * d.dim 2 < 2147483648)
    (tail : List UInt8) (h0 : tail ≠ []) (hl : (d.header ++ tail).length < 2147483648) (hf : (d.header ++ tail).length < fuel) :
    Fails junk norm fuel cur (d.header ++ tail) .oobWrite := by
  have hp : 0 < (d.header ++ tail).length := by
    have := List.length_pos_iff.mpr h0
    rw [List.length_append]
    omega
  exact fails hp hl (fun _ h => big_err fileLaws2 fileEof junk norm cur hd h1 h2 rfl h0 hf h) (fun _ h => big_err lumpLaws2 lumpEof junk norm cur hd h1 h2 rfl h0 hf h)

/-- 32769 by 32768 samples of 32 bits. -/
def huge : Doc := ⟨List.replicate 50 32, num "32", num "2", [num "32769", num "32768"], [32769, 32768], [], [], []⟩

theorem huge_ok : huge.Cards 4 where
  note := rfl
  bitpix := num_is "32" 32 (by unfold IsNumber; decide) (by decide) (by decide)
  naxis := num_is "2" 2 (by unfold IsNumber; decide) (by decide) (by decide)
  axes := rfl
  each := by
    intro i n v h1 h2
    match i with
    | 0 => cases h1; cases h2; exact num_is "32769" 32769 (by unfold IsNumber; decide) (by decide) (by decide +kernel)
    | 1 => cases h1; cases h2; exact num_is "32768" 32768 (by unfold IsNumber; decide) (by decide) (by decide +kernel)
    | i + 2 => cases h1
  count := by decide
  pos := by decide
  small := by decide
  others := by intro c hc; cases hc

example (junk : Nat → UInt8) (norm : Nat → List UInt8 → Nat → UInt8) : Fails junk norm 3000 before (huge.header ++ [0]) .oobWrite := by
  have hlen : (huge.header ++ [0]).length = 2881 := by decide +kernel
  exact C197_violated_size junk norm 3000 before huge huge_ok (by decide +kernel) (by decide +kernel) [0] (by decide) (by rw [hlen]; decide) (by rw [hlen]; decide)

end DevIL.Fits
