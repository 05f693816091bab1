import Verif.Lemmas.DetectT
/-! Recognising a file by its contents: C112 (the file stays where it is), C113 (the type is what the contents say) and C114 (memory
and files agree). -/
set_option autoImplicit false
namespace DevIL.Detect

open DevIL.DetectSpec

/-- A file with these bytes, open at a position; the library has not read from it. -/
def opened (bs : List UInt8) (pos : Nat) : Cache.S := ⟨bs, pos, 0, false, [], 0, 0, 0, 0⟩

/-- The beginning of a PNG file, with its first chunk and some of the next. -/
def png : List UInt8 := [0x89, 0x50, 0x4E, 0x47, 0x0D, 0x0A, 0x1A, 0x0A, 0, 0, 0, 13, 0x49, 0x48, 0x44, 0x52, 0, 0, 0, 1, 0, 0, 0, 1, 8, 0, 0, 0, 0,
  0x3A, 0x7E, 0x9B, 0x55, 0, 0, 0, 10, 0x49, 0x44, 0x41, 0x54, 0x78, 0x9C, 0x63, 0x60, 0, 0, 0, 2, 0, 1, 0x48, 0xAF, 0xA4, 0x71, 0, 0, 0, 0, 0x49, 0x45,
  0x4E, 0x44, 0xAE, 0x42, 0x60, 0x82]

/-! ### C112 -/

/-- **C112** (partial): asking for the type of an open file that is at its beginning ends, reads nothing outside memory, changes nothing
in the file and leaves it at its beginning, whatever the file contains and however short it is; the answer is one of the types there are, or
"unknown".  Missing: other positions, for which it is false (`C112_violated_moves`). -/
theorem C112_determine_keeps_partial (junk : Nat → UInt8) (dec : Dec) (s : Cache.S) (hp : s.pos = 0) (hl : s.data.length < 2147483648) :
    ∃ t s', ilDetermineTypeF junk dec s = .ok (t, s') ∧ s'.data = s.data ∧ s'.pos = s.pos ∧
      (t = IL_TYPE_UNKNOWN ∨ ∃ f ∈ order, t = f.code) := by
  -- the tests in general
  obtain ⟨r, e, hr, hd, hp'⟩ := tryF_ends junk dec orderF s hp hl
  refine ⟨r.1, r.2, e, hd, by rw [hp', hp], ?_⟩
  -- the test for KTX never succeeds
  have key : ∀ (ts : List Nat) (s : Cache.S), s.pos = 0 → s.data.length < 2147483648 → Holds (tryF junk dec ts s) (fun r => r.1 ∈ ts.filter (· ≠ IL_KTX) ∨ r.1 = IL_TYPE_UNKNOWN) := by
    intro ts
    induction ts with
    | nil => intro s _ _; exact Holds.pure (Or.inr rfl)
    | cons t ts ih =>
      intro s hp hl
      by_cases ht : t = IL_KTX
      · subst ht
        obtain ⟨s', hd, hp', e⟩ := tryF_ktx junk dec ts s hp hl
        rw [e]
        exact ih s' hp' (by rw [hd]; exact hl)
      · refine (ends_F (P := fun _ => True) hp hl ((validator_ends fileLaws fileEof junk dec t (input_at s hp hl)).mono (fun r hr => ⟨trivial, hr⟩))).bind (fun r hr => ?_)
        obtain ⟨-, hd, hp'⟩ := hr
        rw [List.filter_cons_of_pos (by simpa using ht)]
        show Holds (if r.1 = true then _ else _) _
        split
        · exact Holds.pure (Or.inl List.mem_cons_self)
        · refine (ih r.2 hp' (by rw [hd]; exact hl)).mono (fun u hu => ?_)
          rcases hu with h | h
          · exact Or.inl (List.mem_cons_of_mem _ h)
          · exact Or.inr h
  obtain ⟨r', e', hr'⟩ := key orderF s hp hl
  have : r' = r := by
    have := e'.symm.trans e
    cases this
    rfl
  subst this
  rcases hr' with h | h
  · right
    have hl : orderF.filter (· ≠ IL_KTX) = order.map Fmt.code := by decide
    rw [hl, List.mem_map] at h
    obtain ⟨f, hf, e⟩ := h
    exact ⟨f, hf, e.symm⟩
  · exact Or.inl h

/-- The same of a single test, `ilIsValidF` (partial, as above). -/
theorem C112_valid_keeps_partial (junk : Nat → UInt8) (dec : Dec) (type : Nat) (s : Cache.S) (hp : s.pos = 0) (hl : s.data.length < 2147483648) :
    ∃ b s', ilIsValidF (validator fileOps junk dec type) s = .ok (b, s') ∧ s'.data = s.data ∧ s'.pos = s.pos := by
  obtain ⟨r, e, -, hd, hp'⟩ := ends_F (P := fun _ => True) hp hl ((validator_ends fileLaws fileEof junk dec type (input_at s hp hl)).mono (fun r hr => ⟨trivial, hr⟩))
  exact ⟨r.1, r.2, e, hd, by rw [hp', hp]⟩

-- the hypotheses are met: an empty file, and the beginning of a PNG file
example (junk : Nat → UInt8) (dec : Dec) : ∃ t s', ilDetermineTypeF junk dec (opened [] 0) = .ok (t, s') ∧ s'.data = [] ∧ s'.pos = 0 ∧
    (t = IL_TYPE_UNKNOWN ∨ ∃ f ∈ order, t = f.code) := C112_determine_keeps_partial junk dec _ rfl (by decide)
example (junk : Nat → UInt8) (dec : Dec) : ∃ b s', ilIsValidF (validator fileOps junk dec IL_PNG) (opened png 0) = .ok (b, s') ∧ s'.data = png ∧ s'.pos = 0 :=
  C112_valid_keeps_partial junk dec _ _ rfl (by decide)

/-- **C112 is false elsewhere in a file**: a test of a file at position 8 leaves it at position 16.  (The position is taken from the beginning of the file, but
seeking to it counts from where the file was.)  -/
theorem C112_violated_moves (junk : Nat → UInt8) : ∃ b s', ilIsValidF (validator fileOps junk ⟨fun _ => false, fun _ => false, fun _ => false⟩ IL_PNG) (opened (List.replicate 8 0 ++ png) 8) = .ok (b, s') ∧
    b = true ∧ s'.pos = 16 := ⟨_, _, rfl, rfl, rfl⟩

/-! ### C113 -/

/-- **C113** (partial): the type of a file at its beginning is the first format, in the documented order of the tests, whose signature and header its bytes
have, and "unknown" if there is none - it depends on nothing but the bytes.  Missing: files that end within a header, and files that are not at their beginning, for which it is false
(`C113_violated_short`, `C113_violated_inside`); and KTX (`C113_violated_ktx`). -/
theorem C113_type_by_contents_partial (junk : Nat → UInt8) (dec : Dec) (s : Cache.S) (hp : s.pos = 0) (hl : s.data.length < 2147483648) (hc : Complete s.data) :
    ∃ s', ilDetermineTypeF junk dec s = .ok (typeOf dec order s.data, s') := by
  obtain ⟨r, e, hr, -⟩ := tryF_all junk dec s hp hl hc
  exact ⟨r.2, by rw [e, ← hr]⟩

/-- A file that carries the signature of a format, with a header that makes sense, and no signature of a format tested earlier, is recognised as a file of
this format (partial, as above). -/
theorem C113_signature_partial (junk : Nat → UInt8) (dec : Dec) (f : Fmt) (earlier later : List Fmt) (ho : order = earlier ++ f :: later) (s : Cache.S) (hp : s.pos = 0)
    (h54 : 54 ≤ s.data.length) (hl : s.data.length < 2147483648) (hn : f.need ≤ s.data.length) (hf : f.is dec s.data = true)
    (he : ∀ g ∈ earlier, g.sig s.data = false) : ∃ s', ilDetermineTypeF junk dec s = .ok (f.code, s') := by
  obtain ⟨r, e, hr, -⟩ := tryF_first junk dec f earlier later ho s hp hl h54 hn hf he
  exact ⟨r.2, by rw [e, ← hr]⟩

/-- A single test, `ilIsValidF`, says whether the bytes have the signature and the header of the format (partial, as above). -/
theorem C113_valid_partial (junk : Nat → UInt8) (dec : Dec) (f : Fmt) (s : Cache.S) (hp : s.pos = 0) (h54 : 54 ≤ s.data.length) (hl : s.data.length < 2147483648)
    (hn : f.sig s.data = true → f.need ≤ s.data.length) : ∃ s', ilIsValidF (validator fileOps junk dec f.code) s = .ok (f.is dec s.data, s') := by
  obtain ⟨r, e, hr, -⟩ := isValidF_spec junk dec f s hp hl h54 hn
  exact ⟨r.2, by rw [e, ← hr]⟩

-- the hypotheses are met: a PNG file is recognised as one, and so is whatever follows its signature
example (junk : Nat → UInt8) (dec : Dec) (rest : List UInt8) (h46 : 46 ≤ rest.length) (hl : rest.length < 2147483640) :
    ∃ s', ilDetermineTypeF junk dec (opened ([0x89, 0x50, 0x4E, 0x47, 0x0D, 0x0A, 0x1A, 0x0A] ++ rest) 0) = .ok (IL_PNG, s') := by
  refine C113_signature_partial junk dec .png [.jpg, .dds] _ rfl _ rfl ?_ ?_ ?_ rfl ?_
  · simp [opened]; omega
  · simp [opened]; omega
  · simp [opened, Fmt.need]; omega
  · intro g hg
    simp only [List.mem_cons, List.not_mem_nil, or_false] at hg
    rcases hg with rfl | rfl <;> rfl
example (junk : Nat → UInt8) (dec : Dec) : ∃ s', ilDetermineTypeF junk dec (opened png 0) = .ok (IL_PNG, s') :=
  C113_type_by_contents_partial junk dec (opened png 0) rfl (by decide) ⟨by decide, by intro f hf; cases f <;> first | decide | exact absurd hf (by decide)⟩

/-- A GIF file of one pixel. -/
def gif : List UInt8 := [0x47, 0x49, 0x46, 0x38, 0x39, 0x61, 1, 0, 1, 0, 0x80, 0, 0, 0xFF, 0xFF, 0xFF, 0, 0, 0, 0x21, 0xF9, 4, 1, 0, 0, 0, 0, 0x2C, 0, 0, 0, 0, 1, 0, 1, 0,
  0, 2, 2, 0x44, 1, 0, 0x3B]
/-- The header of a bitmap. -/
def bmpHead : List UInt8 := [0x42, 0x4D, 0, 0, 0, 0, 0, 0, 0, 0, 26, 0, 0, 0, 12, 0, 0, 0, 1, 0, 1, 0, 1, 0, 24, 0]

/-- **C113 is false of short files**: a GIF file of 43 bytes is recognised as one if the memory of the library contains zeros, but taken for a bitmap if it happens to contain the header of one. -/
theorem C113_violated_short (dec : Dec) : Fmt.is dec .gif gif = true ∧ Fmt.is dec .bmp gif = false ∧
    (∃ s', ilDetermineTypeF (fun _ => 0) dec (opened gif 0) = .ok (IL_GIF, s')) ∧
    ∃ s', ilDetermineTypeF (fun i => bmpHead.getD i 0) dec (opened gif 0) = .ok (IL_BMP, s') := by
  refine ⟨rfl, rfl, ⟨opened gif 0, ?_⟩, ⟨opened gif 0, ?_⟩⟩
  · have step : ∀ (t : Nat) (ts : List Nat), ilIsValidF (validator fileOps (fun _ => 0) dec t) (opened gif 0) = .ok (false, opened gif 0) →
        tryF (fun _ => 0) dec (t :: ts) (opened gif 0) = tryF (fun _ => 0) dec ts (opened gif 0) := by
      intro t ts h
      show (ilIsValidF _ _ >>= _) = _
      rw [h, bind_ok]
      rfl
    have last : ∀ (t : Nat) (ts : List Nat), ilIsValidF (validator fileOps (fun _ => 0) dec t) (opened gif 0) = .ok (true, opened gif 0) →
        tryF (fun _ => 0) dec (t :: ts) (opened gif 0) = .ok (t, opened gif 0) := by
      intro t ts h
      show (ilIsValidF _ _ >>= _) = _
      rw [h, bind_ok]
      rfl
    unfold ilDetermineTypeF orderF
    rw [step IL_JPG _ rfl, step IL_DDS _ rfl, step IL_PNG _ rfl, step IL_BMP _ rfl, step IL_BLP _ rfl, step IL_EXR _ rfl, last IL_GIF _ rfl]
  · have step : ∀ (t : Nat) (ts : List Nat), ilIsValidF (validator fileOps (fun i => bmpHead.getD i 0) dec t) (opened gif 0) = .ok (false, opened gif 0) →
        tryF (fun i => bmpHead.getD i 0) dec (t :: ts) (opened gif 0) = tryF (fun i => bmpHead.getD i 0) dec ts (opened gif 0) := by
      intro t ts h
      show (ilIsValidF _ _ >>= _) = _
      rw [h, bind_ok]
      rfl
    have last : ∀ (t : Nat) (ts : List Nat), ilIsValidF (validator fileOps (fun i => bmpHead.getD i 0) dec t) (opened gif 0) = .ok (true, opened gif 0) →
        tryF (fun i => bmpHead.getD i 0) dec (t :: ts) (opened gif 0) = .ok (t, opened gif 0) := by
      intro t ts h
      show (ilIsValidF _ _ >>= _) = _
      rw [h, bind_ok]
      rfl
    unfold ilDetermineTypeF orderF
    rw [step IL_JPG _ rfl, step IL_DDS _ rfl, step IL_PNG _ rfl, last IL_BMP _ rfl]

/-- The PNG file after one other byte, at position `p`, reading having begun at position `q`. -/
def at1 (p q : Nat) : Cache.S := ⟨0 :: png, p, q, false, [], 0, 0, 0, 0⟩

/-- **C113 is false within a file**: a PNG file after one other byte is not recognised when the file is at its first byte. -/
theorem C113_violated_inside (dec : Dec) : Fmt.is dec .png png = true ∧
    ∃ s', ilIsValidF (validator fileOps (fun _ => 0) dec IL_PNG) (opened (0 :: png) 1) = .ok (true, s') ∧
    ∃ t s'', ilDetermineTypeF (fun _ => 0) dec (opened (0 :: png) 1) = .ok (t, s'') ∧ t = IL_TYPE_UNKNOWN := by
  refine ⟨rfl, ⟨_, rfl, ?_⟩⟩
  have step : ∀ (t p q : Nat) (ts : List Nat), ilIsValidF (validator fileOps (fun _ => 0) dec t) (at1 p q) = .ok (false, at1 (2 * p) p) →
      tryF (fun _ => 0) dec (t :: ts) (at1 p q) = tryF (fun _ => 0) dec ts (at1 (2 * p) p) := by
    intro t p q ts h
    show (ilIsValidF _ _ >>= _) = _
    rw [h, bind_ok]
    rfl
  refine ⟨IL_TYPE_UNKNOWN, at1 536870912 268435456, ?_, rfl⟩
  show tryF _ _ orderF (at1 1 0) = _
  unfold orderF
  rw [step IL_JPG 1 0 _ rfl, show 2 * 1 = 2 from rfl]
  rw [step IL_DDS 2 1 _ rfl, show 2 * 2 = 4 from rfl]
  rw [step IL_PNG 4 2 _ rfl, show 2 * 4 = 8 from rfl]
  rw [step IL_BMP 8 4 _ rfl, show 2 * 8 = 16 from rfl]
  rw [step IL_BLP 16 8 _ rfl, show 2 * 16 = 32 from rfl]
  rw [step IL_EXR 32 16 _ rfl, show 2 * 32 = 64 from rfl]
  rw [step IL_GIF 64 32 _ rfl, show 2 * 64 = 128 from rfl]
  rw [step IL_HDR 128 64 _ rfl, show 2 * 128 = 256 from rfl]
  rw [step IL_ICNS 256 128 _ rfl, show 2 * 256 = 512 from rfl]
  rw [step IL_ILBM 512 256 _ rfl, show 2 * 512 = 1024 from rfl]
  rw [step IL_IWI 1024 512 _ rfl, show 2 * 1024 = 2048 from rfl]
  rw [step IL_JP2 2048 1024 _ rfl, show 2 * 2048 = 4096 from rfl]
  rw [step IL_KTX 4096 2048 _ rfl, show 2 * 4096 = 8192 from rfl]
  rw [step IL_LIF 8192 4096 _ rfl, show 2 * 8192 = 16384 from rfl]
  rw [step IL_MDL 16384 8192 _ rfl, show 2 * 16384 = 32768 from rfl]
  rw [step IL_MP3 32768 16384 _ rfl, show 2 * 32768 = 65536 from rfl]
  rw [step IL_PCX 65536 32768 _ rfl, show 2 * 65536 = 131072 from rfl]
  rw [step IL_PIC 131072 65536 _ rfl, show 2 * 131072 = 262144 from rfl]
  rw [step IL_PNM 262144 131072 _ rfl, show 2 * 262144 = 524288 from rfl]
  rw [step IL_PSD 524288 262144 _ rfl, show 2 * 524288 = 1048576 from rfl]
  rw [step IL_PSP 1048576 524288 _ rfl, show 2 * 1048576 = 2097152 from rfl]
  rw [step IL_SGI 2097152 1048576 _ rfl, show 2 * 2097152 = 4194304 from rfl]
  rw [step IL_SCITEX 4194304 2097152 _ rfl, show 2 * 4194304 = 8388608 from rfl]
  rw [step IL_SUN 8388608 4194304 _ rfl, show 2 * 8388608 = 16777216 from rfl]
  rw [step IL_TIF 16777216 8388608 _ rfl, show 2 * 16777216 = 33554432 from rfl]
  rw [step IL_TPL 33554432 16777216 _ rfl, show 2 * 33554432 = 67108864 from rfl]
  rw [step IL_VTF 67108864 33554432 _ rfl, show 2 * 67108864 = 134217728 from rfl]
  rw [step IL_XPM 134217728 67108864 _ rfl, show 2 * 134217728 = 268435456 from rfl]
  rw [step IL_TGA 268435456 134217728 _ rfl, show 2 * 268435456 = 536870912 from rfl]
  rfl

/-- **C113 is false of KTX files**: no file at all is recognised as one, although there is a test for them. -/
theorem C113_violated_ktx (junk : Nat → UInt8) (dec : Dec) (s : Cache.S) (hp : s.pos = 0) (hl : s.data.length < 2147483648) :
    IL_KTX ∈ orderF ∧ ∃ t s', ilDetermineTypeF junk dec s = .ok (t, s') ∧ t ≠ IL_KTX := by
  refine ⟨by decide, ?_⟩
  obtain ⟨t, s', e, -, -, h⟩ := C112_determine_keeps_partial junk dec s hp hl
  refine ⟨t, s', e, ?_⟩
  rcases h with rfl | ⟨f, -, rfl⟩
  · decide
  · cases f <;> decide

/-- A Targa file with a colour map: an identification of 10 bytes, 256 colours, 2 pixels in 3 rows. -/
def tga : List UInt8 := [10, 1, 1, 0, 0, 0, 1, 24, 0, 0, 0, 0, 2, 0, 3, 0, 8, 0] ++ List.replicate 62 0

/-- **C113 misleads for Targa files**: the bytes are those of a Targa file, but PCX files are recognised by so little that the file is taken for one. (The code tests the resolution where it should test the version.) -/
theorem C113_violated_targa (junk : Nat → UInt8) (dec : Dec) : Fmt.is dec .tga tga = true ∧ ∃ s', ilDetermineTypeF junk dec (opened tga 0) = .ok (IL_PCX, s') := by
  refine ⟨rfl, ?_⟩
  exact C113_type_by_contents_partial junk dec (opened tga 0) rfl (by decide) ⟨by decide, by intro f hf; cases f <;> first | decide | exact absurd hf (by decide)⟩

/-! ### C114 -/

/-- **C114** (partial): the type of an image in memory is the type of a file with the same bytes.  Missing: bytes that are both an SGI and a Scitex file, for which it is false (`C114_violated_scitex`);
and bytes that end within a header. -/
theorem C114_same_partial (junk junk' : Nat → UInt8) (dec : Dec) (bs : List UInt8) (hl : bs.length < 2147483648) (hc : Complete bs)
    (h : ¬(Fmt.is dec .sgi bs = true ∧ Fmt.is dec .scitex bs = true)) :
    ∃ t s', ilDetermineTypeF junk dec (opened bs 0) = .ok (t, s') ∧ ilDetermineTypeL junk' dec bs bs.length = .ok t := by
  obtain ⟨s', e⟩ := C113_type_by_contents_partial junk dec (opened bs 0) rfl hl hc
  exact ⟨_, s', e, by rw [tryL_all junk' dec bs hl hc, order_same dec bs h]; rfl⟩

example (junk junk' : Nat → UInt8) (dec : Dec) : ∃ t s', ilDetermineTypeF junk dec (opened png 0) = .ok (t, s') ∧ ilDetermineTypeL junk' dec png png.length = .ok t :=
  C114_same_partial junk junk' dec png (by decide) ⟨by decide, by intro f hf; cases f <;> first | decide | exact absurd hf (by decide)⟩ (fun h => Bool.false_ne_true h.1)

/-- The text "+1.00000000000" and "+00000000001", as Scitex files store numbers. -/
def one : List UInt8 := [0x2B, 0x31, 0x2E, 0x30, 0x30, 0x30, 0x30, 0x30, 0x30, 0x30, 0x30, 0x30, 0x30, 0x30]
/-- See `one`. -/
def oneInt : List UInt8 := [0x2B, 0x30, 0x30, 0x30, 0x30, 0x30, 0x30, 0x30, 0x30, 0x30, 0x30, 0x31]
/-- The header of an SGI file of 1x1 pixels, named by something that contains "CT" and is followed by the fields of a Scitex file. -/
def sgiScitex : List UInt8 := [0x01, 0xDA, 0, 1, 0, 2, 0, 1, 0, 1, 0, 1] ++ (List.replicate 68 0 ++ ([0x43, 0x54] ++ (List.replicate 942 0 ++ ([0, 3, 0, 7] ++ (one ++ (one ++ (oneInt ++ oneInt)))))))

set_option maxRecDepth 20000 in
/-- **C114 is false** of bytes that are both an SGI and a Scitex file: SGI from a file, Scitex from memory. -/
theorem C114_violated_scitex (junk : Nat → UInt8) (dec : Dec) (h1 : dec.pos one = true) (h2 : dec.int oneInt = true) (h3 : dec.trunc oneInt = true) :
    (∃ s', ilDetermineTypeF junk dec (opened sgiScitex 0) = .ok (IL_SGI, s')) ∧ ilDetermineTypeL junk dec sgiScitex sgiScitex.length = .ok IL_SCITEX := by
  have hc : Complete sgiScitex := ⟨by decide, by intro f hf; cases f <;> first | decide | exact absurd hf (by decide)⟩
  have hscitex : Fmt.is dec .scitex sgiScitex = true := by
    have e : Fmt.is dec .scitex sgiScitex = (true && (true && dec.pos one && dec.pos one && dec.int oneInt && dec.trunc oneInt)) := rfl
    rw [e, h1, h2, h3]
    rfl
  refine ⟨C113_type_by_contents_partial junk dec (opened sgiScitex 0) rfl (by decide) hc, ?_⟩
  rw [tryL_all junk dec sgiScitex (by decide) hc]
  have : orderM.find? (fun f => Fmt.is dec f sgiScitex) = some .scitex := by
    rw [show orderM = [.jpg, .dds, .png, .bmp, .blp, .exr, .gif, .hdr, .icns, .iwi, .ilbm, .jp2, .lif, .mdl, .mp3, .pcx, .pic, .pnm, .psd, .psp] ++
      Fmt.scitex :: [.sgi, .sun, .tif, .tpl, .vtf, .xpm, .tga] from rfl, List.find?_append]
    rw [show [Fmt.jpg, .dds, .png, .bmp, .blp, .exr, .gif, .hdr, .icns, .iwi, .ilbm, .jp2, .lif, .mdl, .mp3, .pcx, .pic, .pnm, .psd, .psp].find?
      (fun f => Fmt.is dec f sgiScitex) = none from rfl, Option.none_or, List.find?_cons, hscitex]
  unfold typeOf
  rw [this]
  rfl

end DevIL.Detect
