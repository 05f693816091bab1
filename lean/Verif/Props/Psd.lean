import Verif.Lemmas.PsdS
import Verif.Props.Games
/-! Photoshop files: C183 (uncompressed, opaque), C184 (run-lengths), C185 (uncompressed, with alpha), C186 (safety), C187 (files cut off), C188 (CMYK),
C189 (saving and loading again), C190 (saving and loading again: alpha, palettes, slices). -/
set_option autoImplicit false
namespace DevIL.Psd
open DevIL.Games DevIL.Detect DevIL.Image DevIL.DetectSpec DevIL.DpxSpec DevIL.PsdSpec DevIL.Dpx
open DevIL.Lump (WOp output)

/-- Loading from an open file and from memory. -/
def Loads (junk : Nat → UInt8) (fuel : Nat) (cur : Loaded) (bs : List UInt8) (P : Bool → Loaded → Prop) : Prop :=
  Both (iLoadPsdInternal fileOps junk fuel cur) (iLoadPsdInternal lumpOps junk fuel cur) bs P

theorem before_length (d : Doc) (comp : Nat) : 26 ≤ (d.before comp).length := by
  simp only [Doc.before, Doc.head, List.length_append, List.length_cons, List.length_nil, List.length_replicate, num_length]
  omega

theorem pos_length (d : Doc) (comp : Nat) (body : List UInt8) : 0 < (d.before comp ++ body).length := by
  have := before_length d comp
  rw [List.length_append]
  omega

/-! ### C183 -/

/-- **C183**, grey and RGB: for every document of eight or sixteen bits, grey or of three channels, not compressed, with any colour data, resources and layers and whatever follows,
loading ends without a fault, succeeds exactly if all the pixels are there, and then shows them. -/
theorem C183_plain (junk : Nat → UInt8) (fuel : Nat) (cur : Loaded) (d : Doc) (hd : d.Ok) (body : List UInt8) (hl : (d.before 0 ++ body).length < 2147483648)
    (k b f : Nat) (hb : b = 1 ∨ b = 2) (hdepth : d.depth = 8 * b) (hop : d.Opaque k f) (hfit : d.width * d.height * (k * b) < 2 ^ 32) :
    Loads junk fuel cur (d.before 0 ++ body) (fun ok r => (ok = true ↔ d.width * d.height * (k * b) ≤ body.length) ∧
      (ok = true → r.2 = none ∧ Shows3 r.1 d.width d.height 1 k b f (typeFor b) (fun x y _ i => plainPx d.width d.height b body x y i))) :=
  both (pos_length d 0 body) hl
    (fun t ht => (plain_file fileLaws2 junk fuel d hd body ht cur hb hdepth hop hfit).mono (fun r hr => ⟨⟨hr.1.1, hr.1.2.2⟩, hr.2⟩))
    (fun t ht => (plain_file lumpLaws2 junk fuel d hd body ht cur hb hdepth hop hfit).mono (fun r hr => ⟨⟨hr.1.1, hr.1.2.2⟩, hr.2⟩))

/-- **C183**, with a palette of `e` entries: likewise; the palette of the file, one table for each of red, green and blue, is that of the image. -/
theorem C183_palette (junk : Nat → UInt8) (fuel : Nat) (cur : Loaded) (d : Doc) (hd : d.Ok) (body : List UInt8) (hl : (d.before 0 ++ body).length < 2147483648)
    (e : Nat) (hdepth : d.depth = 8) (hmode : d.mode = 2) (hch : d.channels = 1) (hcol : d.colours.length = 3 * e) (hfit : d.width * d.height < 2 ^ 32) :
    Loads junk fuel cur (d.before 0 ++ body) (fun ok r => (ok = true ↔ d.width * d.height ≤ body.length) ∧
      (ok = true → Shows3 r.1 d.width d.height 1 1 1 IL_COLOUR_INDEX IL_UNSIGNED_BYTE (fun x y _ i => plainPx d.width d.height 1 body x y i) ∧
        ∃ p, r.2 = some p ∧ p.type = IL_PAL_RGB24 ∧ p.size = 3 * e ∧ p.data.length = 3 * e ∧ ∀ j c, j < e → c < 3 → p.data[3 * j + c]? = d.colours[c * e + j]?)) :=
  both (pos_length d 0 body) hl
    (fun _ ht => indexed_plain fileLaws2 fileEof junk fuel d hd body ht cur hdepth hmode hch hcol hfit)
    (fun _ ht => indexed_plain lumpLaws2 lumpEof junk fuel d hd body ht cur hdepth hmode hch hcol hfit)

/-- A document of two by one pixels of sixteen bits, with a resource and a layer section. -/
def wide : Doc := ⟨3, 1, 2, 16, 3, [], [⟨1005, [65, 66], [1, 2, 3]⟩], [9, 9]⟩
/-- Its pixels, and something behind them. -/
def wideBody : List UInt8 := [1, 2, 3, 4, 5, 6, 7, 8, 9, 10, 11, 12, 99]
/-- A document with a palette of two colours. -/
def pal2 : Doc := ⟨1, 1, 2, 8, 2, [1, 2, 3, 4, 5, 6], [], []⟩

theorem wide_ok : wide.Ok := ⟨by decide, by decide, by decide, fun r h => by cases h with | head => exact ⟨by decide, by decide, by decide⟩ | tail _ h => cases h⟩
theorem pal2_ok : pal2.Ok := ⟨by decide, by decide, by decide, fun r h => by cases h⟩

/-- The lower and the upper byte of the green of the second pixel. -/
example : ∃ r s', ilLoadF (iLoadPsdInternal fileOps (fun _ => 0) 0 before) (opened (wide.before 0 ++ wideBody) 0) = .ok (true, r, s') ∧ r.1.px 1 0 0 2 = some 8 ∧ r.1.px 1 0 0 3 = some 7 := by
  obtain ⟨⟨ok, r, s', e, ⟨h1, h2⟩, -⟩, -⟩ := C183_plain (fun _ => 0) 0 before wide wide_ok wideBody (by decide +kernel) 3 2 IL_RGB (.inr rfl) rfl (.inr (by decide)) (by decide)
  have hok := h1.mpr (by decide)
  subst hok
  exact ⟨r, s', e, ((h2 rfl).2.px 1 0 0 2 (by decide) (by decide) (by decide) (by decide)).1, ((h2 rfl).2.px 1 0 0 3 (by decide) (by decide) (by decide) (by decide)).1⟩
/-- The green of the second colour. -/
example : ∃ r s' p, ilLoadF (iLoadPsdInternal fileOps (fun _ => 0) 0 before) (opened (pal2.before 0 ++ [1, 0]) 0) = .ok (true, r, s') ∧ r.1.px 0 0 0 0 = some 1 ∧ r.2 = some p ∧ p.data[4]? = some 4 := by
  obtain ⟨⟨ok, r, s', e, ⟨h1, h2⟩, -⟩, -⟩ := C183_palette (fun _ => 0) 0 before pal2 pal2_ok [1, 0] (by decide +kernel) 2 rfl rfl rfl rfl (by decide)
  have hok := h1.mpr (by decide)
  subst hok
  obtain ⟨h3, p, h4, -, -, -, h5⟩ := h2 rfl
  exact ⟨r, s', p, e, (h3.px 0 0 0 0 (by decide) (by decide) (by decide) (by decide)).1, h4, h5 1 1 (by decide) (by decide)⟩

/-! ### C184 -/

/-- **C184**, grey, RGB and RGBA of eight bits: whatever codes the channels are made of, if together they stand for as many bytes as there are pixels, then loading succeeds and shows
what they stand for.  `table` is the table of the lengths, which may say anything. -/
theorem C184_packed (junk : Nat → UInt8) (fuel : Nat) (cur : Loaded) (d : Doc) (hd : d.Ok) (table rest : List UInt8) (css : List (List Code))
    (hl : (d.before 1 ++ (table ++ css.flatMap chanBytes ++ rest)).length < 2147483648) (hf : (d.before 1 ++ (table ++ css.flatMap chanBytes ++ rest)).length < fuel)
    (k f : Nat) (hdepth : d.depth = 8) (hop : d.Opaque k f ∨ d.Alpha k f) (hfit : d.width * d.height * k < 2 ^ 32) (ht : table.length = 2 * (d.height * d.channels))
    (hcn : css.length = k) (hcs : ∀ cs ∈ css, Codes cs (d.height * d.width)) :
    Loads junk fuel cur (d.before 1 ++ (table ++ css.flatMap chanBytes ++ rest)) (fun ok r => ok = true ∧ r.2 = none ∧
      Shows3 r.1 d.width d.height 1 k 1 f IL_UNSIGNED_BYTE (fun x y _ i => packedPx d.width css x y i)) :=
  both (pos_length d 1 _) hl
    (fun _ h => (packed_file fileLaws2 junk fuel d hd table rest css h hf cur hdepth hop hfit ht hcn hcs).mono (fun r hr => ⟨⟨hr.1.1.mpr trivial, hr.1.2.2 (hr.1.1.mpr trivial)⟩, hr.2⟩))
    (fun _ h => (packed_file lumpLaws2 junk fuel d hd table rest css h hf cur hdepth hop hfit ht hcn hcs).mono (fun r hr => ⟨⟨hr.1.1.mpr trivial, hr.1.2.2 (hr.1.1.mpr trivial)⟩, hr.2⟩))

/-- **C184**, with a palette: likewise. -/
theorem C184_palette (junk : Nat → UInt8) (fuel : Nat) (cur : Loaded) (d : Doc) (hd : d.Ok) (table rest : List UInt8) (cs : List Code)
    (hl : (d.before 1 ++ (table ++ chanBytes cs ++ rest)).length < 2147483648) (hf : (d.before 1 ++ (table ++ chanBytes cs ++ rest)).length < fuel)
    (e : Nat) (hdepth : d.depth = 8) (hmode : d.mode = 2) (hch : d.channels = 1) (hcol : d.colours.length = 3 * e) (hfit : d.width * d.height < 2 ^ 32)
    (ht : table.length = 2 * d.height) (hcs : Codes cs (d.height * d.width)) :
    Loads junk fuel cur (d.before 1 ++ (table ++ chanBytes cs ++ rest)) (fun ok r => ok = true ∧
      Shows3 r.1 d.width d.height 1 1 1 IL_COLOUR_INDEX IL_UNSIGNED_BYTE (fun x y _ i => packedPx d.width [cs] x y i) ∧
        ∃ p, r.2 = some p ∧ p.type = IL_PAL_RGB24 ∧ p.size = 3 * e ∧ p.data.length = 3 * e ∧ ∀ j c, j < e → c < 3 → p.data[3 * j + c]? = d.colours[c * e + j]?) := by
  have e1 : [cs].flatMap chanBytes = chanBytes cs := by rw [List.flatMap_singleton]
  rw [← e1] at hl hf ⊢
  exact both (pos_length d 1 _) hl
    (fun _ h => (indexed_packed fileLaws2 fileEof junk fuel d hd table rest cs h hf cur hdepth hmode hch hcol hfit ht hcs).mono (fun r hr => ⟨⟨hr.1.1.mpr trivial, hr.1.2 (hr.1.1.mpr trivial)⟩, hr.2⟩))
    (fun _ h => (indexed_packed lumpLaws2 lumpEof junk fuel d hd table rest cs h hf cur hdepth hmode hch hcol hfit ht hcs).mono (fun r hr => ⟨⟨hr.1.1.mpr trivial, hr.1.2 (hr.1.1.mpr trivial)⟩, hr.2⟩))

/-- Four channels of three pixels: a run; bytes as they are; nothing and a run; a byte and a run. -/
def codes : List (List Code) := [[.rep 3 5], [.lit [1, 2, 3]], [.nop, .rep 3 7], [.lit [255], .rep 2 128]]
/-- A document of three by one pixels with alpha. -/
def rgba : Doc := ⟨4, 1, 3, 8, 3, [], [], []⟩
theorem rgba_ok : rgba.Ok := ⟨by decide, by decide, by decide, fun r h => by cases h⟩

theorem codes_ok : ∀ cs ∈ codes, Codes cs (rgba.height * rgba.width) := by
  intro cs h
  simp only [codes, List.mem_cons, List.not_mem_nil, or_false] at h
  rcases h with rfl | rfl | rfl | rfl <;>
    exact ⟨fun c hc => by simp only [List.mem_cons, List.not_mem_nil, or_false] at hc; rcases hc with rfl | rfl <;> simp [Code.Ok], rfl, fun c hc => by cases hc; simp⟩

/-- Its last pixel. -/
example : ∃ r s', ilLoadF (iLoadPsdInternal fileOps (fun _ => 0) 100 before) (opened (rgba.before 1 ++ (List.replicate 8 0 ++ codes.flatMap chanBytes ++ [])) 0) = .ok (true, r, s') ∧
    r.1.px 2 0 0 0 = some 5 ∧ r.1.px 2 0 0 1 = some 3 ∧ r.1.px 2 0 0 2 = some 7 ∧ r.1.px 2 0 0 3 = some 128 := by
  obtain ⟨⟨ok, r, s', e, ⟨rfl, -, h⟩, -⟩, -⟩ := C184_packed (fun _ => 0) 100 before rgba rgba_ok (List.replicate 8 0) [] codes (by decide +kernel) (by decide +kernel) 4 IL_RGBA rfl
    (.inr ⟨rfl, rfl, rfl, rfl⟩) (by decide) rfl rfl codes_ok
  have hp := fun i (hi : i < 4 * 1) => (h.px 2 0 0 i (by decide) (by decide) (by decide) hi).1
  exact ⟨r, s', e, hp 0 (by decide), hp 1 (by decide), hp 2 (by decide), hp 3 (by decide)⟩
example : Codes [.lit [1], .rep 2 0] (pal2.height * 3) :=
  ⟨fun c hc => by simp only [List.mem_cons, List.not_mem_nil, or_false] at hc; rcases hc with rfl | rfl <;> simp [Code.Ok], rfl, fun c hc => by cases hc; simp⟩

/-! ### C185 -/

/-- **C185** (partial): of an uncompressed picture of eight bits with alpha the colours are right, and it succeeds exactly if all the pixels are there.  Missing: alpha
(`C185_violated_transparent`), sixteen bits (`C185_violated_wide`). -/
theorem C185_colours_partial (junk : Nat → UInt8) (fuel : Nat) (cur : Loaded) (d : Doc) (hd : d.Ok) (body : List UInt8) (hl : (d.before 0 ++ body).length < 2147483648)
    (hdepth : d.depth = 8) (hop : d.Alpha 4 IL_RGBA) (hfit : d.width * d.height * 4 < 2 ^ 32) :
    Loads junk fuel cur (d.before 0 ++ body) (fun ok r => (ok = true ↔ d.width * d.height * 4 ≤ body.length) ∧
      (ok = true → r.2 = none ∧ r.1.width = d.width ∧ r.1.height = d.height ∧ r.1.format = IL_RGBA ∧ r.1.type = IL_UNSIGNED_BYTE ∧
        ∀ x y i, x < d.width → y < d.height → i < 3 → r.1.px x y 0 i = plainPx d.width d.height 1 body x y i)) := by
  have key : ∀ r : Bool × Loaded, Result (d.width * d.height * 4 ≤ body.length) d.width d.height 4 1 IL_RGBA (alphaPx junk d.width d.height body) r.1 r.2 →
      (r.1 = true ↔ d.width * d.height * 4 ≤ body.length) ∧
      (r.1 = true → r.2.2 = none ∧ r.2.1.width = d.width ∧ r.2.1.height = d.height ∧ r.2.1.format = IL_RGBA ∧ r.2.1.type = IL_UNSIGNED_BYTE ∧
        ∀ x y i, x < d.width → y < d.height → i < 3 → r.2.1.px x y 0 i = plainPx d.width d.height 1 body x y i) := fun r hr => by
    refine ⟨hr.1, fun h => ?_⟩
    obtain ⟨h1, h2⟩ := hr.2.2 h
    refine ⟨h1, h2.width, h2.height, h2.format, h2.type, fun x y i hx hy hi => ?_⟩
    rw [(h2.px x y 0 i hx hy (by decide) (by omega)).1]
    unfold alphaPx
    rw [if_neg (by omega)]
  exact both (pos_length d 0 body) hl
    (fun t ht => (alpha_file fileLaws2 junk fuel d hd body ht cur hdepth hop hfit).mono (fun r hr => ⟨key (r.1, r.2.1) hr.1, hr.2⟩))
    (fun t ht => (alpha_file lumpLaws2 junk fuel d hd body ht cur hdepth hop hfit).mono (fun r hr => ⟨key (r.1, r.2.1) hr.1, hr.2⟩))

theorem scaled_none : ∀ v : Fin 256, scaled 255 0 v = 0 := by decide +kernel

/-- **C185 violated**: if the memory that the image gets is zero, then every pixel is transparent, whatever the file and whatever its alpha. -/
theorem C185_violated_transparent (fuel : Nat) (cur : Loaded) (d : Doc) (hd : d.Ok) (body : List UInt8) (hl : (d.before 0 ++ body).length < 2147483648)
    (hdepth : d.depth = 8) (hop : d.Alpha 4 IL_RGBA) (hfit : d.width * d.height * 4 < 2 ^ 32) (hfull : d.width * d.height * 4 ≤ body.length) :
    Loads (fun _ => 0) fuel cur (d.before 0 ++ body) (fun ok r => ok = true ∧ ∀ x y, x < d.width → y < d.height → r.1.px x y 0 3 = some 0) := by
  have key : ∀ r : Bool × Loaded, Result (d.width * d.height * 4 ≤ body.length) d.width d.height 4 1 IL_RGBA (alphaPx (fun _ => 0) d.width d.height body) r.1 r.2 →
      r.1 = true ∧ ∀ x y, x < d.width → y < d.height → r.2.1.px x y 0 3 = some 0 := fun r hr => by
    have h := hr.1.mpr hfull
    refine ⟨h, fun x y hx hy => ?_⟩
    have hpx := (hr.2.2 h).2.px x y 0 3 hx hy (by decide) (by omega)
    rw [hpx.1]
    show alphaPx (fun _ => 0) d.width d.height body x y 3 = some 0
    unfold alphaPx
    rw [if_pos rfl]
    have hin : (3 * d.height + y) * d.width + x < body.length := by
      have : (3 * d.height + y) * d.width + d.width ≤ 4 * d.height * d.width := by rw [← Nat.succ_mul]; exact Nat.mul_le_mul_right _ (by omega)
      have : 4 * d.height * d.width = d.width * d.height * 4 := by rw [Nat.mul_assoc, Nat.mul_comm 4, Nat.mul_comm d.height]
      omega
    have e : plainPx d.width d.height 1 body x y 3 = some body[(3 * d.height + y) * d.width + x] := by
      unfold plainPx
      have : ((3 / 1 * d.height + y) * d.width + x) * 1 + (1 - 1 - 3 % 1) = (3 * d.height + y) * d.width + x := by
        rw [Nat.div_one, Nat.mul_one]; rfl
      rw [this, List.getElem?_eq_getElem hin]
    rw [e, Option.map_some]
    have := scaled_none ⟨(body[(3 * d.height + y) * d.width + x]).toNat, UInt8.toNat_lt _⟩
    simp only at this
    show some (UInt8.ofNat (scaled 255 0 _)) = _
    rw [this]
    rfl
  exact both (pos_length d 0 body) hl
    (fun t ht => (alpha_file fileLaws2 (fun _ => 0) fuel d hd body ht cur hdepth hop hfit).mono (fun r hr => ⟨key (r.1, r.2.1) hr.1, hr.2⟩))
    (fun t ht => (alpha_file lumpLaws2 (fun _ => 0) fuel d hd body ht cur hdepth hop hfit).mono (fun r hr => ⟨key (r.1, r.2.1) hr.1, hr.2⟩))

/-- One solid pixel of sixteen bits with alpha 0x1234. -/
def wideAlpha : Doc := ⟨4, 1, 1, 16, 3, [], [], []⟩
/-- **C185 violated**: of sixteen bits of alpha the bytes are exchanged, even if the memory is such that the value would be kept. -/
theorem C185_violated_wide : ∃ r s', ilLoadF (iLoadPsdInternal fileOps (fun _ => 255) 0 before) (opened (wideAlpha.before 0 ++ [1, 2, 3, 4, 5, 6, 0x12, 0x34]) 0) = .ok (true, r, s') ∧
    r.1.type = IL_UNSIGNED_SHORT ∧ r.1.px 0 0 0 0 = some 2 ∧ r.1.px 0 0 0 1 = some 1 ∧ r.1.px 0 0 0 6 = some 0x12 ∧ r.1.px 0 0 0 7 = some 0x34 := by
  obtain ⟨⟨ok, r, s'⟩, e, h⟩ := ok_of (c := ilLoadF (iLoadPsdInternal fileOps (fun _ => 255) 0 before) (opened (wideAlpha.before 0 ++ [1, 2, 3, 4, 5, 6, 0x12, 0x34]) 0))
    (q := fun t => t.1 && decide (t.2.1.1.type = IL_UNSIGNED_SHORT ∧ t.2.1.1.px 0 0 0 0 = some 2 ∧ t.2.1.1.px 0 0 0 1 = some 1 ∧ t.2.1.1.px 0 0 0 6 = some 0x12 ∧ t.2.1.1.px 0 0 0 7 = some 0x34))
    (by decide +kernel)
  simp only [Bool.and_eq_true] at h
  obtain ⟨rfl, h⟩ := h
  exact ⟨r, s', e, of_decide_eq_true h⟩

example : rgba.Alpha 4 IL_RGBA ∧ rgba.depth = 8 ∧ (rgba.before 0 ++ [1, 2, 3, 4, 5, 6, 7, 8, 9, 255, 255, 255]).length < 2147483648 ∧
    rgba.width * rgba.height * 4 ≤ [1, 2, 3, 4, 5, 6, 7, 8, 9, 255, 255, (255 : UInt8)].length := ⟨⟨rfl, rfl, rfl, rfl⟩, rfl, by decide +kernel, by decide⟩

/-! ### C186 -/

/-- **C186** (partial): loading an uncompressed document of eight or sixteen bits, grey or RGB, whole or cut off in the pixels, ends without a fault, and what it leaves bound has a block of the size it
reports.  Missing: run-lengths that do not fit (`C186_violated_run`), files that end before the lengths (`C186_violated_table`), resources that do not fit (`C186_violated_resource`). -/
theorem C186_plain_partial (junk : Nat → UInt8) (fuel : Nat) (cur : Loaded) (d : Doc) (hd : d.Ok) (body : List UInt8) (hl : (d.before 0 ++ body).length < 2147483648)
    (k b f : Nat) (hb : b = 1 ∨ b = 2) (hdepth : d.depth = 8 * b) (hop : d.Opaque k f) (hfit : d.width * d.height * (k * b) < 2 ^ 32) :
    Loads junk fuel cur (d.before 0 ++ body) (fun _ r => r.1.data.length = r.1.size) :=
  both (pos_length d 0 body) hl
    (fun t ht => (plain_file fileLaws2 junk fuel d hd body ht cur hb hdepth hop hfit).mono (fun r hr => ⟨hr.1.2.1, hr.2⟩))
    (fun t ht => (plain_file lumpLaws2 junk fuel d hd body ht cur hb hdepth hop hfit).mono (fun r hr => ⟨hr.1.2.1, hr.2⟩))

/-- A grey document of one pixel. -/
def dot : Doc := ⟨1, 1, 1, 8, 1, [], [], []⟩
/-- A CMYK document of one pixel. -/
def inks : Doc := ⟨4, 1, 1, 8, 4, [], [], []⟩

/-- **C186 violated**: bytes as they are, one more than there are pixels, are written behind the block, from a file and from memory.  For the black channel of CMYK nothing is compared at
all. -/
theorem C186_violated_run :
    ilLoadF (iLoadPsdInternal fileOps (fun _ => 0) 100 before) (opened (dot.before 1 ++ [0, 3, 1, 7, 8]) 0) = .error .oobWrite ∧
    ilLoadL (iLoadPsdInternal lumpOps (fun _ => 0) 100 before) (dot.before 1 ++ [0, 3, 1, 7, 8]) (dot.before 1 ++ [0, 3, 1, 7, 8]).length = .error .oobWrite ∧
    ilLoadF (iLoadPsdInternal fileOps (fun _ => 0) 100 before) (opened (inks.before 1 ++ [0, 2, 0, 2, 0, 2, 0, 2, 0, 9, 0, 9, 0, 9, 129, 9]) 0) = .error .oobWrite :=
  ⟨error_of (by decide +kernel), error_of (by decide +kernel), error_of (by decide +kernel)⟩

/-- **C186 violated**: a document with run-lengths that ends in the table of the lengths makes the loader read from NULL. -/
theorem C186_violated_table :
    ilLoadF (iLoadPsdInternal fileOps (fun _ => 0) 100 before) (opened (dot.before 1 ++ [0]) 0) = .error .nullDeref ∧
    ilLoadL (iLoadPsdInternal lumpOps (fun _ => 0) 100 before) (dot.before 1 ++ [0]) (dot.before 1 ++ [0]).length = .error .nullDeref :=
  ⟨error_of (by decide +kernel), error_of (by decide +kernel)⟩

/-- A whole picture of one pixel, with resources that say that a name of 255 bytes follows; it does not. -/
def longName : List UInt8 := dot.head ++ section_ [] ++ section_ [0x38, 0x42, 0x49, 0x4D, 3, 237, 255, 0, 0, 0, 0, 0, 0, 0] ++ section_ [] ++ num 2 0 ++ [7]

/-- **C186 violated**: a resource whose name does not fit is read from behind the block of the resources. -/
theorem C186_violated_resource :
    ilLoadF (iLoadPsdInternal fileOps (fun _ => 0) 100 before) (opened longName 0) = .error .oobRead ∧
    ilLoadL (iLoadPsdInternal lumpOps (fun _ => 0) 100 before) longName longName.length = .error .oobRead :=
  ⟨error_of (by decide +kernel), error_of (by decide +kernel)⟩

example : ∃ ok r s', ilLoadF (iLoadPsdInternal fileOps (fun _ => 0) 0 before) (opened (wide.before 0 ++ wideBody.take 5) 0) = .ok (ok, r, s') ∧ r.1.data.length = r.1.size := by
  obtain ⟨⟨ok, r, s', e, h, -⟩, -⟩ := C186_plain_partial (fun _ => 0) 0 before wide wide_ok (wideBody.take 5) (by decide +kernel) 3 2 IL_RGB (.inr rfl) rfl (.inr (by decide)) (by decide)
  exact ⟨ok, r, s', e, h⟩

/-! ### C187 -/

/-- **C187** (partial): an uncompressed document, grey, RGB, RGBA or with a palette, that ends before its last pixel is refused.  Missing: run-lengths (`C187_violated_memory`), files
that end before the pixels. -/
theorem C187_plain_partial (junk : Nat → UInt8) (fuel : Nat) (cur : Loaded) (d : Doc) (hd : d.Ok) (body : List UInt8) (hl : (d.before 0 ++ body).length < 2147483648)
    (k b : Nat) (hb : b = 1 ∨ b = 2) (hdepth : d.depth = 8 * b) (hop : (∃ f, d.Opaque k f) ∨ (b = 1 ∧ k = 4 ∧ d.Alpha 4 IL_RGBA) ∨ (b = 1 ∧ k = 1 ∧ d.mode = 2 ∧ d.channels = 1 ∧ d.colours.length % 3 = 0))
    (hfit : d.width * d.height * (k * b) < 2 ^ 32) (hcut : body.length < d.width * d.height * (k * b)) :
    Loads junk fuel cur (d.before 0 ++ body) (fun ok _ => ok = false) := by
  have neg : ∀ {ok : Bool} {n : Nat}, (ok = true ↔ n ≤ body.length) → body.length < n → ok = false := fun {ok} {n} h hn => by
    cases ok with
    | false => rfl
    | true => exact absurd (h.mp rfl) (by omega)
  rcases hop with ⟨f, hop⟩ | ⟨rfl, rfl, hop⟩ | ⟨rfl, rfl, hm, hch, hcol⟩
  · obtain ⟨⟨ok, r, s', e, ⟨h1, -⟩, h3⟩, ok', r', e', h1', -⟩ := C183_plain junk fuel cur d hd body hl k b f hb hdepth hop hfit
    exact ⟨⟨ok, r, s', e, neg h1 hcut, h3⟩, ok', r', e', neg h1' hcut⟩
  · obtain ⟨⟨ok, r, s', e, ⟨h1, -⟩, h3⟩, ok', r', e', h1', -⟩ := C185_colours_partial junk fuel cur d hd body hl hdepth hop hfit
    exact ⟨⟨ok, r, s', e, neg h1 hcut, h3⟩, ok', r', e', neg h1' hcut⟩
  · rw [show 1 * 1 = 1 from rfl, Nat.mul_one] at hfit hcut
    obtain ⟨⟨ok, r, s', e, ⟨h1, -⟩, h3⟩, ok', r', e', h1', -⟩ := C183_palette junk fuel cur d hd body hl (d.colours.length / 3) hdepth hm hch (by omega) hfit
    exact ⟨⟨ok, r, s', e, neg h1 hcut, h3⟩, ok', r', e', neg h1' hcut⟩

/-- A grey document of three pixels. -/
def three : Doc := ⟨1, 1, 3, 8, 1, [], [], []⟩

/-- **C187 violated**: a document with run-lengths that stops after the first of three pixels is refused from a file, but loaded from memory, where the last byte is read again and
again. -/
theorem C187_violated_memory :
    (∃ r s', ilLoadF (iLoadPsdInternal fileOps (fun _ => 0) 100 before) (opened (three.before 1 ++ [0, 4, 0, 5]) 0) = .ok (false, r, s')) ∧
    (∃ r, ilLoadL (iLoadPsdInternal lumpOps (fun _ => 0) 100 before) (three.before 1 ++ [0, 4, 0, 5]) (three.before 1 ++ [0, 4, 0, 5]).length = .ok (true, r) ∧ r.1.data = [5, 5, 5]) := by
  constructor
  · obtain ⟨⟨ok, r, s'⟩, e, h⟩ := ok_of (c := ilLoadF (iLoadPsdInternal fileOps (fun _ => 0) 100 before) (opened (three.before 1 ++ [0, 4, 0, 5]) 0)) (q := fun t => !t.1) (by decide +kernel)
    cases ok with
    | true => cases h
    | false => exact ⟨r, s', e⟩
  · obtain ⟨⟨ok, r⟩, e, h⟩ := ok_of (c := ilLoadL (iLoadPsdInternal lumpOps (fun _ => 0) 100 before) (three.before 1 ++ [0, 4, 0, 5]) (three.before 1 ++ [0, 4, 0, 5]).length)
      (q := fun t => t.1 && decide (t.2.1.data = [5, 5, 5])) (by decide +kernel)
    simp only [Bool.and_eq_true] at h
    obtain ⟨rfl, h⟩ := h
    exact ⟨r, e, of_decide_eq_true h⟩

example : ∃ r s', ilLoadF (iLoadPsdInternal fileOps (fun _ => 0) 0 before) (opened (wide.before 0 ++ wideBody.take 11) 0) = .ok (false, r, s') := by
  obtain ⟨⟨ok, r, s', e, rfl, -⟩, -⟩ := C187_plain_partial (fun _ => 0) 0 before wide wide_ok (wideBody.take 11) (by decide +kernel) 3 2 (.inr rfl) rfl (.inl ⟨IL_RGB, .inr (by decide)⟩) (by decide) (by decide)
  exact ⟨r, s', e⟩

/-! ### C188 -/

/-- **C188** (partial): an uncompressed CMYK document of eight bits and four channels with all its pixels is loaded as RGB, each component the product of the ink and of black, divided by
256.  Missing: divided by 255 (`C188_violated_white`), sixteen bits, five channels (`C188_violated_alpha`). -/
theorem C188_product_partial (junk : Nat → UInt8) (fuel : Nat) (cur : Loaded) (d : Doc) (hd : d.Ok) (body : List UInt8) (hl : (d.before 0 ++ body).length < 2147483648)
    (hdepth : d.depth = 8) (hmode : d.mode = 4) (hch : d.channels = 4) (hfit : d.width * d.height * 3 < 2 ^ 32) (hfull : d.width * d.height * 4 ≤ body.length) :
    Loads junk fuel cur (d.before 0 ++ body) (fun ok r => ok = true ∧ r.2 = none ∧
      Shows3 r.1 d.width d.height 1 3 1 IL_RGB IL_UNSIGNED_BYTE (fun x y _ i => blackPx d.width d.height body x y i)) :=
  both (pos_length d 0 body) hl
    (fun t ht => (cmyk_file fileLaws2 junk fuel d hd body ht cur hdepth hmode hch hfit hfull).mono (fun r hr => ⟨⟨hr.1.1.mpr trivial, hr.1.2.2 (hr.1.1.mpr trivial)⟩, hr.2⟩))
    (fun t ht => (cmyk_file lumpLaws2 junk fuel d hd body ht cur hdepth hmode hch hfit hfull).mono (fun r hr => ⟨⟨hr.1.1.mpr trivial, hr.1.2.2 (hr.1.1.mpr trivial)⟩, hr.2⟩))

/-- **C188 violated**: where there is no ink at all (each of the four is 255) every picture of this kind is not white, but 254. -/
theorem C188_violated_white (junk : Nat → UInt8) (fuel : Nat) (cur : Loaded) (d : Doc) (hd : d.Ok) (body : List UInt8) (hl : (d.before 0 ++ body).length < 2147483648)
    (hdepth : d.depth = 8) (hmode : d.mode = 4) (hch : d.channels = 4) (hfit : d.width * d.height * 3 < 2 ^ 32) (hfull : d.width * d.height * 4 ≤ body.length)
    (x y : Nat) (hx : x < d.width) (hy : y < d.height) (hw : ∀ i, i < 4 → plainPx d.width d.height 1 body x y i = some 255) :
    Loads junk fuel cur (d.before 0 ++ body) (fun ok r => ok = true ∧ ∀ i, i < 3 → r.1.px x y 0 i = some 254) := by
  have key : ∀ r : Loaded, Shows3 r.1 d.width d.height 1 3 1 IL_RGB IL_UNSIGNED_BYTE (fun x y _ i => blackPx d.width d.height body x y i) → ∀ i, i < 3 → r.1.px x y 0 i = some 254 := fun r h i hi => by
    rw [(h.px x y 0 i hx hy (by decide) (by omega)).1]
    show blackPx d.width d.height body x y i = _
    unfold blackPx
    rw [hw i (by omega), hw 3 (by decide)]
    rfl
  obtain ⟨⟨ok, r, s', e, ⟨h1, -, h2⟩, h3⟩, ok', r', e', h1', -, h2'⟩ := C188_product_partial junk fuel cur d hd body hl hdepth hmode hch hfit hfull
  exact ⟨⟨ok, r, s', e, ⟨h1, key r h2⟩, h3⟩, ok', r', e', h1', key r' h2'⟩

/-- One pixel of CMYK and alpha, all 255: no ink, solid. -/
def inksAlpha : Doc := ⟨5, 1, 1, 8, 4, [], [], []⟩

/-- **C188 violated**: a picture with a fifth channel depends on what was in memory before: with zero there the solid white pixel is black. -/
theorem C188_violated_alpha :
    (∃ r s', ilLoadF (iLoadPsdInternal fileOps (fun _ => 0) 0 before) (opened (inksAlpha.before 0 ++ [255, 255, 255, 255, 255]) 0) = .ok (true, r, s') ∧ r.1.data = [0, 0, 0, 255]) ∧
    (∃ r s', ilLoadF (iLoadPsdInternal fileOps (fun _ => 200) 0 before) (opened (inksAlpha.before 0 ++ [255, 255, 255, 255, 255]) 0) = .ok (true, r, s') ∧ r.1.data = [199, 199, 199, 255]) := by
  constructor
  · obtain ⟨⟨ok, r, s'⟩, e, h⟩ := ok_of (c := ilLoadF (iLoadPsdInternal fileOps (fun _ => 0) 0 before) (opened (inksAlpha.before 0 ++ [255, 255, 255, 255, 255]) 0))
      (q := fun t => t.1 && decide (t.2.1.1.data = [0, 0, 0, 255])) (by decide +kernel)
    simp only [Bool.and_eq_true] at h
    obtain ⟨rfl, h⟩ := h
    exact ⟨r, s', e, of_decide_eq_true h⟩
  · obtain ⟨⟨ok, r, s'⟩, e, h⟩ := ok_of (c := ilLoadF (iLoadPsdInternal fileOps (fun _ => 200) 0 before) (opened (inksAlpha.before 0 ++ [255, 255, 255, 255, 255]) 0))
      (q := fun t => t.1 && decide (t.2.1.1.data = [199, 199, 199, 255])) (by decide +kernel)
    simp only [Bool.and_eq_true] at h
    obtain ⟨rfl, h⟩ := h
    exact ⟨r, s', e, of_decide_eq_true h⟩

theorem inks_ok : inks.Ok := ⟨by decide, by decide, by decide, fun r h => by cases h⟩

example : ∃ r s', ilLoadF (iLoadPsdInternal fileOps (fun _ => 0) 0 before) (opened (inks.before 0 ++ [255, 255, 255, 255]) 0) = .ok (true, r, s') ∧ r.1.px 0 0 0 1 = some 254 := by
  obtain ⟨⟨ok, r, s', e, ⟨rfl, h⟩, -⟩, -⟩ := C188_violated_white (fun _ => 0) 0 before inks inks_ok [255, 255, 255, 255] (by decide +kernel) rfl rfl rfl (by decide) (by decide) 0 0 (by decide) (by decide) (by decide)
  exact ⟨r, s', e, h 1 (by decide)⟩

/-! ### C189 -/

theorem docOf_ok {m : Img} (mode : Nat) (colours : List UInt8) (hk : 1 ≤ m.bpp ∧ m.bpp ≤ 24) (hw : 0 < m.width ∧ m.width < 4294967296) (hh : 0 < m.height ∧ m.height < 4294967296) :
    (docOf m mode colours).Ok := ⟨hk, hh, hw, fun _ h => by cases h⟩

theorem dims {m : Img} (hc : m.Consistent) (hd : m.depth = 1) (hw : 0 < m.width) (hh : 0 < m.height) (hk : 0 < m.bpp) (hb : 0 < m.bpc) :
    m.size = m.width * m.height * (m.bpp * m.bpc) ∧ m.width ≤ m.size ∧ m.height ≤ m.size := by
  have e : m.size = m.width * m.height * (m.bpp * m.bpc) := by
    rw [hc.2.2.1, hd, Nat.mul_one]; simp only [Nat.mul_comm, Nat.mul_left_comm]
  have hkb : 0 < m.bpp * m.bpc := Nat.mul_pos hk hb
  refine ⟨e, ?_, ?_⟩
  · rw [e, Nat.mul_assoc]; exact Nat.le_mul_of_pos_right _ (Nat.mul_pos hh hkb)
  · rw [e, Nat.mul_comm m.width, Nat.mul_assoc]; exact Nat.le_mul_of_pos_right _ (Nat.mul_pos hw hkb)

/-- The row from the top at which row `y` of the image is. -/
def row (m : Img) (y : Nat) : Nat := if m.origin = IL_ORIGIN_LOWER_LEFT then m.height - 1 - y else y

theorem shows_of {r : Img} {w h k b f t : Nat} {px px' : Nat → Nat → Nat → Nat → Option UInt8} (hs : Shows3 r w h 1 k b f t px)
    (he : ∀ x y i, x < w → y < h → i < k * b → px x y 0 i = px' x y 0 i) : Shows3 r w h 1 k b f t px' :=
  ⟨hs.width, hs.height, hs.depth, hs.bpp, hs.bpc, hs.format, hs.type, hs.origin, hs.cons, fun x y z i hx hy hz hi => by
    have hz0 : z = 0 := by omega
    subst hz0
    have := hs.px x y 0 i hx hy hz hi
    rw [← he x y i hx hy hi]
    exact this⟩

/-- **C189**, grey and RGB: for every image of one slice of eight or sixteen bits, grey or RGB, stored from the top or from the bottom, saving succeeds, and what is written is loaded as the same
picture, from a file and from memory. -/
theorem C189_plain (junk junk' : Nat → UInt8) (fuel : Nat) (cur : Loaded) (m : Img) (conv : Option Img) (pal : Option Pal) (hc : m.Consistent) (hd : m.depth = 1)
    (hw : 0 < m.width) (hh : 0 < m.height) (hfmt : (m.format = IL_LUMINANCE ∧ m.bpp = 1) ∨ (m.format = IL_RGB ∧ m.bpp = 3)) (hb : m.bpc = 1 ∨ m.bpc = 2)
    (ht : m.type = typeFor m.bpc) (hsize : m.size < 2147483608) :
    ∃ ops, iSavePsdInternal junk m conv pal = .ok (true, ops) ∧ Loads junk' fuel cur (output ops) (fun ok r => ok = true ∧ r.2 = none ∧
      Shows3 r.1 m.width m.height 1 m.bpp m.bpc m.format m.type (fun x y _ i => m.px x (row m y) 0 i)) := by
  obtain ⟨e1, e2, e3⟩ := dims hc hd hw hh (by omega) (by omega)
  have hwant : wanted m = (m.format, m.type) := by
    unfold wanted
    rw [if_neg (c := m.bpc > 2) (by omega)]
    rcases hfmt with ⟨h, -⟩ | ⟨h, -⟩ <;> rw [h] <;> rfl
  obtain ⟨mode, hmode, hm, hop⟩ : ∃ mode, modeOf m.format = some mode ∧ (mode = 1 ∨ mode = 3) ∧ (docOf m mode []).Opaque m.bpp m.format := by
    rcases hfmt with ⟨h, hk⟩ | ⟨h, hk⟩
    · exact ⟨1, by rw [h]; rfl, .inl rfl, .inl ⟨rfl, hk, h⟩⟩
    · exact ⟨3, by rw [h]; rfl, .inr rfl, .inr ⟨rfl, hk, hk, h⟩⟩
  obtain ⟨ops, body, h1, h2, h3, h4⟩ := save_ok junk conv pal hc hd (by omega) (by omega) (by omega) (by omega) hb hwant hmode (by omega) (fun h => by omega)
  rw [if_neg (by omega)] at h2
  refine ⟨ops, h1, ?_⟩
  have hlen : ((docOf m mode []).before 0 ++ body).length = 40 + m.size := by
    simp only [docOf, Doc.before, Doc.head, section_, List.flatMap_nil, List.length_append, List.length_cons, List.length_nil, List.length_replicate, num_length, h3]
  rw [h2]
  have key := C183_plain junk' fuel cur (docOf m mode []) (docOf_ok mode [] (by omega) ⟨hw, by omega⟩ ⟨hh, by omega⟩) body (by omega) m.bpp m.bpc m.format hb
    (by show m.bpc * 8 = _; omega) hop (by show m.width * m.height * _ < _; rw [← e1]; omega)
  have good : (docOf m mode []).width * (docOf m mode []).height * (m.bpp * m.bpc) ≤ body.length := by show m.width * m.height * _ ≤ _; rw [← e1, h3]
  obtain ⟨⟨ok, r, s', a, ⟨b1, b2⟩, b3⟩, ok', r', a', b1', b2'⟩ := key
  have t := b1.mpr good
  have t' := b1'.mpr good
  rw [ht]
  exact ⟨⟨ok, r, s', a, ⟨t, (b2 t).1, shows_of (b2 t).2 h4⟩, b3⟩, ok', r', a', t', (b2' t').1, shows_of (b2' t').2 h4⟩

/-- **C189**, with a palette of 256 colours: likewise; `p` is the palette as red, green and blue. -/
theorem C189_palette (junk junk' : Nat → UInt8) (fuel : Nat) (cur : Loaded) (m : Img) (conv : Option Img) (p : Pal) (hc : m.Consistent) (hd : m.depth = 1)
    (hw : 0 < m.width) (hh : 0 < m.height) (hfmt : m.format = IL_COLOUR_INDEX) (hk : m.bpp = 1) (hb : m.bpc = 1) (ht : m.type = IL_UNSIGNED_BYTE)
    (hp : p.size = 768 ∧ p.data.length = 768) (hsize : m.size < 2147482840) :
    ∃ ops, iSavePsdInternal junk m conv (some p) = .ok (true, ops) ∧ Loads junk' fuel cur (output ops) (fun ok r => ok = true ∧
      Shows3 r.1 m.width m.height 1 1 1 IL_COLOUR_INDEX IL_UNSIGNED_BYTE (fun x y _ i => m.px x (row m y) 0 i) ∧
      ∃ q, r.2 = some q ∧ q.type = IL_PAL_RGB24 ∧ q.size = 768 ∧ q.data = p.data) := by
  obtain ⟨e1, e2, e3⟩ := dims hc hd hw hh (by omega) (by omega)
  have hwant : wanted m = (m.format, m.type) := by
    unfold wanted
    rw [if_neg (c := m.bpc > 2) (by omega), hfmt]; rfl
  have hmode : modeOf m.format = some 2 := by rw [hfmt]; rfl
  obtain ⟨ops, body, h1, h2, h3, h4⟩ := save_ok junk conv (some p) hc hd (by omega) (by omega) (by omega) (by omega) (.inl hb) hwant hmode (by omega) (fun _ => ⟨p, rfl, hp.1, hp.2⟩)
  rw [if_pos rfl] at h2
  refine ⟨ops, h1, ?_⟩
  have hcl : (bodyOf 1 256 3 p.data).length = 768 := by rw [body_length (by rw [hp.2])]
  have h2 : output ops = (docOf m 2 (bodyOf 1 256 3 p.data)).before 0 ++ body := h2
  have hlen : ((docOf m 2 (bodyOf 1 256 3 p.data)).before 0 ++ body).length = 808 + m.size := by
    simp only [docOf, Doc.before, Doc.head, section_, List.flatMap_nil, List.length_append, List.length_cons, List.length_nil, List.length_replicate, num_length, h3, hcl]
  rw [h2]
  rw [hk, hb, Nat.mul_one] at e1
  have key := C183_palette junk' fuel cur (docOf m 2 (bodyOf 1 256 3 p.data)) (docOf_ok 2 _ (by omega) ⟨hw, by omega⟩ ⟨hh, by omega⟩) body (by omega) 256
    (by show m.bpc * 8 = _; omega) rfl hk hcl (by show m.width * m.height < _; rw [← e1]; omega)
  have good : (docOf m 2 (bodyOf 1 256 3 p.data)).width * (docOf m 2 (bodyOf 1 256 3 p.data)).height ≤ body.length := by show m.width * m.height ≤ _; rw [← e1, h3]
  rw [hk, hb] at h4
  have pal : ∀ q : Pal, q.data.length = 3 * 256 → (∀ j c, j < 256 → c < 3 → q.data[3 * j + c]? = (bodyOf 1 256 3 p.data)[c * 256 + j]?) → q.data = p.data := fun q hq h => by
    apply List.ext_getElem?
    intro i
    by_cases hi : i < 768
    · have := h (i / 3) (i % 3) (by omega) (Nat.mod_lt _ (by decide))
      rw [show 3 * (i / 3) + i % 3 = i from Nat.div_add_mod i 3] at this
      rw [this]
      have g := body_get (b := 1) (n := 256) (k := 3) (data := p.data) (by rw [hp.2]) (c := i % 3) (p := i / 3) (j := 0) (Nat.mod_lt _ (by decide)) (by omega) (by decide)
      rw [Nat.mul_one, Nat.add_zero, Nat.mul_one] at g
      rw [g]
      congr 1
      omega
    · rw [List.getElem?_eq_none (by omega), List.getElem?_eq_none (by omega)]
  obtain ⟨⟨ok, r, s', a, ⟨b1, b2⟩, b3⟩, ok', r', a', b1', b2'⟩ := key
  have t := b1.mpr good
  have t' := b1'.mpr good
  obtain ⟨c1, q, c2, c3, c4, c5, c6⟩ := b2 t
  obtain ⟨c1', q', c2', c3', c4', c5', c6'⟩ := b2' t'
  exact ⟨⟨ok, r, s', a, ⟨t, shows_of c1 h4, q, c2, c3, c4, pal q c5 c6⟩, b3⟩, ok', r', a', t', shows_of c1' h4, q', c2', c3', c4', pal q' c5' c6'⟩

/-- Two rows of one pixel of sixteen bits, the bottom one first. -/
def deep : Img := { geometry 1 2 1 3 IL_RGB IL_UNSIGNED_SHORT [1, 2, 3, 4, 5, 6, 7, 8, 9, 10, 11, 12] with origin := IL_ORIGIN_LOWER_LEFT }

theorem deep_ok : deep.Consistent := by
  unfold Img.Consistent
  decide

/-- The top one is loaded first. -/
example : ∃ ops r s', iSavePsdInternal (fun _ => 0) deep none none = .ok (true, ops) ∧
    ilLoadF (iLoadPsdInternal fileOps (fun _ => 0) 0 before) (opened (output ops) 0) = .ok (true, r, s') ∧ r.1.px 0 0 0 1 = some 8 := by
  obtain ⟨ops, h, ⟨ok, r, s', e, ⟨rfl, -, h2⟩, -⟩, -⟩ := C189_plain (fun _ => 0) (fun _ => 0) 0 before deep none none deep_ok rfl (by decide) (by decide) (.inr ⟨rfl, rfl⟩) (.inr rfl) rfl (by decide)
  exact ⟨ops, r, s', h, e, (h2.px 0 0 0 1 (by decide) (by decide) (by decide) (by decide)).1⟩

/-- One pixel with a palette of 256 colours. -/
def indexed : Img := geometry 1 1 1 1 IL_COLOUR_INDEX IL_UNSIGNED_BYTE [7]
/-- Its palette. -/
def colours256 : Pal := ⟨(List.range 768).map UInt8.ofNat, 768, IL_PAL_RGB24⟩

example : ∃ ops, iSavePsdInternal (fun _ => 0) indexed none (some colours256) = .ok (true, ops) := by
  obtain ⟨ops, h, -⟩ := C189_palette (fun _ => 0) (fun _ => 0) 0 before indexed none colours256 (by unfold Img.Consistent; decide) rfl (by decide) (by decide) rfl rfl rfl rfl
    ⟨rfl, by decide +kernel⟩ (by decide)
  exact ⟨ops, h⟩

/-! ### C190 -/

/-- **C190** (partial): of an image of eight bits with alpha the colours come back.  Missing: its alpha (`C190_violated_alpha`), palettes of fewer than 256 colours
(`C190_violated_palette`), several slices (`C190_violated_slices`), other formats (`C190_violated_grey_alpha`). -/
theorem C190_colours_partial (junk junk' : Nat → UInt8) (fuel : Nat) (cur : Loaded) (m : Img) (conv : Option Img) (pal : Option Pal) (hc : m.Consistent) (hd : m.depth = 1)
    (hw : 0 < m.width) (hh : 0 < m.height) (hfmt : m.format = IL_RGBA) (hk : m.bpp = 4) (hb : m.bpc = 1) (ht : m.type = IL_UNSIGNED_BYTE) (hsize : m.size < 2147483608) :
    ∃ ops, iSavePsdInternal junk m conv pal = .ok (true, ops) ∧ Loads junk' fuel cur (output ops) (fun ok r => ok = true ∧ r.2 = none ∧ r.1.width = m.width ∧ r.1.height = m.height ∧
      r.1.format = IL_RGBA ∧ r.1.type = IL_UNSIGNED_BYTE ∧ (∀ x y i, x < m.width → y < m.height → i < 3 → r.1.px x y 0 i = m.px x (row m y) 0 i) ∧
      ((∀ i, junk' i = 0) → ∀ x y, x < m.width → y < m.height → r.1.px x y 0 3 = some 0)) := by
  obtain ⟨e1, e2, e3⟩ := dims hc hd hw hh (by omega) (by omega)
  have hwant : wanted m = (m.format, m.type) := by
    unfold wanted
    rw [if_neg (c := m.bpc > 2) (by omega), hfmt]; rfl
  have hmode : modeOf m.format = some 3 := by rw [hfmt]; rfl
  obtain ⟨ops, body, h1, h2, h3, h4⟩ := save_ok junk conv pal hc hd (by omega) (by omega) (by omega) (by omega) (.inl hb) hwant hmode (by omega) (fun h => by omega)
  rw [if_neg (by omega)] at h2
  refine ⟨ops, h1, ?_⟩
  have hlen : ((docOf m 3 []).before 0 ++ body).length = 40 + m.size := by
    simp only [docOf, Doc.before, Doc.head, section_, List.flatMap_nil, List.length_append, List.length_cons, List.length_nil, List.length_replicate, num_length, h3]
  rw [h2]
  rw [hk, hb] at h4 e1
  have hok : (docOf m 3 []).Ok := docOf_ok 3 [] (by omega) ⟨hw, by omega⟩ ⟨hh, by omega⟩
  have hfit : m.width * m.height * 4 < 2 ^ 32 := by rw [show 4 * 1 = 4 from rfl] at e1; rw [← e1]; omega
  have good : m.width * m.height * 4 ≤ body.length := by rw [show 4 * 1 = 4 from rfl] at e1; rw [← e1, h3]
  have hdep : (docOf m 3 []).depth = 8 := by show m.bpc * 8 = 8; omega
  have key := C185_colours_partial junk' fuel cur (docOf m 3 []) hok body (by omega) hdep ⟨rfl, hk, rfl, rfl⟩ hfit
  obtain ⟨⟨ok, r, s', a, ⟨b1, b2⟩, b3⟩, ok', r', a', b1', b2'⟩ := key
  have t := b1.mpr good
  have t' := b1'.mpr good
  obtain ⟨c1, c2, c3, c4, c5, c6⟩ := b2 t
  obtain ⟨d1, d2, d3, d4, d5, d6⟩ := b2' t'
  have zero : (∀ i, junk' i = 0) → (∀ x y, x < m.width → y < m.height → r.1.px x y 0 3 = some 0) ∧ ∀ x y, x < m.width → y < m.height → r'.1.px x y 0 3 = some 0 := fun hj => by
    have hj : junk' = fun _ => 0 := funext hj
    subst hj
    obtain ⟨⟨ok2, r2, s2, f1, ⟨-, f2⟩, -⟩, ok3, r3, f3, -, f4⟩ := C185_violated_transparent fuel cur (docOf m 3 []) hok body (by omega) hdep ⟨rfl, hk, rfl, rfl⟩ hfit good
    rw [a] at f1
    rw [a'] at f3
    cases f1
    cases f3
    exact ⟨f2, f4⟩
  refine ⟨⟨ok, r, s', a, ⟨t, c1, c2, c3, c4, c5, fun x y i hx hy hi => ?_, fun hj => (zero hj).1⟩, b3⟩, ok', r', a', t', d1, d2, d3, d4, d5, fun x y i hx hy hi => ?_, fun hj => (zero hj).2⟩
  · rw [c6 x y i hx hy hi]
    exact h4 x y i hx hy (by omega)
  · rw [d6 x y i hx hy hi]
    exact h4 x y i hx hy (by omega)

/-- **C190 violated**: saved with alpha and loaded with memory that is zero, every image comes back transparent. -/
theorem C190_violated_alpha (junk : Nat → UInt8) (fuel : Nat) (cur : Loaded) (m : Img) (conv : Option Img) (pal : Option Pal) (hc : m.Consistent) (hd : m.depth = 1)
    (hw : 0 < m.width) (hh : 0 < m.height) (hfmt : m.format = IL_RGBA) (hk : m.bpp = 4) (hb : m.bpc = 1) (ht : m.type = IL_UNSIGNED_BYTE) (hsize : m.size < 2147483608) :
    ∃ ops, iSavePsdInternal junk m conv pal = .ok (true, ops) ∧
      Loads (fun _ => 0) fuel cur (output ops) (fun ok r => ok = true ∧ ∀ x y, x < m.width → y < m.height → r.1.px x y 0 3 = some 0) := by
  obtain ⟨ops, h, ⟨ok, r, s', e, h1, h2⟩, ok', r', e', h1'⟩ := C190_colours_partial junk (fun _ => 0) fuel cur m conv pal hc hd hw hh hfmt hk hb ht hsize
  exact ⟨ops, h, ⟨ok, r, s', e, ⟨h1.1, h1.2.2.2.2.2.2.2 (fun _ => rfl)⟩, h2⟩, ok', r', e', h1'.1, h1'.2.2.2.2.2.2.2 (fun _ => rfl)⟩

/-- A solid pixel. -/
def solid : Img := geometry 1 1 1 4 IL_RGBA IL_UNSIGNED_BYTE [10, 20, 30, 255]

example : ∃ ops r s', iSavePsdInternal (fun _ => 0) solid none none = .ok (true, ops) ∧
    ilLoadF (iLoadPsdInternal fileOps (fun _ => 0) 0 before) (opened (output ops) 0) = .ok (true, r, s') ∧ r.1.px 0 0 0 3 = some 0 ∧ solid.px 0 0 0 3 = some 255 := by
  obtain ⟨ops, h, ⟨ok, r, s', e, ⟨rfl, h2⟩, -⟩, -⟩ := C190_violated_alpha (fun _ => 0) 0 before solid none none (by unfold Img.Consistent; decide) rfl (by decide) (by decide) rfl rfl rfl rfl (by decide)
  exact ⟨ops, r, s', h, e, h2 0 0 (by decide) (by decide), rfl⟩

/-- A palette of two colours. -/
def colours2 : Pal := ⟨[1, 2, 3, 4, 5, 6], 6, IL_PAL_RGB24⟩

/-- **C190 violated**: an image with a palette of two colours is saved, but 768 bytes of palette are announced and six written, so that it cannot be loaded. -/
theorem C190_violated_palette : ∃ ops r s', iSavePsdInternal (fun _ => 0) indexed none (some colours2) = .ok (true, ops) ∧
    ilLoadF (iLoadPsdInternal fileOps (fun _ => 0) 0 before) (opened (output ops) 0) = .ok (false, r, s') := by
  obtain ⟨⟨ok, ops⟩, e, h⟩ := ok_of (c := iSavePsdInternal (fun _ => 0) indexed none (some colours2))
    (q := fun t => t.1 && (match ilLoadF (iLoadPsdInternal fileOps (fun _ => 0) 0 before) (opened (output t.2) 0) with | .ok (b, _, _) => !b | .error _ => false)) (by decide +kernel)
  simp only [Bool.and_eq_true] at h
  obtain ⟨rfl, h⟩ := h
  cases hl : ilLoadF (iLoadPsdInternal fileOps (fun _ => 0) 0 before) (opened (output ops) 0) with
  | error f => rw [hl] at h; cases h
  | ok t =>
    obtain ⟨b, r, s'⟩ := t
    rw [hl] at h
    cases b with
    | true => cases h
    | false => exact ⟨ops, r, s', e, hl⟩

/-- Two slices of one pixel. -/
def slices : Img := geometry 1 1 2 1 IL_LUMINANCE IL_UNSIGNED_BYTE [1, 2]

/-- **C190 violated**: of several slices only the first is saved, and success is reported. -/
theorem C190_violated_slices : ∃ ops r s', iSavePsdInternal (fun _ => 0) slices none none = .ok (true, ops) ∧
    ilLoadF (iLoadPsdInternal fileOps (fun _ => 0) 0 before) (opened (output ops) 0) = .ok (true, r, s') ∧ r.1.depth = 1 ∧ r.1.data = [1] := by
  obtain ⟨⟨ok, ops⟩, e, h⟩ := ok_of (c := iSavePsdInternal (fun _ => 0) slices none none)
    (q := fun t => t.1 && (match ilLoadF (iLoadPsdInternal fileOps (fun _ => 0) 0 before) (opened (output t.2) 0) with | .ok (b, r, _) => b && decide (r.1.depth = 1 ∧ r.1.data = [1]) | .error _ => false))
    (by decide +kernel)
  simp only [Bool.and_eq_true] at h
  obtain ⟨rfl, h⟩ := h
  cases hl : ilLoadF (iLoadPsdInternal fileOps (fun _ => 0) 0 before) (opened (output ops) 0) with
  | error f => rw [hl] at h; cases h
  | ok t =>
    obtain ⟨b, r, s'⟩ := t
    rw [hl] at h
    simp only [Bool.and_eq_true] at h
    obtain ⟨rfl, h⟩ := h
    exact ⟨ops, r, s', e, hl, of_decide_eq_true h⟩

/-- **C190 violated**: grey with alpha is refused, whatever the image, but not before 24 bytes have been written. -/
theorem C190_violated_grey_alpha (junk : Nat → UInt8) (m : Img) (conv : Option Img) (pal : Option Pal) (hf : m.format = IL_LUMINANCE_ALPHA) (hb : m.bpc ≤ 2) :
    ∃ ops, iSavePsdInternal junk m conv pal = .ok (false, ops) ∧ (output ops).length = 24 := by
  have hwant : wanted m = (m.format, m.type) := by
    unfold wanted
    rw [if_neg (c := m.bpc > 2) (by omega), hf]; rfl
  have hmode : modeOf m.format = none := by rw [hf]; rfl
  unfold iSavePsdInternal
  simp only [hwant, if_true, hmode]
  refine ⟨_, rfl, ?_⟩
  have hs : ∀ v, (Sgi.short false v).bytes.length = 2 := fun v => by
    show ((Endian.SaveBigUShort false (BitVec.ofNat 16 v)).take (2 * 1)).length = 2
    rw [Lump.saveBigUShort_eq]
    simp
  have hi : ∀ v, (Sgi.int false v).bytes.length = 4 := fun v => by
    show ((Endian.SaveBigUInt false (BitVec.ofInt 32 v)).take (4 * 1)).length = 4
    rw [Lump.saveBigUInt_eq]
    simp
  have h0 : (WOp.write [56, 66, 80, 83] 1 4).bytes.length = 4 := rfl
  simp only [output, List.flatMap_append, List.flatMap_cons, List.flatMap_nil, List.length_append, List.length_nil, h0, hs, hi]

example : (geometry 1 1 1 2 IL_LUMINANCE_ALPHA IL_UNSIGNED_BYTE [1, 2]).bpc ≤ 2 := by decide

end DevIL.Psd
