import Verif.Lemmas.GamesG
import Verif.Props.Detect
/-! Small picture formats: C115 (FTX and LIF), C116 (PIX), C117 (PXR), C118 (MDL), C119 (WAL), C120 (Doom), C121 (CUT), C122 (Doom flats). -/
set_option autoImplicit false
namespace DevIL.Games

open DevIL.Detect DevIL.DetectSpec DevIL.GamesSpec

/-- Loading these bytes from a file open at its beginning, and from memory, ends without a fault and gives what `P` says; the file is
unchanged and at its beginning afterwards. -/
def Both {ρ : Type} (vF : Cache.S → C (Bool × ρ × Cache.S)) (vL : Lump.R → C (Bool × ρ × Lump.R)) (bs : List UInt8) (P : Bool → ρ → Prop) : Prop :=
  (∃ ok r s', ilLoadF vF (opened bs 0) = .ok (ok, r, s') ∧ P ok r ∧ s'.data = bs ∧ s'.pos = 0) ∧
  (∃ ok r, ilLoadL vL bs bs.length = .ok (ok, r) ∧ P ok r)

theorem both {ρ : Type} {vF : Cache.S → C (Bool × ρ × Cache.S)} {vL : Lump.R → C (Bool × ρ × Lump.R)} {bs : List UInt8} {P : Bool → ρ → Prop}
    (h0 : 0 < bs.length) (hl : bs.length < 2147483648)
    (hF : ∀ t, FileAt t bs 0 → Holds (vF t) (fun r => P r.1 r.2.1 ∧ ∃ q, FileAt r.2.2 bs q))
    (hL : ∀ t, LumpAt t bs 0 → Holds (vL t) (fun r => P r.1 r.2.1 ∧ ∃ q, LumpAt r.2.2 bs q)) : Both vF vL bs P :=
  ⟨loadF rfl rfl hl hF, loadL h0 hl hL⟩

/-- Finding a fault by running the program. -/
theorem error_of {α : Type} {c : C α} {f : Fault} (h : (match c with | .error g => decide (g = f) | .ok _ => false) = true) : c = .error f := by
  match c, h with
  | .error g, h => rw [of_decide_eq_true h]

/-- Finding a result by running the program. -/
theorem ok_of {α : Type} {c : C α} {q : α → Bool} (h : (match c with | .error _ => false | .ok r => q r) = true) : ∃ r, c = .ok r ∧ q r = true := by
  match c, h with
  | .ok r, h => exact ⟨r, rfl, h⟩

/-- An image to begin with. -/
def before : Img × Option Pal := (tex (fun _ => 0) 1 1 1 IL_LUMINANCE, none)

/-! ### C115 -/

/-- **C115**, FTX: for every non-empty sequence of bytes below 2 GiB, from a file or from memory, loading ends without a fault and does what
`Ftx` says: the block has the size the image reports, and for a complete header with a picture that is not empty and below 4 GiB, loading
succeeds exactly if all the pixels are there, and shows them. -/
theorem C115_ftx (junk : Nat → UInt8) (bs : List UInt8) (h0 : 0 < bs.length) (hl : bs.length < 2147483648) :
    Both (iLoadFtxInternal fileOps junk) (iLoadFtxInternal lumpOps junk) bs (Ftx bs) :=
  both h0 hl (fun _ h => ftx_spec fileLaws2 junk h) (fun _ h => ftx_spec lumpLaws2 junk h)

/-- **C115**, LIF: likewise, with its palette. -/
theorem C115_lif (junk : Nat → UInt8) (bs : List UInt8) (h0 : 0 < bs.length) (hl : bs.length < 2147483648) :
    Both (iLoadLifInternal fileOps junk) (iLoadLifInternal lumpOps junk) bs (Lif bs) :=
  both h0 hl (fun _ h => lif_spec fileLaws2 junk h) (fun _ h => lif_spec lumpLaws2 junk h)

/-- A picture of two pixels. -/
def ftxFile : List UInt8 := [2, 0, 0, 0, 1, 0, 0, 0, 1, 0, 0, 0, 10, 20, 30, 255, 40, 50, 60, 255]

example : (0 < ftxFile.length ∧ ftxFile.length < 2147483648) ∧ 12 ≤ ftxFile.length ∧ 0 < leAt ftxFile 0 4 ∧ 0 < leAt ftxFile 4 4 ∧
    leAt ftxFile 0 4 * leAt ftxFile 4 4 * 4 < 2 ^ 32 ∧ 12 + leAt ftxFile 0 4 * leAt ftxFile 4 4 * 4 ≤ ftxFile.length := by decide
/-- Its image has the second pixel of the file. -/
example : ∃ ok r s', ilLoadF (iLoadFtxInternal fileOps (fun _ => 0)) (opened ftxFile 0) = .ok (ok, r, s') ∧ ok = true ∧ r.1.width = 2 ∧
    r.1.px 1 0 0 1 = some 50 := by
  obtain ⟨⟨ok, r, s', e, ⟨-, h⟩, -⟩, -⟩ := C115_ftx (fun _ => 0) ftxFile (by decide) (by decide)
  obtain ⟨h1, h2⟩ := h (by decide) (by decide) (by decide) (by decide)
  have hok := h1.mpr (by decide)
  obtain ⟨hs, -⟩ := h2 hok
  exact ⟨ok, r, s', e, hok, hs.width, (hs.px 1 0 1 (by decide) (by decide) (by decide)).1⟩
/-- A shorter file is refused. -/
example : ∃ ok r s', ilLoadF (iLoadFtxInternal fileOps (fun _ => 0)) (opened (ftxFile.take 19) 0) = .ok (ok, r, s') ∧ ok = false := by
  obtain ⟨⟨ok, r, s', e, ⟨-, h⟩, -⟩, -⟩ := C115_ftx (fun _ => 0) (ftxFile.take 19) (by decide) (by decide)
  obtain ⟨h1, -⟩ := h (by decide) (by decide) (by decide) (by decide)
  refine ⟨ok, r, s', e, ?_⟩
  cases ok with
  | false => rfl
  | true => exact absurd (h1.mp rfl) (by decide)

/-- A LIF picture of one pixel, colour 6. -/
def lifFile : List UInt8 := List.replicate 8 65 ++ [4, 1, 0, 0, 50, 0, 0, 0, 1, 0, 0, 0, 1, 0, 0, 0] ++ List.replicate 20 0 ++ [5] ++ List.replicate 1024 7

set_option maxRecDepth 20000 in
example : 44 ≤ lifFile.length ∧ 0 < leAt lifFile 16 4 ∧ 0 < leAt lifFile 20 4 ∧ leAt lifFile 16 4 * leAt lifFile 20 4 < 2 ^ 32 ∧
    44 + leAt lifFile 16 4 * leAt lifFile 20 4 + 1024 ≤ lifFile.length := by decide

/-! ### C116 -/

/-- **C116** (partial): a PIX file with a header that declares 24 bits per pixel, followed by runs that do not stand for more pixels than
the picture has, and either stand for all of them or are cut off by the end of the file.  Loading succeeds exactly if the runs stand for all the
pixels, and then shows them.  Missing: a run that goes on past the last pixel, for which it is false (`C116_violated_overflow`). -/
theorem C116_pix_partial (junk : Nat → UInt8) (cur : Img × Option Pal) (fuel : Nat) (bs : List UInt8) (hl : bs.length < 2147483648)
    (hfuel : bs.length < fuel) (h10 : 10 ≤ bs.length) (hw : 0 < beAt bs 0 2) (hh : 0 < beAt bs 2 2) (h24 : beAt bs 8 2 = 24)
    (hfit : beAt bs 0 2 * beAt bs 2 2 * 3 < 2 ^ 32) (rs : List Run) (hn : StoredAt bs 10 (runBytes rs))
    (hpx : (runPixels rs).length ≤ beAt bs 0 2 * beAt bs 2 2 * 3)
    (hend : (runPixels rs).length < beAt bs 0 2 * beAt bs 2 2 * 3 → bs.length < 10 + (runBytes rs).length + 4) :
    Both (iLoadPixInternal fileOps junk fuel cur) (iLoadPixInternal lumpOps junk fuel cur) bs (fun ok r =>
      (ok = true ↔ (runPixels rs).length = beAt bs 0 2 * beAt bs 2 2 * 3) ∧ r.1.data.length = r.1.size ∧
      (ok = true → r.2 = none ∧
        Shows r.1 (beAt bs 0 2) (beAt bs 2 2) 3 IL_BGR (fun x y c => (runPixels rs)[(y * beAt bs 0 2 + x) * 3 + c]?))) :=
  both (by omega) hl
    (fun _ h => (pix_spec fileLaws2 junk cur fuel h hfuel h10 hw hh h24 hfit rs hn hpx hend).mono (fun _ hr => ⟨⟨hr.1, hr.2.1, hr.2.2.1⟩, hr.2.2.2⟩))
    (fun _ h => (pix_spec lumpLaws2 junk cur fuel h hfuel h10 hw hh h24 hfit rs hn hpx hend).mono (fun _ hr => ⟨⟨hr.1, hr.2.1, hr.2.2.1⟩, hr.2.2.2⟩))

/-- A picture of 2 by 2 pixels in two runs. -/
def pixFile : List UInt8 := [0, 2, 0, 2, 0, 0, 0, 0, 0, 24, 3, 1, 2, 3, 1, 4, 5, 6]

example : 10 ≤ pixFile.length ∧ 0 < beAt pixFile 0 2 ∧ 0 < beAt pixFile 2 2 ∧ beAt pixFile 8 2 = 24 ∧
    StoredAt pixFile 10 (runBytes [⟨3, 1, 2, 3⟩, ⟨1, 4, 5, 6⟩]) ∧
    (runPixels [⟨3, 1, 2, 3⟩, ⟨1, 4, 5, 6⟩]).length = beAt pixFile 0 2 * beAt pixFile 2 2 * 3 :=
  ⟨by decide, by decide, by decide, by decide, by unfold StoredAt; decide, by decide⟩
/-- Cut off in the second run. -/
example : StoredAt (pixFile.take 16) 10 (runBytes [⟨3, 1, 2, 3⟩]) ∧ (runPixels [⟨3, 1, 2, 3⟩]).length < 2 * 2 * 3 ∧
    (pixFile.take 16).length < 10 + (runBytes [⟨3, 1, 2, 3⟩]).length + 4 := ⟨by unfold StoredAt; decide, by decide, by decide⟩

/-- **C116** is false in general: a picture of one pixel with a run of two writes outside the block, from a file and from memory. -/
theorem C116_violated_overflow :
    ilLoadF (iLoadPixInternal fileOps (fun _ => 0) 30 before) (opened [0, 1, 0, 1, 0, 0, 0, 0, 0, 24, 2, 1, 2, 3] 0) = .error .oobWrite ∧
    ilLoadL (iLoadPixInternal lumpOps (fun _ => 0) 30 before) [0, 1, 0, 1, 0, 0, 0, 0, 0, 24, 2, 1, 2, 3] 14 = .error .oobWrite :=
  ⟨error_of (by decide +kernel), error_of (by decide +kernel)⟩

/-! ### C117 -/

/-- **C117** (partial): any bytes can be loaded as PXR without a fault, and the block has the size the image reports; a complete file shows
its pixels.  Missing: a file that ends before its last pixel must not be reported as loaded, which is false (`C117_violated_truncated`). -/
theorem C117_pxr_partial (junk : Nat → UInt8) (cur : Img × Option Pal) (hcur : cur.1.data.length = cur.1.size) (bs : List UInt8) (h0 : 0 < bs.length)
    (hl : bs.length < 2147483648) :
    Both (iLoadPxrInternal fileOps junk cur) (iLoadPxrInternal lumpOps junk cur) bs (fun ok r => r.1.data.length = r.1.size ∧
      ∀ b k f, bs[424]? = some b → pxrKind b = some (k, f) → 0 < leAt bs 418 2 → 0 < leAt bs 416 2 → leAt bs 418 2 * leAt bs 416 2 * k < 2 ^ 32 →
        1024 + leAt bs 418 2 * leAt bs 416 2 * k ≤ bs.length →
        ok = true ∧ r.2 = none ∧ Shows r.1 (leAt bs 418 2) (leAt bs 416 2) k f (fun x y c => bs[1024 + (y * leAt bs 418 2 + x) * k + c]?)) := by
  refine both h0 hl (fun t h => ?_) (fun t h => ?_)
  · obtain ⟨r, e, h1, h2⟩ := pxr_safe fileLaws2 junk cur hcur h
    refine ⟨r, e, ⟨h1, fun b k f hb hk hw hh hfit hall => ?_⟩, h2⟩
    obtain ⟨r', e', g1, g2, g3, -⟩ := pxr_spec fileLaws2 junk cur h (by omega) hb hk hw hh hfit hall
    cases e.symm.trans e'
    exact ⟨g1, g2, g3⟩
  · obtain ⟨r, e, h1, h2⟩ := pxr_safe lumpLaws2 junk cur hcur h
    refine ⟨r, e, ⟨h1, fun b k f hb hk hw hh hfit hall => ?_⟩, h2⟩
    obtain ⟨r', e', g1, g2, g3, -⟩ := pxr_spec lumpLaws2 junk cur h (by omega) hb hk hw hh hfit hall
    cases e.symm.trans e'
    exact ⟨g1, g2, g3⟩

/-- One grey pixel. -/
def pxrFile : List UInt8 := List.replicate 416 0 ++ [1, 0, 1, 0, 0, 0, 0, 0, 8] ++ List.replicate 599 0 ++ [200]

set_option maxRecDepth 20000 in
example : pxrFile[424]? = some 8 ∧ pxrKind 8 = some (1, IL_LUMINANCE) ∧ 0 < leAt pxrFile 418 2 ∧ 0 < leAt pxrFile 416 2 ∧
    leAt pxrFile 418 2 * leAt pxrFile 416 2 * 1 < 2 ^ 32 ∧ 1024 + leAt pxrFile 418 2 * leAt pxrFile 416 2 * 1 ≤ pxrFile.length := by decide

/-- **C117** is false in general: the same file without any of its pixels is reported as loaded, and its pixel is whatever the memory held
(0 or 1 here). -/
theorem C117_violated_truncated (v : UInt8) (hv : v = 0 ∨ v = 1) :
    (∃ r, ilLoadF (iLoadPxrInternal fileOps (fun _ => v) before) (opened (pxrFile.take 425) 0) = .ok r ∧ (r.1 && decide (r.2.1.1.px 0 0 0 0 = some v)) = true) ∧
    (∃ r, ilLoadL (iLoadPxrInternal lumpOps (fun _ => v) before) (pxrFile.take 425) 425 = .ok r ∧ (r.1 && decide (r.2.1.px 0 0 0 0 = some v)) = true) := by
  rcases hv with rfl | rfl
  · exact ⟨ok_of (by decide +kernel), ok_of (by decide +kernel)⟩
  · exact ⟨ok_of (by decide +kernel), ok_of (by decide +kernel)⟩

/-! ### C118 -/

/-- **C118** (partial): a complete MDL file with one texture shows it, with its palette (the origin is reported as the lower left).
Missing: more textures, for which it is false (`C118_violated_second`). -/
theorem C118_mdl_partial (junk : Nat → UInt8) (cur : Img × Option Pal) (bs : List UInt8) (hl : bs.length < 2147483648) (hlen : 192 ≤ bs.length)
    (h0 : leAt bs 0 4 = 0x54534449) (h1 : leAt bs 4 4 = 10) (hnum : leAt bs 180 4 = 1) (T : Nat) (hT : leAt bs 184 4 = T) (hT0 : T ≠ 0)
    (hD : leAt bs 188 4 ≠ 0) (hT1 : T + 80 ≤ bs.length) (w h p : Nat) (hw : leAt bs (T + 68) 4 = w) (hh : leAt bs (T + 72) 4 = h)
    (hp : leAt bs (T + 76) 4 = p) (hp0 : p ≠ 0) (hw0 : 0 < w) (hh0 : 0 < h) (hall : p + w * h + 768 ≤ bs.length) :
    Both (iLoadMdlInternal fileOps junk cur) (iLoadMdlInternal lumpOps junk cur) bs (fun ok r => ok = true ∧
      HasPal r.2 (at_ bs (p + w * h) 768) IL_PAL_RGB24 ∧ r.1.origin = IL_ORIGIN_LOWER_LEFT ∧
      Shows { r.1 with origin := IL_ORIGIN_UPPER_LEFT } w h 1 IL_COLOUR_INDEX (fun x y _ => bs[p + (y * w + x)]?)) :=
  both (by omega) hl
    (fun _ h' => (mdl_spec fileLaws2 junk cur h' hlen h0 h1 hnum T hT hT0 hD hT1 w h p hw hh hp hp0 hw0 hh0 hall).mono
      (fun _ hr => ⟨⟨hr.1, hr.2.1, hr.2.2.1, hr.2.2.2.1⟩, hr.2.2.2.2⟩))
    (fun _ h' => (mdl_spec lumpLaws2 junk cur h' hlen h0 h1 hnum T hT hT0 hD hT1 w h p hw hh hp hp0 hw0 hh0 hall).mono
      (fun _ hr => ⟨⟨hr.1, hr.2.1, hr.2.2.1, hr.2.2.2.1⟩, hr.2.2.2.2⟩))

/-- A model with `n` textures of one pixel, all the same pixel. -/
def mdlFile (n : UInt8) : List UInt8 :=
  [0x49, 0x44, 0x53, 0x54, 10, 0, 0, 0] ++ List.replicate 172 0 ++ [n, 0, 0, 0, 192, 0, 0, 0, 1, 0, 0, 0]
    ++ List.replicate 64 65 ++ [0, 0, 0, 0, 1, 0, 0, 0, 1, 0, 0, 0, 1, 0, 0, 0] ++ List.replicate 64 66 ++ [0, 0, 0, 0, 1, 0, 0, 0, 1, 0, 0, 0, 1, 0, 0, 0]
    ++ List.replicate 500 9

set_option maxRecDepth 20000 in
example : 192 ≤ (mdlFile 1).length ∧ leAt (mdlFile 1) 0 4 = 0x54534449 ∧ leAt (mdlFile 1) 4 4 = 10 ∧ leAt (mdlFile 1) 180 4 = 1 ∧ leAt (mdlFile 1) 184 4 = 192 ∧
    leAt (mdlFile 1) 188 4 ≠ 0 ∧ 192 + 80 ≤ (mdlFile 1).length ∧ leAt (mdlFile 1) (192 + 68) 4 = 1 ∧ leAt (mdlFile 1) (192 + 72) 4 = 1 ∧
    leAt (mdlFile 1) (192 + 76) 4 = 1 ∧ 1 + 1 * 1 + 768 ≤ (mdlFile 1).length := by decide

/-- **C118** is false in general: with a second texture, the program follows a null pointer. -/
theorem C118_violated_second :
    ilLoadF (iLoadMdlInternal fileOps (fun _ => 0) before) (opened (mdlFile 2) 0) = .error .nullDeref ∧
    ilLoadL (iLoadMdlInternal lumpOps (fun _ => 0) before) (mdlFile 2) (mdlFile 2).length = .error .nullDeref :=
  ⟨error_of (by decide +kernel), error_of (by decide +kernel)⟩

/-! ### C119 -/

/-- **C119** (partial): a complete WAL file shows its picture with the palette of the game, and has its three mipmaps with the pixels of the
file.  Missing: the mipmaps' palette (`C119_violated_palette`), and files that are not complete (`C119_violated_truncated`). -/
theorem C119_wal_partial (junk : Nat → UInt8) (table : List UInt8) (htab : table.length = 768) (bs : List UInt8) (hl : bs.length < 2147483648)
    (hlen : 100 ≤ bs.length) (w h p p1 p2 p3 : Nat) (hw : leAt bs 32 4 = w) (hh : leAt bs 36 4 = h) (hp : leAt bs 40 4 = p) (hp1 : leAt bs 44 4 = p1)
    (hp2 : leAt bs 48 4 = p2) (hp3 : leAt bs 52 4 = p3) (hw8 : 8 ≤ w) (hh8 : 8 ≤ h) (hall : p + w * h ≤ bs.length)
    (hall1 : p1 + (w / 2) * (h / 2) ≤ bs.length) (hall2 : p2 + (w / 4) * (h / 4) ≤ bs.length) (hall3 : p3 + (w / 8) * (h / 8) ≤ bs.length) :
    Both (ρ := (Img × Option Pal) × List Mip)
      (fun s => do let (b, m, ms, s) ← iLoadWalInternal fileOps junk table s; pure (b, (m, ms), s))
      (fun s => do let (b, m, ms, s) ← iLoadWalInternal lumpOps junk table s; pure (b, (m, ms), s)) bs (fun ok r => ok = true ∧
      HasPal r.1.2 table IL_PAL_RGB24 ∧ Shows r.1.1 w h 1 IL_COLOUR_INDEX (fun x y _ => bs[p + (y * w + x)]?) ∧
      (∃ m1 m2 m3 : Mip, r.2 = [m1, m2, m3] ∧
        Shows m1.img (w / 2) (h / 2) 1 IL_COLOUR_INDEX (fun x y _ => bs[p1 + (y * (w / 2) + x)]?) ∧
        Shows m2.img (w / 4) (h / 4) 1 IL_COLOUR_INDEX (fun x y _ => bs[p2 + (y * (w / 4) + x)]?) ∧
        Shows m3.img (w / 8) (h / 8) 1 IL_COLOUR_INDEX (fun x y _ => bs[p3 + (y * (w / 8) + x)]?))) := by
  refine both (by omega) hl (fun _ h' => ?_) (fun _ h' => ?_)
  · refine (wal_spec fileLaws2 junk table htab h' hlen w h p p1 p2 p3 hw hh hp hp1 hp2 hp3 hw8 hh8 hall hall1 hall2 hall3).bind (fun r hr => ?_)
    obtain ⟨a, b, c, ⟨m1, m2, m3, d1, d2, d3, d4, -⟩, e⟩ := hr
    exact Holds.pure ⟨⟨a, b, c, m1, m2, m3, d1, d2, d3, d4⟩, e⟩
  · refine (wal_spec lumpLaws2 junk table htab h' hlen w h p p1 p2 p3 hw hh hp hp1 hp2 hp3 hw8 hh8 hall hall1 hall2 hall3).bind (fun r hr => ?_)
    obtain ⟨a, b, c, ⟨m1, m2, m3, d1, d2, d3, d4, -⟩, e⟩ := hr
    exact Holds.pure ⟨⟨a, b, c, m1, m2, m3, d1, d2, d3, d4⟩, e⟩

/-- A texture of 8 by 8 pixels with its mipmaps. -/
def walFile : List UInt8 := List.replicate 32 65 ++ [8, 0, 0, 0, 8, 0, 0, 0, 100, 0, 0, 0, 164, 0, 0, 0, 180, 0, 0, 0, 184, 0, 0, 0] ++ List.replicate 44 0
  ++ List.replicate 64 1 ++ List.replicate 16 2 ++ List.replicate 4 3 ++ [4]

set_option maxRecDepth 20000 in
example : 100 ≤ walFile.length ∧ leAt walFile 32 4 = 8 ∧ leAt walFile 36 4 = 8 ∧ leAt walFile 40 4 = 100 ∧ leAt walFile 44 4 = 164 ∧ leAt walFile 48 4 = 180 ∧
    leAt walFile 52 4 = 184 ∧ 100 + 8 * 8 ≤ walFile.length ∧ 164 + (8 / 2) * (8 / 2) ≤ walFile.length ∧ 180 + (8 / 4) * (8 / 4) ≤ walFile.length ∧
    184 + (8 / 8) * (8 / 8) ≤ walFile.length := by decide

/-- **C119** is false in general: of a complete file, no mipmap has a palette although each says it has one of 768 bytes. -/
theorem C119_violated_palette (junk : Nat → UInt8) (table : List UInt8) (htab : table.length = 768) (bs : List UInt8) (hl : bs.length < 2147483648)
    (hlen : 100 ≤ bs.length) (w h p p1 p2 p3 : Nat) (hw : leAt bs 32 4 = w) (hh : leAt bs 36 4 = h) (hp : leAt bs 40 4 = p) (hp1 : leAt bs 44 4 = p1)
    (hp2 : leAt bs 48 4 = p2) (hp3 : leAt bs 52 4 = p3) (hw8 : 8 ≤ w) (hh8 : 8 ≤ h) (hall : p + w * h ≤ bs.length)
    (hall1 : p1 + (w / 2) * (h / 2) ≤ bs.length) (hall2 : p2 + (w / 4) * (h / 4) ≤ bs.length) (hall3 : p3 + (w / 8) * (h / 8) ≤ bs.length) :
    ∃ r s', ilLoadF (ρ := (Img × Option Pal) × List Mip)
      (fun s => do let (b, m, ms, s) ← iLoadWalInternal fileOps junk table s; pure (b, (m, ms), s)) (opened bs 0) = .ok (true, r, s') ∧
      r.2.length = 3 ∧ ∀ m ∈ r.2, m.palette = none ∧ m.palSize = 768 := by
  obtain ⟨ok, r, s', e, ⟨hok, hl, hm⟩, -⟩ := loadF (bs := bs) (s := opened bs 0) (P := fun ok (r : (Img × Option Pal) × List Mip) => ok = true ∧
      r.2.length = 3 ∧ ∀ m ∈ r.2, m.palette = none ∧ m.palSize = 768)
    (v := fun s => do let (b, m, ms, s) ← iLoadWalInternal fileOps junk table s; pure (b, (m, ms), s)) rfl rfl hl (fun t h' => by
      refine (wal_spec fileLaws2 junk table htab h' hlen w h p p1 p2 p3 hw hh hp hp1 hp2 hp3 hw8 hh8 hall hall1 hall2 hall3).bind (fun r hr => ?_)
      obtain ⟨a, b, c, ⟨m1, m2, m3, d1, d2, d3, d4, d5⟩, e⟩ := hr
      exact Holds.pure ⟨⟨a, by show r.2.2.1.length = 3; rw [d1]; rfl, by show ∀ m ∈ r.2.2.1, _; rw [d1]; exact d5⟩, e⟩)
  subst hok
  exact ⟨r, s', e, hl, hm⟩

/-- **C119** is false in general: when the pixels are missing, images that have been freed are used again. -/
theorem C119_violated_truncated :
    iLoadWalInternal fileOps (fun _ => 0) (List.replicate 768 5) (opened (walFile.take 100) 0) = .error .useAfterFree ∧
    iLoadWalInternal lumpOps (fun _ => 0) (List.replicate 768 5) (Lump.open_ (walFile.take 100) 100) = .error .useAfterFree :=
  ⟨error_of (by decide +kernel), error_of (by decide +kernel)⟩

/-! ### C120 -/

/-- **C120** (partial): a Doom picture all of whose columns are in the file shows, in every column, what the posts of the column say, and the
colour 247 elsewhere, with the palette of the game.  Missing: `IL_CONV_PAL` (`C120_violated_conv`), columns before the beginning of the file
(`C120_violated_column`). -/
theorem C120_doom_partial (junk : Nat → UInt8) (table : List UInt8) (htab : table.length = 768) (fuel : Nat) (bs : List UInt8)
    (hl : bs.length < 2147483648) (hfuel : bs.length < fuel) (hw : 0 < leAt bs 0 2) (hw2 : leAt bs 0 2 < 32768) (hh : 0 < leAt bs 2 2)
    (hh2 : leAt bs 2 2 < 32768) (hlen : 8 + 4 * leAt bs 0 2 ≤ bs.length) (cols : Nat → List Post)
    (hok : ∀ x, x < leAt bs 0 2 → ∀ q ∈ cols x, q.Ok)
    (hn : ∀ x, x < leAt bs 0 2 → StoredAt bs (leAt bs (8 + 4 * x) 4) (colBytes (cols x))) :
    Both (iLoadDoomInternal fileOps junk table false fuel) (iLoadDoomInternal lumpOps junk table false fuel) bs (fun ok r => ok = true ∧
      HasPal r.2 table IL_PAL_RGB24 ∧
      Shows r.1 (leAt bs 0 2) (leAt bs 2 2) 1 IL_COLOUR_INDEX (fun x y _ => some (colPx (cols x) y 247))) :=
  both (by omega) hl
    (fun _ h => (doom_spec fileLaws2 junk table htab fuel h hfuel hw hw2 hh hh2 hlen cols hok hn).mono (fun _ hr => ⟨⟨hr.1, hr.2.1, hr.2.2.1⟩, hr.2.2.2⟩))
    (fun _ h => (doom_spec lumpLaws2 junk table htab fuel h hfuel hw hw2 hh hh2 hlen cols hok hn).mono (fun _ hr => ⟨⟨hr.1, hr.2.1, hr.2.2.1⟩, hr.2.2.2⟩))

/-- **C120** (partial): any bytes in a file can be loaded as a Doom picture without a fault, and the block has the size the image reports.
Missing: memory, for which it is false (`C120_violated_column`). -/
theorem C120_doom_safe_partial (junk : Nat → UInt8) (table : List UInt8) (htab : table.length = 768) (fuel : Nat) (bs : List UInt8)
    (hl : bs.length < 2147483648) (hfuel : bs.length + 2 < fuel) :
    ∃ ok r s', ilLoadF (iLoadDoomInternal fileOps junk table false fuel) (opened bs 0) = .ok (ok, r, s') ∧ r.1.data.length = r.1.size ∧
      s'.data = bs ∧ s'.pos = 0 :=
  loadF (P := fun _ (r : Loaded) => r.1.data.length = r.1.size) rfl rfl hl (fun _ h => doom_safe fileLaws2 junk table htab fuel (fun off h => file_seek off h) h hfuel)

/-- **C122**: any bytes as a flat, without `IL_CONV_PAL`: loading succeeds exactly if there are 4096, and shows them. -/
theorem C122_flat (junk : Nat → UInt8) (table : List UInt8) (htab : table.length = 768) (bs : List UInt8) (h0 : 0 < bs.length)
    (hl : bs.length < 2147483648) :
    Both (iLoadDoomFlatInternal fileOps junk table false) (iLoadDoomFlatInternal lumpOps junk table false) bs (fun ok r =>
      r.1.data.length = r.1.size ∧ (ok = true ↔ 4096 ≤ bs.length) ∧
      (ok = true → HasPal r.2 table IL_PAL_RGB24 ∧ Shows r.1 64 64 1 IL_COLOUR_INDEX (fun x y _ => bs[y * 64 + x]?))) :=
  both h0 hl
    (fun _ h => (flat_spec fileLaws2 junk table htab h).mono (fun _ hr => ⟨⟨hr.1, hr.2.1, hr.2.2.1⟩, hr.2.2.2⟩))
    (fun _ h => (flat_spec lumpLaws2 junk table htab h).mono (fun _ hr => ⟨⟨hr.1, hr.2.1, hr.2.2.1⟩, hr.2.2.2⟩))

/-- A picture of two columns of three rows: the first has a post of two pixels from row 1 on, the second none. -/
def doomFile : List UInt8 := [2, 0, 3, 0, 0, 0, 0, 0, 16, 0, 0, 0, 23, 0, 0, 0] ++ [1, 2, 0, 5, 6, 0, 255] ++ [255]
def doomCols (x : Nat) : List Post := if x = 0 then [⟨1, [5, 6], 0, 0⟩] else []

example : (∀ x, x < leAt doomFile 0 2 → ∀ q ∈ doomCols x, q.Ok) ∧
    (∀ x, x < leAt doomFile 0 2 → StoredAt doomFile (leAt doomFile (8 + 4 * x) 4) (colBytes (doomCols x))) ∧
    0 < leAt doomFile 0 2 ∧ leAt doomFile 0 2 < 32768 ∧ 0 < leAt doomFile 2 2 ∧ leAt doomFile 2 2 < 32768 ∧ 8 + 4 * leAt doomFile 0 2 ≤ doomFile.length := by
  have e : leAt doomFile 0 2 = 2 := by decide
  rw [e]
  refine ⟨fun x hx => ?_, fun x hx => ?_, by decide, by decide, by decide, by decide, by decide⟩
  · have : x = 0 ∨ x = 1 := by omega
    rcases this with rfl | rfl
    · simp [doomCols, Post.Ok]
    · simp [doomCols]
  · have : x = 0 ∨ x = 1 := by omega
    unfold StoredAt
    rcases this with rfl | rfl <;> decide
example : (List.range 3).map (fun y => colPx (doomCols 0) y 247) = [247, 5, 6] := by decide

/-- **C120** is false with `IL_CONV_PAL`: the second and third byte of every pixel are what the memory held (0 or 1 here), not what the palette says. -/
theorem C120_violated_conv (v : UInt8) (hv : v = 0 ∨ v = 1) :
    ∃ r, ilLoadF (iLoadDoomInternal fileOps (fun _ => v) (List.replicate 768 9) true 30) (opened [1, 0, 1, 0, 0, 0, 0, 0, 12, 0, 0, 0, 255] 0) = .ok r ∧
      (r.1 && decide (r.2.1.1.format = IL_RGBA ∧ r.2.1.1.px 0 0 0 0 = some 9 ∧ r.2.1.1.px 0 0 0 1 = some v ∧ r.2.1.1.px 0 0 0 2 = some v)) = true := by
  rcases hv with rfl | rfl
  · exact ok_of (by decide +kernel)
  · exact ok_of (by decide +kernel)

/-- **C120** is false in memory: a column offset that is negative makes the program read before the block. -/
theorem C120_violated_column :
    ilLoadL (iLoadDoomInternal lumpOps (fun _ => 0) (List.replicate 768 9) false 30) [1, 0, 1, 0, 0, 0, 0, 0, 255, 255, 255, 255, 255] 13 = .error .oobRead :=
  error_of (by decide +kernel)

/-- **C120** is false for a flat loaded by name: `ilLoadDoomFlat` reads its file as a picture with columns, and makes one pixel of it. -/
theorem C120_violated_flat :
    ∃ r, ilLoadDoomFlat (fun _ => 0) (List.replicate 768 9) false 30 (opened (List.replicate 4096 0) 0) = .ok r ∧
      (r.1 && decide (r.2.1.1.width = 1 ∧ r.2.1.1.height = 1)) = true :=
  ok_of (by decide +kernel)

/-! ### C121 -/

/-- **C121** (partial): a CUT file whose rows of pieces stand for all the pixels shows them.  Missing: a run that goes on past the last
pixel (`C121_violated_overflow`), a file that ends too early (`C121_violated_truncated`). -/
theorem C121_cut_partial (junk : Nat → UInt8) (cur : Img × Option Pal) (fuel : Nat) (bs : List UInt8) (hl : bs.length < 2147483648) (hfuel : bs.length < fuel)
    (hw : 0 < leAt bs 0 2) (hh : 0 < leAt bs 2 2) (hfit : leAt bs 0 2 * leAt bs 2 2 < 2 ^ 31) (rows : List (UInt8 × UInt8 × List Piece))
    (hok : ∀ r ∈ rows, ∀ p ∈ r.2.2, p.Ok) (hpx : (rows.flatMap (fun r => r.2.2.flatMap Piece.pixels)).length = leAt bs 0 2 * leAt bs 2 2)
    (hn : StoredAt bs 6 (rows.flatMap rowBytes)) :
    Both (iLoadCutInternal fileOps junk fuel cur) (iLoadCutInternal lumpOps junk fuel cur) bs (fun ok r => ok = true ∧ r.2 = none ∧
      Shows r.1 (leAt bs 0 2) (leAt bs 2 2) 1 IL_COLOUR_INDEX
        (fun x y _ => (rows.flatMap (fun r => r.2.2.flatMap Piece.pixels))[y * leAt bs 0 2 + x]?)) := by
  have h0 : 0 < bs.length := by
    rcases Nat.eq_zero_or_pos bs.length with h | h
    · rw [List.eq_nil_of_length_eq_zero h] at hw
      exact absurd hw (by decide)
    · exact h
  exact both h0 hl
    (fun _ h => (cut_spec fileLaws2 junk cur fuel h hfuel hw hh hfit rows hok hpx hn).mono (fun _ hr => ⟨⟨hr.1, hr.2.1, hr.2.2.1⟩, hr.2.2.2⟩))
    (fun _ h => (cut_spec lumpLaws2 junk cur fuel h hfuel hw hh hfit rows hok hpx hn).mono (fun _ hr => ⟨⟨hr.1, hr.2.1, hr.2.2.1⟩, hr.2.2.2⟩))

/-- A picture of three columns and two rows. -/
def cutFile : List UInt8 := [3, 0, 2, 0, 0, 0] ++ [3, 0, 131, 7, 0] ++ [5, 0, 129, 8, 2, 9, 10, 0]
def cutRows : List (UInt8 × UInt8 × List Piece) := [(3, 0, [.run 3 7]), (5, 0, [.run 1 8, .lit [9, 10]])]

example : (∀ r ∈ cutRows, ∀ p ∈ r.2.2, p.Ok) ∧
    (cutRows.flatMap (fun r => r.2.2.flatMap Piece.pixels)).length = leAt cutFile 0 2 * leAt cutFile 2 2 ∧ StoredAt cutFile 6 (cutRows.flatMap rowBytes) ∧
    cutRows.flatMap (fun r => r.2.2.flatMap Piece.pixels) = [7, 7, 7, 8, 9, 10] := by
  refine ⟨by simp [cutRows, Piece.Ok], by decide, by unfold StoredAt; decide, by decide⟩

/-- **C121** is false in general: a picture of one pixel with a run of two writes outside the block. -/
theorem C121_violated_overflow :
    ilLoadF (iLoadCutInternal fileOps (fun _ => 0) 30 before) (opened [1, 0, 1, 0, 0, 0, 2, 0, 130, 7, 0] 0) = .error .oobWrite ∧
    ilLoadL (iLoadCutInternal lumpOps (fun _ => 0) 30 before) [1, 0, 1, 0, 0, 0, 2, 0, 130, 7, 0] 11 = .error .oobWrite :=
  ⟨error_of (by decide +kernel), error_of (by decide +kernel)⟩

/-- **C121** is false in general: a header of 127 by 1 pixels without any data is reported as loaded. -/
theorem C121_violated_truncated :
    ∃ r, ilLoadF (iLoadCutInternal fileOps (fun _ => 0) 30 before) (opened [127, 0, 1, 0, 0, 0, 0, 0] 0) = .ok r ∧
      (r.1 && decide (r.2.1.1.width = 127 ∧ r.2.1.1.px 126 0 0 0 = some 255)) = true :=
  ok_of (by decide +kernel)

end DevIL.Games
