import Verif.Lemmas.HdrSave
import Verif.Lemmas.HdrSafe
import Verif.Props.Games
/-! Radiance pictures: C130 (loading), C131 (saving and loading), C132 (any bytes). -/
set_option autoImplicit false
namespace DevIL.Hdr

open DevIL.Lump (WOp output)
open DevIL.Detect DevIL.DetectSpec DevIL.Games
open DevIL.HdrSpec (Piece Line IsLine Named Picture NoOnes Shows)
open DevIL.PnmSpec (IsNumber number)
open DevIL.Pnm (printD)

/-! ### C130 -/

/-- **C130**: a Radiance file with any lines in its header, with dimensions that are not zero, and with run-length scan lines, in any division into
pieces, is loaded, from a file and from memory, as a picture of floats that shows what each pixel of the file means. -/
theorem C130_load (junk : Nat → UInt8) (flt : Rgbe → List UInt8) (hflt : ∀ p, (flt p).length = 12) (cur : Img × Option Pal) (fuel : Nat)
    (name : List UInt8) (ls : List (List UInt8)) (hname : Named name ls) (hls : ∀ l ∈ ls, IsLine l)
    (h w : List UInt8) (hh : IsNumber h) (hw : IsNumber w) (hlen : h.length + w.length ≤ 73)
    (h0 : 0 < number h) (w0 : 0 < number w) (w1 : number w < 65536) (hfit : number w * number h * 12 < 2 ^ 32)
    (rows : List Line) (hrows : rows.length = number h) (hok : ∀ l ∈ rows, l.Ok (number w)) (rest : List UInt8)
    (bs : List UInt8) (hbs : bs = HdrSpec.header name ls h w ++ HdrSpec.body (number w) rows ++ rest)
    (hl : bs.length < 2147483648) (hfuel : bs.length < fuel) :
    Both (iLoadHdrInternal fileOps junk flt fuel cur) (iLoadHdrInternal lumpOps junk flt fuel cur) bs (fun ok r => ok = true ∧ r.2 = none ∧
      Shows r.1 (number w) (number h) (fun x y => flt (HdrSpec.pixel rows x y))) := by
  have hn : Next bs 0 (HdrSpec.header name ls h w ++ HdrSpec.body (number w) rows) := next_drop (r := rest) (by rw [hbs]; rfl)
  have hpos : 0 < bs.length := by
    rw [hbs]; simp only [HdrSpec.header, List.length_append, List.length_cons]; omega
  exact both hpos hl (fun _ hs => load_rle fileLaws2 junk flt hflt cur hs fuel hfuel hname hls hh hw hlen h0 w0 w1 hfit rows hrows hok hn)
    (fun _ hs => load_rle lumpLaws2 junk flt hflt cur hs fuel hfuel hname hls hh hw hlen h0 w0 w1 hfit rows hrows hok hn)

/-- A scan line of nine pixels: red in a run and single bytes, the others in runs. -/
def line9 : Line := ⟨[.run 5 7, .lit [1, 2, 3, 4]], [.run 9 8], [.run 4 9, .run 5 10], [.run 9 130]⟩

theorem line9_ok : line9.Ok 9 := ⟨by
  intro p hp
  have : p = .run 5 7 ∨ p = .lit [1, 2, 3, 4] ∨ p = .run 9 8 ∨ p = .run 4 9 ∨ p = .run 5 10 ∨ p = .run 9 130 := by simpa [line9] using hp
  rcases this with rfl | rfl | rfl | rfl | rfl | rfl
  · exact ⟨by decide, by decide⟩
  · exact ⟨by decide, by decide⟩
  · exact ⟨by decide, by decide⟩
  · exact ⟨by decide, by decide⟩
  · exact ⟨by decide, by decide⟩
  · exact ⟨by decide, by decide⟩, rfl, rfl, rfl, rfl⟩

/-- `#?RADIANCE`, a line, and `-Y 2 +X 9`. -/
example : Named HdrSpec.radiance [HdrSpec.format] ∧ (∀ l ∈ [HdrSpec.format], IsLine l) ∧ IsNumber [50] ∧ IsNumber [57] ∧ number [50] = 2 ∧ number [57] = 9 ∧
    [line9, line9].length = number [50] ∧ (∀ l ∈ [line9, line9], l.Ok (number [57])) ∧ number [57] * number [50] * 12 < 2 ^ 32 := by
  refine ⟨.inl rfl, ?_, ⟨by decide, by decide⟩, ⟨by decide, by decide⟩, rfl, rfl, rfl, ?_, by decide⟩
  · intro l hl
    rw [List.mem_singleton] at hl
    subst hl
    exact ⟨by decide, by decide⟩
  · intro l hl
    have : l = line9 := by simpa using hl
    subst this
    exact line9_ok
/-- The seventh pixel of a row. -/
example : HdrSpec.pixel [line9, line9] 6 1 = (2, 8, 10, 130) := rfl
example : Named HdrSpec.rgbe [HdrSpec.format] := .inr ⟨rfl, by decide⟩

/-! ### C131 -/

theorem format_ok : Named HdrSpec.rgbe [HdrSpec.format] ∧ ∀ l ∈ [HdrSpec.format], IsLine l := by
  refine ⟨.inr ⟨rfl, by decide⟩, fun l hl => ?_⟩
  rw [List.mem_singleton] at hl
  subst hl
  exact ⟨by decide, by decide⟩

/-- **C131** (partial): an image 8 to 32767 pixels wide, saved as a Radiance file and loaded again, from a file and from memory, shows each pixel of its
first slice as far as four bytes of red, green, blue and exponent can tell it, upright.  Other widths: `C131_flat_partial`; missing are pixels that are
taken for something else, for which it is false (`C131_violated_marker`). -/
theorem C131_roundtrip_partial (junk junk' : Nat → UInt8) (enc : List UInt8 → Rgbe) (flt : Rgbe → List UInt8) (hflt : ∀ p, (flt p).length = 12) (cur : Img × Option Pal)
    (t : Img) (w h : Nat) (px : Nat → Nat → List UInt8) (hp : Picture t w h px) (h8 : 8 ≤ w) (hw : w ≤ 32767) (h0 : 0 < h) (hfit : w * h * 12 < 2 ^ 32) :
    ∃ ops, iSaveHdrInternal junk enc t = .ok ops ∧ ((output ops).length < 2147483648 → ∀ fuel, (output ops).length < fuel →
      Both (iLoadHdrInternal fileOps junk' flt fuel cur) (iLoadHdrInternal lumpOps junk' flt fuel cur) (output ops) (fun ok r => ok = true ∧ r.2 = none ∧
        Shows r.1 w h (fun x y => flt (enc (px x y))))) := by
  obtain ⟨ops, e, rows, r1, r2, r3, r4⟩ := save_rle junk enc hp h8 hw
  refine ⟨ops, e, fun hl fuel hf => ?_⟩
  have hhh : h ≤ w * h := Nat.le_mul_of_pos_left _ (by omega)
  obtain ⟨nh1, nh2, nh3⟩ := Pnm.printD_spec (n := h) (by omega)
  obtain ⟨nw1, nw2, nw3⟩ := Pnm.printD_spec (n := w) (by omega)
  have key := C130_load junk' flt hflt cur fuel HdrSpec.rgbe [HdrSpec.format] format_ok.1 format_ok.2 (printD h) (printD w) nh1 nw1 (by omega)
    (by rw [nh2]; exact h0) (by rw [nw2]; omega) (by rw [nw2]; omega) (by rw [nh2, nw2]; exact hfit) rows (by rw [nh2]; exact r1) (by rw [nw2]; exact r2) []
    (output ops) (by rw [nw2, List.append_nil]; exact r3) hl hf
  rw [nh2, nw2] at key
  have conv : ∀ {m : Img}, Shows m w h (fun x y => flt (HdrSpec.pixel rows x y)) → Shows m w h (fun x y => flt (enc (px x y))) := by
    intro m s
    refine ⟨s.width, s.height, s.depth, s.bpp, s.bpc, s.format, s.type, s.origin, s.cons, fun x y c hx hy hc => ?_⟩
    have := s.px x y c hx hy hc
    simp only [r4 x y hx hy] at this
    exact this
  obtain ⟨⟨ok, r, s', f1, ⟨f2, f3, f4⟩, f5⟩, ⟨ok', r', g1, g2, g3, g4⟩⟩ := key
  exact ⟨⟨ok, r, s', f1, ⟨f2, f3, conv f4⟩, f5⟩, ⟨ok', r', g1, g2, g3, conv g4⟩⟩

/-- **C131** (partial), other widths: saved pixel by pixel; it comes back if no row begins with red and green 2, and no pixel is converted to
red, green and blue 1 (which `float2rgbe` gives for no pixel: its largest component becomes 128 or more, il_hdr.cpp:430-434). -/
theorem C131_flat_partial (junk junk' : Nat → UInt8) (enc : List UInt8 → Rgbe) (flt : Rgbe → List UInt8) (hflt : ∀ p, (flt p).length = 12) (cur : Img × Option Pal)
    (t : Img) (w h : Nat) (px : Nat → Nat → List UInt8) (hp : Picture t w h px) (w0 : 0 < w) (hw : w < 8 ∨ 32767 < w) (h0 : 0 < h) (hfit : w * h * 12 < 2 ^ 32)
    (h2 : ∀ y, y < h → ¬((enc (px 0 y)).1 = 2 ∧ (enc (px 0 y)).2.1 = 2))
    (h1 : ∀ x y, x < w → y < h → ¬((enc (px x y)).1 = 1 ∧ (enc (px x y)).2.1 = 1 ∧ (enc (px x y)).2.2.1 = 1)) :
    ∃ ops, iSaveHdrInternal junk enc t = .ok ops ∧ ((output ops).length < 2147483648 → ∀ fuel, (output ops).length + w < fuel →
      Both (iLoadHdrInternal fileOps junk' flt fuel cur) (iLoadHdrInternal lumpOps junk' flt fuel cur) (output ops) (fun ok r => ok = true ∧ r.2 = none ∧
        Shows r.1 w h (fun x y => flt (enc (px x y))))) := by
  obtain ⟨ops, e, ho⟩ := save_flat junk enc hp w0 hw (by omega)
  refine ⟨ops, e, fun hl fuel hf => ?_⟩
  have hhh : h ≤ w * h := Nat.le_mul_of_pos_left _ (by omega)
  have hww : w ≤ w * h := Nat.le_mul_of_pos_right _ h0
  obtain ⟨nh1, nh2, nh3⟩ := Pnm.printD_spec (n := h) (by omega)
  obtain ⟨nw1, nw2, nw3⟩ := Pnm.printD_spec (n := w) (by omega)
  have hn : Next (output ops) 0 (HdrSpec.header HdrSpec.rgbe [HdrSpec.format] (printD h) (printD w) ++ HdrSpec.flat (w * h) (fun i => enc (px (i % w) (i / w)))) :=
    next_drop (r := []) (by rw [List.append_nil, ho]; rfl)
  have hb := hn.right
  rw [Nat.zero_add] at hb
  unfold HdrSpec.flat at hb
  have quad : ∀ n (f : Nat → Rgbe), ((List.range n).flatMap (fun i => [(f i).1, (f i).2.1, (f i).2.2.1, (f i).2.2.2])).length = n * 4 := fun n f => by
    induction n with
    | zero => rfl
    | succ n ih => rw [List.range_succ, List.flatMap_append, List.length_append, ih]; simp; omega
  have hpx : ∀ x y, x < w → y < h → Next (output ops) ((HdrSpec.header HdrSpec.rgbe [HdrSpec.format] (printD h) (printD w)).length + y * (w * 4) + x * 4)
      [(enc (px x y)).1, (enc (px x y)).2.1, (enc (px x y)).2.2.1, (enc (px x y)).2.2.2] := fun x y hx hy => by
    have hlt := Games.row_lt hx hy
    have := next_flat _ _ hb (i := y * w + x) (a := y * w + x) (by rw [List.getElem?_range hlt])
    rw [List.take_range, Nat.min_eq_left (by omega), quad] at this
    have e1 : (y * w + x) % w = x := by rw [Nat.mul_comm, Nat.mul_add_mod, Nat.mod_eq_of_lt hx]
    have e2 : (y * w + x) / w = y := by rw [Nat.mul_comm, Nat.mul_add_div w0, Nat.div_eq_of_lt hx, Nat.add_zero]
    simp only [e1, e2] at this
    have e3 : (y * w + x) * 4 = y * (w * 4) + x * 4 := by rw [Nat.add_mul, Nat.mul_assoc]
    rw [e3, ← Nat.add_assoc] at this
    exact this
  have hpos : 0 < (output ops).length := by
    rw [ho]; simp only [HdrSpec.header, List.length_append, List.length_cons]; omega
  have row : ∀ {σ : Type} {o : Ops σ} {At : σ → List UInt8 → Nat → Prop} (L : Laws2 o At) (s : σ), At s (output ops) 0 →
      Holds (iLoadHdrInternal o junk' flt fuel cur s) (fun r => (r.1 = true ∧ r.2.1.2 = none ∧ Shows r.2.1.1 w h (fun x y => flt (enc (px x y)))) ∧ ∃ q, At r.2.2 (output ops) q) := by
    intro σ o At L s hs
    have key := load_spec L junk' flt hflt cur hs fuel (by omega) format_ok.1 format_ok.2 nh1 nw1 (by rw [nh2]; omega) (by rw [nw2]; omega) (by omega)
      (by rw [nh2]; exact h0) (by rw [nw2]; exact w0) (by rw [nh2, nw2]; exact hfit) hn.left (px := fun y x => enc (px x y))
      (fun y => (HdrSpec.header HdrSpec.rgbe [HdrSpec.format] (printD h) (printD w)).length + y * (w * 4)) (by simp) (fun y hy buf s hbuf hs => ?_)
    · rw [nh2, nw2] at key
      exact key.mono (fun r hr => ⟨⟨hr.1, hr.2.1, hr.2.2.1⟩, hr.2.2.2⟩)
    · rw [nh2] at hy
      rw [nw2] at hbuf ⊢
      refine (old_spec L.toLaws w0 fuel (by omega) (fun x => enc (px x y)) (h2 y hy) (fun x hx => h1 x y hx hy) buf hbuf s _ hs (fun x hx => hpx x y hx hy)).mono (fun r hr => ⟨hr.1, ?_⟩)
      have e : (y + 1) * (w * 4) = y * (w * 4) + w * 4 := by rw [Nat.add_mul, Nat.one_mul]
      rw [e, ← Nat.add_assoc]
      exact hr.2
  exact both hpos hl (fun s hs => row fileLaws2 s hs) (fun s hs => row lumpLaws2 s hs)

/-- An image of `w` pixels in one row, byte `i` being `f i`. -/
def strip (w : Nat) (f : Nat → UInt8) : Img := { texF (fun _ => 0) w 1 with data := (List.range (w * 12)).map f }

/-- The twelve bytes of its pixel `x`. -/
def stripPx (w : Nat) (f : Nat → UInt8) (x y : Nat) : List UInt8 := (((strip w f).data.drop ((y * w + x) * 12)).take 12)

theorem strip_picture (w : Nat) (f : Nat → UInt8) (w0 : 0 < w) (hfit : w * 12 < 4294967296) : Picture (strip w f) w 1 (stripPx w f) := by
  obtain ⟨h1, h2, h3, h4, h5, -, -, h8, h9⟩ := texF_fields (fun _ => 0) w 1 w0 (by decide) (by omega)
  have hd : (strip w f).data.length = w * 12 := by simp [strip]
  refine ⟨h1, h2, by rw [show (strip w f).depth = 1 from h3]; decide, h4, h5, ⟨h8.1, h8.2.1, h8.2.2.1, ?_⟩, ?_, fun x y hx hy => ?_, fun x y c hx hy hc => ?_⟩
  · rw [hd, show (strip w f).size = w * 1 * 12 from h9]; omega
  · rw [show (strip w f).size = w * 1 * 12 from h9]; omega
  · have := Games.pix_lt (k := 12) (c := 11) hx hy (by decide)
    simp only [stripPx, List.length_take, List.length_drop, hd]
    omega
  · have hy0 : y = 0 := by omega
    subst hy0
    have ho : (strip w f).origin = IL_ORIGIN_UPPER_LEFT := rfl
    rw [ho, if_neg (by decide)]
    unfold stripPx
    rw [List.getElem?_take, if_pos hc, List.getElem?_drop]
    show (strip w f).data[((0 * (strip w f).height + 0) * (strip w f).width + x) * ((strip w f).bpp * (strip w f).bpc) + c]? = _
    rw [show (strip w f).height = 1 from h2, show (strip w f).width = w from h1, show (strip w f).bpp = 3 from h4, show (strip w f).bpc = 4 from h5]

/-- A row of ten pixels meets the hypotheses. -/
example (f : Nat → UInt8) : Picture (strip 10 f) 10 1 (stripPx 10 f) ∧ 8 ≤ 10 ∧ 10 ≤ 32767 := ⟨strip_picture 10 f (by decide) (by decide), by decide, by decide⟩
/-- A row of two pixels meets those of the other theorem, with a conversion that gives none of the special values. -/
example (f : Nat → UInt8) (enc : List UInt8 → Rgbe) (he : ∀ p, enc p = (200, 3, 4, 130)) : Picture (strip 2 f) 2 1 (stripPx 2 f) ∧ 2 < 8 ∧
    (∀ y, y < 1 → ¬((enc (stripPx 2 f 0 y)).1 = 2 ∧ (enc (stripPx 2 f 0 y)).2.1 = 2)) ∧
    ∀ x y, x < 2 → y < 1 → ¬((enc (stripPx 2 f x y)).1 = 1 ∧ (enc (stripPx 2 f x y)).2.1 = 1 ∧ (enc (stripPx 2 f x y)).2.2.1 = 1) :=
  ⟨strip_picture 2 f (by decide) (by decide), by decide, fun _ _ => by rw [he]; decide, fun _ _ _ _ => by rw [he]; decide⟩

/-- Twelve bytes that contain the four, so that different pixels look different. -/
def show4 (p : Rgbe) : List UInt8 := [p.1, p.2.1, p.2.2.1, p.2.2.2, 0, 0, 0, 0, 0, 0, 0, 0]

/-- The bytes saved for an image, and what is loaded from them; `enc` gives the same four bytes for every pixel. -/
def again (e : Rgbe) (w : Nat) : C (Bool × (Img × Option Pal) × Cache.S) := do
  let ops ← iSaveHdrInternal (fun _ => 0) (fun _ => e) (strip w (fun _ => 0))
  ilLoadF (iLoadHdrInternal fileOps (fun _ => 0) show4 200 before) (opened (output ops) 0)

/-- **C131** is false in general: a picture of one pixel that is stored as (2, 2, 200, 136), which is what red 2.0, green 2.0, blue 200.0 become, is taken for
the beginning of a run-length scan line; the pixel that is loaded is (255, 255, 255, 255). -/
theorem C131_violated_marker : ∃ r, again (2, 2, 200, 136) 1 = .ok r ∧ (r.1 && decide (r.2.1.1.data.take 4 = [255, 255, 255, 255])) = true :=
  ok_of (by decide +kernel)

/-- While another pixel comes back. -/
example : ∃ r, again (3, 2, 200, 136) 2 = .ok r ∧ (r.1 && decide (r.2.1.1.data.take 4 = [3, 2, 200, 136])) = true := ok_of (by decide +kernel)

/-! ### C132 -/

/-- **C132** (partial): any bytes after a header with dimensions that are not zero, as long as no three bytes in a row are all 1: loading ends without a fault, from
a file and from memory, with an image of the dimensions in the header and a block of that size.  Missing: bytes 1, 1, 1 (`C132_violated_ones`), and a header without the
dimensions (`C132_violated_dims`); and the pixels of a file that ends before its last pixel are invented (`C132_violated_truncated`). -/
theorem C132_safe_partial (junk : Nat → UInt8) (flt : Rgbe → List UInt8) (hflt : ∀ p, (flt p).length = 12) (cur : Img × Option Pal) (fuel : Nat)
    (name : List UInt8) (ls : List (List UInt8)) (hname : Named name ls) (hls : ∀ l ∈ ls, IsLine l)
    (h w : List UInt8) (hh : IsNumber h) (hw : IsNumber w) (hlen : h.length + w.length ≤ 73)
    (h0 : 0 < number h) (w0 : 0 < number w) (hfit : number w * number h * 12 < 2 ^ 32) (rest : List UInt8)
    (bs : List UInt8) (hbs : bs = HdrSpec.header name ls h w ++ rest) (h1 : NoOnes bs)
    (hl : bs.length < 2147483648) (hfuel : 2 * number w + bs.length < fuel) :
    Both (iLoadHdrInternal fileOps junk flt fuel cur) (iLoadHdrInternal lumpOps junk flt fuel cur) bs (fun _ r =>
      r.1.width = number w ∧ r.1.height = number h ∧ r.1.Consistent) := by
  have hn : Next bs 0 (HdrSpec.header name ls h w) := next_drop (r := rest) (by rw [hbs]; rfl)
  have hpos : 0 < bs.length := by
    rw [hbs]; simp only [HdrSpec.header, List.length_append, List.length_cons]; omega
  exact both hpos hl (fun _ hs => load_safe fileLaws2 junk flt hflt cur hs hname hls hh hw hlen h0 w0 hfit fuel hfuel hn h1)
    (fun _ hs => load_safe lumpLaws2 junk flt hflt cur hs hname hls hh hw hlen h0 w0 hfit fuel hfuel hn h1)

/-- **C132** (partial): any bytes that do not begin with one of the two signatures (in whatever case), with lines of whatever length: they are refused, from a file and
from memory, and the current image is left alone; unless the line with the dimensions contains a number that is no `int`, which is undefined for `sscanf`. -/
theorem C132_refused_partial (junk : Nat → UInt8) (flt : Rgbe → List UInt8) (cur : Img × Option Pal) (fuel : Nat) (bs : List UInt8) (h10 : 10 ≤ bs.length)
    (hl : bs.length < 2147483648) (hfuel : bs.length < fuel) (hc : iCheckHdr (bs.take 10) = false) :
    ((∃ s', ilLoadF (iLoadHdrInternal fileOps junk flt fuel cur) (opened bs 0) = .ok (false, cur, s') ∧ s'.data = bs ∧ s'.pos = 0) ∨
      ilLoadF (iLoadHdrInternal fileOps junk flt fuel cur) (opened bs 0) = .error .overflow) ∧
    (ilLoadL (iLoadHdrInternal lumpOps junk flt fuel cur) bs bs.length = .ok (false, cur) ∨
      ilLoadL (iLoadHdrInternal lumpOps junk flt fuel cur) bs bs.length = .error .overflow) := by
  constructor
  · have h0 : FileAt (Cache.iSetInputFile (opened bs 0) (opened bs 0).data (opened bs 0).pos) bs 0 := input_at (opened bs 0) rfl hl
    rcases load_refused fileLaws2 junk flt cur h0 fuel hfuel h10 hc with hr | hr
    · have h1 : Cache.iTellRFile (Cache.iSetInputFile (opened bs 0) (opened bs 0).data (opened bs 0).pos) = 0 := fileLaws.tell h0
      obtain ⟨⟨a, b, s1⟩, e, ⟨rfl, rfl⟩, q, hq⟩ := hr
      refine .inl ⟨(Cache.iSeekRFile s1 (Lump.toInt 0) Lump.SEEK_SET).2, ?_, ?_⟩
      · unfold ilLoadF
        simp only [h1]
        rw [e, bind_ok]
        rfl
      · obtain ⟨hd, hst, -, -⟩ := hq
        simp only [] at hd hst ⊢
        have e : (Cache.iSeekRFile s1 (Lump.toInt 0) Lump.SEEK_SET).2 = { s1 with pos := 0 } := by
          rw [show Lump.toInt 0 = 0 from rfl, seek_set _ _ hst, if_neg (by omega)]
          rfl
        rw [e]
        exact ⟨hd, rfl⟩
    · refine .inr ?_
      unfold ilLoadF
      simp only []
      rw [hr]
      rfl
  · rcases load_refused lumpLaws2 junk flt cur (lump_at bs hl (by omega)) fuel hfuel h10 hc with hr | hr
    · obtain ⟨⟨a, b, s1⟩, e, ⟨rfl, rfl⟩, -⟩ := hr
      refine .inl ?_
      unfold ilLoadL
      rw [e, bind_ok]
      rfl
    · refine .inr ?_
      unfold ilLoadL
      rw [hr]
      rfl

/-- Bytes with another signature. -/
example : iCheckHdr ([35, 63, 82, 65, 68, 33, 33, 33, 33, 33, 10, 10, 49].take 10) = false := by decide

/-- The header of one pixel. -/
def head1 : List UInt8 := HdrSpec.header HdrSpec.radiance [HdrSpec.format] [49] [49]

/-- A header followed by other bytes than a picture. -/
example : NoOnes [1, 1, 2, 1, 1] := by
  intro i
  match i with
  | 0 => simp
  | 1 => simp
  | 2 => simp
  | i + 3 => simp

/-- **C132** is false in general: a picture whose first four bytes are 1, 1, 1, 5 makes the program read before its buffer; with 1, 1, 1, 0 it never ends (in the
model, it shifts by 32, which is undefined). -/
theorem C132_violated_ones :
    ilLoadF (iLoadHdrInternal fileOps (fun _ => 0) show4 100 before) (opened (head1 ++ [1, 1, 1, 5]) 0) = .error .oobRead ∧
    ilLoadL (iLoadHdrInternal lumpOps (fun _ => 0) show4 100 before) (head1 ++ [1, 1, 1, 5]) (head1 ++ [1, 1, 1, 5]).length = .error .oobRead ∧
    ilLoadF (iLoadHdrInternal fileOps (fun _ => 0) show4 100 before) (opened (head1 ++ [1, 1, 1, 0]) 0) = .error .overflow :=
  ⟨error_of (by decide +kernel), error_of (by decide +kernel), error_of (by decide +kernel)⟩

/-- **C132** is false in general: without dimensions in the header, the program uses variables it never set. -/
theorem C132_violated_dims :
    ilLoadF (iLoadHdrInternal fileOps (fun _ => 0) show4 100 before) (opened (HdrSpec.radiance ++ [10, 10, 45, 89, 32, 49, 10, 0, 0, 0, 0]) 0) = .error .uninit :=
  error_of (by decide +kernel)

/-- **C132** is false in general: a file that ends after its header is reported as loaded, with a pixel that is not in it. -/
theorem C132_violated_truncated :
    ∃ r, ilLoadF (iLoadHdrInternal fileOps (fun _ => 0) show4 100 before) (opened head1 0) = .ok r ∧ (r.1 && decide (r.2.1.1.data.take 4 = [255, 255, 255, 255])) = true :=
  ok_of (by decide +kernel)

end DevIL.Hdr
