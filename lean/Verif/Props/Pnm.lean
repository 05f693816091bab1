import Verif.Lemmas.PnmSave
import Verif.Lemmas.PnmBits
import Verif.Lemmas.PnmFuel
import Verif.Lemmas.Load
import Verif.Props.ConvImage
/-! Netpbm files: what a file of the format loads as (C97), saving and loading again (C98), and arbitrary input (C99, C100). -/
set_option autoImplicit false
namespace DevIL.Pnm
open DevIL.Lump DevIL.PnmSpec DevIL.Image DevIL.Utility DevIL.Load

/-! ## Specification vocabulary

`header`, `Fits`, `Body` (Verif/Spec/Pnm.lean) say what a Netpbm file is. -/

/-- An image of `w` by `h` pixels of `n` 8-bit components, the first row at the top, with the pixels `pix` in reading order. -/
structure Shows (m : Img) (w h n : Nat) (pix : List UInt8) : Prop where
  cons : m.Consistent
  width : m.width = w
  height : m.height = h
  depth : m.depth = 1
  bpp : m.bpp = n
  bpc : m.bpc = 1
  type : m.type = IL_UNSIGNED_BYTE
  format : m.format = if n = 1 then IL_LUMINANCE else IL_RGB
  origin : m.origin = IL_ORIGIN_UPPER_LEFT
  data : m.data = pix

/-- The number of components of a pixel: one in files of type P2 and P5, three in those of type P3 and P6. -/
def compsOf (magic : UInt8) : Nat := if magic = 50 ∨ magic = 53 then 1 else 3

/-! ## C97 -/

theorem splice_whole {d o : List UInt8} (h : o.length = d.length) : splice d 0 o = o := by
  unfold splice
  simp [h]

/-- Loading, given what the reader of the pixels does. -/
theorem load_spec {fuel : Nat} {junk : Nat → UInt8} {magic : UInt8} {g1 g2 g3 : List Item} {w h m rest line word pix : List UInt8} {last : UInt8}
    (hfit : Fits g1 w g2 h g3 m) (hm : magic = 50 ∨ magic = 51 ∨ magic = 53 ∨ magic = 54) (hlast : last = 10 ∨ last = 32)
    (h0 : 0 < number w ∧ 0 < number h ∧ 0 < number m) (hw : number w < 2147483648) (hh : number h < 2147483648) (hmx : number m ≤ 255)
    (hwl : word.length = 180) (hf : (header magic g1 w g2 h g3 m last ++ rest).length + 2 < fuel)
    (h32 : (header magic g1 w g2 h g3 m last ++ rest).length < 4294967295)
    (hread : ∀ word2 l2, At l2 rest → word2.length = 180 → ∃ q l3,
      reader fuel junk ⟨magic.toNat - 48, number w, number h, number m, compsOf magic⟩ line word2 l2 = .ok (.image q, l3) ∧
      q.Consistent ∧ q.width = number w ∧ q.height = number h ∧ q.depth = 1 ∧ q.bpp = compsOf magic ∧ q.bpc = 1 ∧ q.type = IL_UNSIGNED_BYTE ∧
      q.data = pix) :
    ∃ q l, iLoadPnmInternal fuel junk line word (open_ (header magic g1 w g2 h g3 m last ++ rest) (header magic g1 w g2 h g3 m last ++ rest).length) =
      .ok (true, .made q, l) ∧ Shows q (number w) (number h) (compsOf magic) pix := by
  have a0 := at_open (data := header magic g1 w g2 h g3 m last ++ rest) (by unfold header; simp) h32
  obtain ⟨word1, l1, word2, l2, e1, ht, e2, a2, hw2, _⟩ := header_spec (fuel := fuel) a0 hfit hm hlast h0 hw hh (by omega) hwl hf
  obtain ⟨q, l3, e3, c, f1, f2, f3, f4, f5, f6, f7⟩ := hread word2 l2 a2 hw2
  have hb : bppOf (magic.toNat - 48) (number m) = compsOf magic := by
    unfold bppOf compsOf
    rcases hm with rfl | rfl | rfl | rfl
    · rw [if_pos (by decide), if_pos (by omega)]; rfl
    · rfl
    · rfl
    · rfl
  rw [hb] at e2
  refine ⟨{ q with origin := IL_ORIGIN_UPPER_LEFT, format := if compsOf magic = 1 then IL_LUMINANCE else IL_RGB }, l3, ?_,
    ⟨c, f1, f2, f3, f4, f5, f6, rfl, rfl, f7⟩⟩
  unfold iLoadPnmInternal
  rw [e1, bind_ok]
  dsimp only
  rw [if_neg (by simp), ht, if_neg (by rcases hm with rfl | rfl | rfl | rfl <;> decide), if_neg (by rcases hm with rfl | rfl | rfl | rfl <;> decide),
    e2, bind_ok]
  dsimp only
  rw [e3, bind_ok]
  unfold finish
  dsimp only
  rw [if_neg (by rcases hm with rfl | rfl | rfl | rfl <;> decide), pure_eq_ok, bind_ok, if_neg (by omega)]
  rcases hm with rfl | rfl | rfl | rfl <;> rfl

/-- **C97 (binary files).** A binary PGM or PPM file — the magic number, width, height and largest value in decimal with spaces, line feeds and
comments between them, one white-space byte, then the bytes of the pixels — loads as exactly that image, whatever follows it.
Missing (and false, see below): tabs, a comment or an empty line before the largest value, values above 255. -/
theorem C97_binary_partial (fuel : Nat) (junk : Nat → UInt8) (line word : List UInt8) (magic : UInt8) (g1 g2 g3 : List Item)
    (w h m : List UInt8) (last : UInt8) (pix rest : List UInt8) (hmagic : magic = 53 ∨ magic = 54) (hfit : Fits g1 w g2 h g3 m)
    (hlast : last = 10 ∨ last = 32) (hw0 : 0 < number w) (hh0 : 0 < number h) (hm0 : 0 < number m) (hm : number m ≤ 255)
    (hpix : pix.length = number w * number h * compsOf magic) (hword : word.length = 180)
    (file : List UInt8) (hfile : file = header magic g1 w g2 h g3 m last ++ pix ++ rest) (hsize : file.length < 2147483648)
    (hfuel : file.length + 2 < fuel) :
    ∃ q l, iLoadPnmInternal fuel junk line word (open_ file file.length) = .ok (true, .made q, l) ∧
      Shows q (number w) (number h) (compsOf magic) pix := by
  subst hfile
  have hc : 0 < compsOf magic := by rcases hmagic with rfl | rfl <;> decide
  have hpl : number w * number h * compsOf magic < 2147483648 := by
    rw [← hpix]; simp only [List.length_append] at hsize; omega
  have hwh : number w * number h < 2147483648 := Nat.lt_of_le_of_lt (Nat.le_mul_of_pos_right _ hc) hpl
  have hwlt : number w < 2147483648 := Nat.lt_of_le_of_lt (Nat.le_mul_of_pos_right _ hh0) hwh
  have hhlt : number h < 2147483648 := Nat.lt_of_le_of_lt (Nat.le_mul_of_pos_left _ hw0) hwh
  have hcomm : number w * compsOf magic * number h = number w * number h * compsOf magic := by
    rw [Nat.mul_assoc, Nat.mul_comm (compsOf magic), Nat.mul_assoc]
  rw [List.append_assoc] at hsize hfuel ⊢
  refine load_spec hfit (by rcases hmagic with h | h <;> simp [h]) hlast ⟨hw0, hh0, hm0⟩ hwlt hhlt hm hword hfuel (by omega) ?_
  intro word2 l2 a2 _
  obtain ⟨q, e, c, f1, f2, f3, f4, f5, _, f7, _, _, f8⟩ := init8 junk 0 hw0 hh0 (bpp := compsOf magic) (by rw [hcomm]; omega)
  have hu : u32 (u32 (number w * number h) * compsOf magic) = number w * number h * compsOf magic := by
    rw [u32_of_lt (show number w * number h < 4294967296 by omega), u32_of_lt (by omega)]
  refine ⟨{ q with origin := IL_ORIGIN_UPPER_LEFT, data := pix }, adv l2 pix.length, ?_, ?_, f1, f2, f3, f4, f5, f7, rfl⟩
  · have hr : reader fuel junk ⟨magic.toNat - 48, number w, number h, number m, compsOf magic⟩ line word2 l2 =
        ilReadBinaryPpm junk ⟨magic.toNat - 48, number w, number h, number m, compsOf magic⟩ l2 := by
      unfold reader
      rcases hmagic with rfl | rfl <;> rfl
    rw [hr]
    unfold ilReadBinaryPpm
    dsimp only
    rw [e, bind_ok, hu, ← hpix]
    dsimp only
    rw [At.readAt (dst := q.data) (off := 0) (size := 1) (number := pix.length) a2 (by omega) (by decide) (by rw [f8, hpix, hcomm]; omega), bind_ok]
    dsimp only
    rw [if_neg (by simp)]
    have : q.data.take 0 ++ (pix ++ q.data.drop (0 + pix.length)) = pix := by
      rw [List.take_zero, List.nil_append, List.drop_eq_nil_of_le (by rw [f8, hpix, hcomm]; omega), List.append_nil]
    rw [this]
    rfl
  · refine ⟨c.1, c.2.1, c.2.2.1, ?_⟩
    show pix.length = q.size
    rw [← c.2.2.2, f8, hpix, hcomm]

/-- A PPM file with comments, of two pixels. -/
def demo6 : List UInt8 :=
  header 54 [.newline, .comment [104, 105], .space] [50] [.space, .space] [49] [.comment [33], .space] [50, 53, 53] 10 ++ [1, 2, 3, 32, 10, 35] ++ [9]

example : Fits [.newline, .comment [104, 105], .space] [50] [.space, .space] [49] [.comment [33], .space] [50, 53, 53] ∧
    ([1, 2, 3, 32, 10, 35] : List UInt8).length = number [50] * number [49] * compsOf 54 := by
  refine ⟨⟨?_, by decide, by decide, ⟨_, 1, rfl⟩, by unfold IsNumber; decide, by unfold IsNumber; decide, by unfold IsNumber; decide, by decide, by decide,
    by decide⟩, by decide⟩
  intro i hi
  simp only [List.cons_append, List.nil_append, List.mem_cons, List.not_mem_nil, or_false] at hi
  rcases hi with rfl | rfl | rfl | rfl | rfl | rfl | rfl <;> simp [Item.Ok]

/-- **C97 (text files).** A plain PGM or PPM file — the header, then the values in decimal, any number on a line and separated by blanks, with
comment lines and empty lines between — loads as exactly that image; the last line need not be terminated.
Missing (and false, see below): values above 255, lines of 180 bytes or more, lines that are blank but not empty, and what holds for binary files. -/
theorem C97_text_partial (fuel : Nat) (junk : Nat → UInt8) (line word : List UInt8) (magic : UInt8) (g1 g2 g3 : List Item)
    (w h m : List UInt8) (last : UInt8) (pix body : List UInt8) (hmagic : magic = 50 ∨ magic = 51) (hfit : Fits g1 w g2 h g3 m)
    (hlast : last = 10 ∨ last = 32) (hw0 : 0 < number w) (hh0 : 0 < number h) (hm0 : 0 < number m) (hm : number m ≤ 255)
    (hbody : Body pix body) (hpix : pix.length = number w * number h * compsOf magic) (hpl : pix.length < 2147483648)
    (hline : line.length = 180) (hword : word.length = 180)
    (file : List UInt8) (hfile : file = header magic g1 w g2 h g3 m last ++ body) (hsize : file.length < 4294967295)
    (hfuel : file.length + 2 < fuel) :
    ∃ q l, iLoadPnmInternal fuel junk line word (open_ file file.length) = .ok (true, .made q, l) ∧
      Shows q (number w) (number h) (compsOf magic) pix := by
  subst hfile
  have hc : 0 < compsOf magic := by rcases hmagic with rfl | rfl <;> decide
  rw [hpix] at hpl
  have hwh : number w * number h < 2147483648 := Nat.lt_of_le_of_lt (Nat.le_mul_of_pos_right _ hc) hpl
  have hwlt : number w < 2147483648 := Nat.lt_of_le_of_lt (Nat.le_mul_of_pos_right _ hh0) hwh
  have hhlt : number h < 2147483648 := Nat.lt_of_le_of_lt (Nat.le_mul_of_pos_left _ hw0) hwh
  have hcomm : number w * compsOf magic * number h = number w * number h * compsOf magic := by
    rw [Nat.mul_assoc, Nat.mul_comm (compsOf magic), Nat.mul_assoc]
  refine load_spec hfit (by rcases hmagic with h | h <;> simp [h]) hlast ⟨hw0, hh0, hm0⟩ hwlt hhlt hm hword hfuel hsize ?_
  intro word2 l2 a2 hw2
  obtain ⟨q, e, c, f1, f2, f3, f4, f5, _, f7, _, _, f8⟩ := init8 junk 0 hw0 hh0 (bpp := compsOf magic) (by rw [hcomm]; omega)
  have hu : u32 (u32 (number w * number h) * compsOf magic) = number w * number h * compsOf magic := by
    rw [u32_of_lt (show number w * number h < 4294967296 by omega), u32_of_lt (by omega)]
  obtain ⟨fs, lv, lb, rest, hfs, hl, hlv, hrest, hvs, hbs⟩ := hbody
  subst hbs
  have hql : q.data.length = pix.length := by rw [f8, hpix, hcomm]
  obtain ⟨l', el⟩ := lines_spec hl hlv hrest (fs := fs) (fuel := fuel) (k := 0) (i := 0) (buf := line) (word := word2) (data := q.data) a2 hfs hline hw2
    (by rw [hql, hvs]; simp) (by simp only [List.length_append] at hfuel ⊢; omega)
  rw [← hvs, splice_whole hql.symm] at el
  refine ⟨{ q with origin := IL_ORIGIN_UPPER_LEFT, data := pix }, l', ?_, ?_, f1, f2, f3, f4, f5, f7, rfl⟩
  · have hr : reader fuel junk ⟨magic.toNat - 48, number w, number h, number m, compsOf magic⟩ line word2 l2 =
        ilReadAsciiPpm fuel junk ⟨magic.toNat - 48, number w, number h, number m, compsOf magic⟩ line word2 l2 := by
      unfold reader
      rcases hmagic with rfl | rfl <;> rfl
    rw [hr]
    unfold ilReadAsciiPpm
    have htwo : decide (number m > 255) = false := by simp; omega
    have hti : toInt (number w * number h * compsOf magic) = ((q.data.length : Nat) : Int) := by
      rw [hql, hpix]; unfold toInt; rw [if_pos (by omega)]
    simp only [htwo, Bool.false_eq_true, if_false]
    rw [e, bind_ok, hu, hti]
    dsimp only
    rw [el, bind_ok]
    rfl
  · refine ⟨c.1, c.2.1, c.2.2.1, ?_⟩
    show pix.length = q.size
    rw [← c.2.2.2, hql]

/-- Two rows of a PGM file: a comment line, an empty line, and values on lines of their own. -/
example : Body [7, 0, 255, 12] ([35, 120, 10] ++ [10] ++ [32, 55, 32, 48, 48, 9, 10] ++ [50, 53, 53, 10] ++ [49, 50]) := by
  refine ⟨[([], [35, 120]), ([], []), ([7, 0], [32, 55, 32, 48, 48, 9]), ([255], [50, 53, 53])], [12], [49, 50], [], ?_, ?_, by decide, Or.inl rfl, by decide,
    by decide⟩
  · intro f hf
    simp only [List.mem_cons, List.not_mem_nil, or_false] at hf
    rcases hf with rfl | rfl | rfl | rfl
    · exact ⟨by decide, Or.inl ⟨rfl, [120], rfl, by decide, by decide⟩⟩
    · exact ⟨by decide, Or.inr ⟨[], [], rfl, by decide, by decide, .nil⟩⟩
    · exact ⟨by decide, Or.inr ⟨[32], [55, 32, 48, 48, 9], rfl, by decide, by decide,
        .cons [55] [32] 7 [0] [48, 48, 9] (by unfold IsNumber; decide) (by decide) (by decide) (by decide)
          (.cons [48, 48] [9] 0 [] [] (by unfold IsNumber; decide) (by decide) (by decide) (by decide) .nil)⟩⟩
    · exact ⟨by decide, Or.inr ⟨[], [50, 53, 53], rfl, by decide, by decide, .last _ _ (by unfold IsNumber; decide) (by decide)⟩⟩
  · exact ⟨by decide, Or.inr ⟨[], [49, 50], rfl, by decide, by decide, .last _ _ (by unfold IsNumber; decide) (by decide)⟩⟩

/-! ## C98 -/

theorem lines_body {fs : List (List UInt8)} {p vs : List UInt8} (h : Lines fs p vs) (hne : vs ≠ []) :
    Body vs (fs.flatMap (fun f => text f ++ [10]) ++ text p) := by
  by_cases hp : p = []
  · subst hp
    rcases List.eq_nil_or_concat fs with rfl | ⟨gs, g, rfl⟩
    · exact absurd (by simpa using h.all.symm) hne
    · have hg := h.full g (by simp)
      refine ⟨gs.map (fun f => (f, text f)), g, text g, [10], ?_, line_text hg.2, hg.1, Or.inr ⟨[], rfl⟩, ?_, ?_⟩
      · intro f hf
        rw [List.mem_map] at hf
        obtain ⟨x, hx, rfl⟩ := hf
        exact line_text (h.full x (by simp [hx])).2
      · rw [← h.all, List.flatMap_map]
        simp [List.flatMap_id']
      · rw [List.flatMap_map]
        simp [text]
  · refine ⟨fs.map (fun f => (f, text f)), p, text p, [], ?_, line_text h.last, hp, Or.inl rfl, ?_, ?_⟩
    · intro f hf
      rw [List.mem_map] at hf
      obtain ⟨x, hx, rfl⟩ := hf
      exact line_text (h.full x hx).2
    · rw [← h.all, List.flatMap_map]
      simp [List.flatMap_id']
    · rw [List.flatMap_map]
      simp

/-- The length of the text: at most four bytes for a value, and a line feed for each line. -/
theorem lines_length {fs : List (List UInt8)} {p vs : List UInt8} (h : Lines fs p vs) :
    (fs.flatMap (fun f => text f ++ [10]) ++ text p).length ≤ 5 * vs.length := by
  have hp := text_length_le p
  have hl : ∀ gs : List (List UInt8), (∀ f ∈ gs, f ≠ []) → (gs.flatMap (fun f => text f ++ [10])).length ≤ 5 * gs.flatten.length := by
    intro gs
    induction gs with
    | nil => simp
    | cons g gs ih =>
      intro hg
      have h1 := ih (fun f hf => hg f (by simp [hf]))
      have h2 := text_length_le g
      have h3 : 0 < g.length := List.length_pos_iff.2 (hg g (by simp))
      simp only [List.flatMap_cons, List.flatten_cons, List.length_append, List.length_cons, List.length_nil]
      omega
  have h1 := hl fs (fun f hf => (h.full f hf).1)
  rw [← h.all]
  simp only [List.length_append]
  omega

/-- Saving a colour image and loading the file. -/
theorem save_load {junk : Nat → UInt8} {binary : Bool} {cur t : Img} (hcur : cur.type = IL_UNSIGNED_BYTE) (hc : t.Consistent) (hd : t.depth = 1)
    (hb : t.bpp = 3) (hbc : t.bpc = 1) (hw0 : 0 < t.width) (hh0 : 0 < t.height) (hsz : 15 * (t.width * t.height) + 40 < 2147483648) :
    ∃ ops pix, iSavePnmInternal junk binary cur (some t) = .ok (some ops) ∧
      (∀ x y b, x < t.width → y < t.height → b < 3 →
        pix[(y * t.width + x) * 3 + b]? = t.px x (if t.origin = IL_ORIGIN_UPPER_LEFT then y else t.height - 1 - y) 0 b) ∧
      ∀ fuel junk' line word, line.length = 180 → word.length = 180 → (output ops).length + 2 < fuel →
        ∃ q l, iLoadPnmInternal fuel junk' line word (open_ (output ops) (output ops).length) = .ok (true, .made q, l) ∧
          Shows q t.width t.height 3 pix := by
  have hsize : t.size = t.width * t.height * 3 := by
    rw [hc.2.2.1, hd, hb, hbc]
    generalize t.width = a
    generalize t.height = b
    grind
  have hplane : t.plane = t.width * t.height * 3 := by
    rw [hc.2.1, hb, hbc]
    generalize t.width = a
    generalize t.height = b
    grind
  obtain ⟨pix, ep, hpl, hpx⟩ := fromSide junk hc hd hbc (by omega) IL_ORIGIN_UPPER_LEFT
  rw [hb] at hpx
  rw [hsize] at hpl
  have hle1 : t.width ≤ t.width * t.height := Nat.le_mul_of_pos_right _ hh0
  have hle2 : t.height ≤ t.width * t.height := Nat.le_mul_of_pos_left _ hw0
  obtain ⟨w1, w2, w3⟩ := printD_spec (n := t.width) (by omega)
  obtain ⟨h1, h2, h3⟩ := printD_spec (n := t.height) (by omega)
  obtain ⟨m1, m2, m3⟩ := printD_spec (n := 255) (by omega)
  have hfit : Fits [.newline] (printD t.width) [.space] (printD t.height) [.newline] (printD 255) :=
    ⟨by simp [Item.Ok], by simp, by simp, ⟨_, 0, rfl⟩, w1, h1, m1, by omega, by omega, by omega⟩
  have hsave : ∀ px, pixels binary t.plane pix = .ok px → iSavePnmInternal junk binary cur (some t) = .ok (some ([ilprintf [80, if binary then 54 else 51, 10],
      ilprintf (printD t.width ++ [32] ++ printD t.height ++ [10]), ilprintf (printD 255 ++ [10])] ++ px.1)) := by
    intro px e
    unfold iSavePnmInternal
    rw [if_neg (by rw [hcur]; decide), if_neg (by rw [hcur]; simp)]
    dsimp only
    rw [if_neg (by rw [hb]; simp), show upright junk t = .ok pix from ep, bind_ok, e, bind_ok, if_pos hcur]
    rfl
  have hout : ∀ px : List WOp, output ([ilprintf [80, if binary then 54 else 51, 10], ilprintf (printD t.width ++ [32] ++ printD t.height ++ [10]),
      ilprintf (printD 255 ++ [10])] ++ px) = header (if binary then 54 else 51) [.newline] (printD t.width) [.space] (printD t.height) [.newline] (printD 255) 10 ++
        output px := by
    intro px
    rw [show ∀ a b c : WOp, [a, b, c] ++ px = [a] ++ ([b] ++ ([c] ++ px)) from fun _ _ _ => rfl, out_append, out_append, out_append, out_print, out_print,
      out_print]
    simp [header, gap, Item.bytes]
  have hhl : (header (if binary then 54 else 51) [.newline] (printD t.width) [.space] (printD t.height) [.newline] (printD 255) 10).length ≤ 36 := by
    unfold header
    simp only [List.length_append, List.length_cons, List.length_nil, gap, List.flatMap_cons, List.flatMap_nil, Item.bytes]
    omega
  cases binary with
  | true =>
    obtain ⟨px, e, ho⟩ := pixels_binary hpl
    refine ⟨_, pix, hsave px (by rw [hplane]; exact e), hpx, ?_⟩
    rw [hout, ho]
    intro fuel junk' line word _ hword hfuel
    have := C97_binary_partial fuel junk' line word 54 _ _ _ _ _ _ 10 pix [] (by decide) hfit (by decide) (by omega) (by omega) (by omega) (by omega)
      (by rw [w2, h2, hpl]; rfl) hword _ rfl (by simp only [List.append_nil, List.length_append]; simp only [if_true] at hhl; omega)
      (by rw [List.append_nil]; exact hfuel)
    rw [w2, h2, List.append_nil] at this
    exact this
  | false =>
    obtain ⟨px, fs, p, e, ho, hl⟩ := pixels_text hpl
    refine ⟨_, pix, hsave px (by rw [hplane]; exact e), hpx, ?_⟩
    rw [hout, ho]
    have hlen := lines_length hl
    intro fuel junk' line word hline hword hfuel
    have := C97_text_partial fuel junk' line word 51 _ _ _ _ _ _ 10 pix _ (by decide) hfit (by decide) (by omega) (by omega) (by omega) (by omega)
      (lines_body hl (by intro h0; rw [h0] at hpl; simp only [List.length_nil] at hpl; omega))
      (by rw [w2, h2, hpl]; rfl) (by omega) hline hword _ rfl
      (by rw [List.length_append]; simp only [Bool.false_eq_true, if_false] at hhl; omega) hfuel
    rw [w2, h2] at this
    exact this

theorem comps_one (d : List UInt8) (i : Nat) : (comps 1 d)[i]? = d[i]?.map UInt8.toNat := by
  by_cases h : i < d.length
  · rw [comps_get (by rw [Nat.div_one]; exact h), List.getElem?_eq_getElem h, Nat.mul_one, List.drop_eq_getElem_cons h]
    show some (leVal [d[i]]) = _
    simp [leVal]
  · rw [List.getElem?_eq_none (by simp; omega), List.getElem?_eq_none (by omega)]
    rfl

/-- **C98.** An image of bytes in any of the formats RGB, RGBA, BGR, BGRA, luminance and luminance-alpha, saved as PPM — binary or plain — and
loaded again, comes back as an RGB image of the same dimensions in which every pixel, row by row from the top, has the red, green and blue of
the original.
Missing: colour-indexed and alpha images, images above some 140 million pixels; for 16-bit components it is false (see below). -/
theorem C98_round_trip_partial (fl : Conv.FloatOps) (j : ConvImage.Junk) (junk junk' : Nat → UInt8) (binary : Bool) (m : Img) (hfl : ConvImage.Sane fl)
    (hm : ConvImage.Plain m) (ht : m.type = IL_UNSIGNED_BYTE)
    (hf : m.format ∈ [IL_RGB, IL_RGBA, IL_BGR, IL_BGRA, IL_LUMINANCE, IL_LUMINANCE_ALPHA]) (hd : m.depth = 1)
    (hsz : 15 * (m.width * m.height) + 40 < 2147483648) :
    ∃ conv ops, ConvImage.iConvertImage fl j m IL_RGB IL_UNSIGNED_BYTE = .ok conv ∧ iSavePnmInternal junk binary m conv = .ok (some ops) ∧
      ∀ fuel line word, line.length = 180 → word.length = 180 → (output ops).length + 2 < fuel →
        ∃ q l, iLoadPnmInternal fuel junk' line word (open_ (output ops) (output ops).length) = .ok (true, .made q, l) ∧ q.Consistent ∧
          q.width = m.width ∧ q.height = m.height ∧ q.depth = 1 ∧ q.format = IL_RGB ∧ q.type = IL_UNSIGNED_BYTE ∧ q.origin = IL_ORIGIN_UPPER_LEFT ∧
          ∀ x y ch, x < m.width → y < m.height → ch ≠ .alpha →
            ConvImage.channel q x y 0 ch = ConvImage.channel m x (if m.origin = IL_ORIGIN_UPPER_LEFT then y else m.height - 1 - y) 0 ch := by
  have hpx : ConvImage.pixels m = m.width * m.height := by unfold ConvImage.pixels; rw [hd, Nat.one_mul, Nat.mul_comm]
  have hdir : (m.format, IL_RGB) ∈ Conv.direct := by
    have : ∀ f ∈ [IL_RGB, IL_RGBA, IL_BGR, IL_BGRA, IL_LUMINANCE, IL_LUMINANCE_ALPHA], (f, IL_RGB) ∈ Conv.direct := by decide
    exact this _ hf
  obtain ⟨t, e, ht', hs, tf, tt, hcar⟩ := ConvImage.iConvertImage_direct (fl := fl) (j := j) (m := m) (df := IL_RGB) (dt := IL_UNSIGNED_BYTE) (conv := id) hfl hm hdir
    (by decide) (by rw [hpx, show ilGetBpcType IL_UNSIGNED_BYTE = 1 from rfl]; omega) (by unfold Conv.compFn; rw [if_pos ht])
  obtain ⟨s1, s2, s3, s4⟩ := hs
  have hb : t.bpp = 3 := by rw [ht'.bpp, tf]; rfl
  have hbc : t.bpc = 1 := by rw [ht'.bpc, tt]; rfl
  obtain ⟨ops, pix, e2, hp, hload⟩ := save_load (junk := junk) (binary := binary) (cur := m) (t := t) ht ht'.cons (by omega) hb hbc ht'.w0 ht'.h0
    (by rw [s1, s2]; exact hsz)
  refine ⟨_, ops, e, e2, fun fuel line word hline hword hfuel => ?_⟩
  obtain ⟨q, l, e3, hq⟩ := hload fuel junk' line word hline hword hfuel
  refine ⟨q, l, e3, hq.cons, by rw [hq.width, s1], by rw [hq.height, s2], hq.depth, hq.format, hq.type, hq.origin, fun x y ch hx hy hch => ?_⟩
  have hy' : (if m.origin = IL_ORIGIN_UPPER_LEFT then y else m.height - 1 - y) < m.height := by split <;> omega
  obtain ⟨o, ho, ho3⟩ : ∃ o, Conv.place IL_RGB ch = some o ∧ o < 3 := by
    cases ch
    · exact ⟨0, rfl, by decide⟩
    · exact ⟨1, rfl, by decide⟩
    · exact ⟨2, rfl, by decide⟩
    · exact absurd rfl hch
  have hpl : ∃ k, Conv.place m.format ch = some k := by
    have : ∀ f ∈ [IL_RGB, IL_RGBA, IL_BGR, IL_BGRA, IL_LUMINANCE, IL_LUMINANCE_ALPHA], (Conv.place f .red).isSome ∧ (Conv.place f .green).isSome ∧ (Conv.place f .blue).isSome := by decide
    have := this _ hf
    cases ch
    · exact Option.isSome_iff_exists.1 this.1
    · exact Option.isSome_iff_exists.1 this.2.1
    · exact Option.isSome_iff_exists.1 this.2.2
    · exact absurd rfl hch
  obtain ⟨k, hk⟩ := hpl
  have key := hcar x _ 0 hx hy' (by omega) ch o (by rw [tf]; exact ho)
  rw [hk] at key
  dsimp only at key
  unfold ConvImage.channel
  rw [hq.format, if_neg (by decide), ho, hk]
  simp only [Option.bind_some]
  rw [Option.map_id] at key
  rw [id_eq] at key
  rw [← key]
  unfold ConvImage.cval
  rw [hq.bpc, hbc, hq.bpp, hb, hq.width, comps_one, comps_one, hq.data]
  have := hp x y o (by omega) (by omega) ho3
  rw [px_eq hbc, hb, s4] at this
  simp only [Nat.zero_mul, Nat.zero_add]
  rw [this, s2]

example : ConvImage.Plain ConvImage.rgbDemo ∧ 15 * (ConvImage.rgbDemo.width * ConvImage.rgbDemo.height) + 40 < 2147483648 := by
  refine ⟨⟨⟨rfl, rfl, rfl, rfl⟩, by decide, by decide, by decide, by decide, by decide, rfl, by decide, rfl⟩, by decide⟩

/-! ## Where C97 and C98 fail

The buffers of the loader are static, so they are zero when the first file is loaded.  Each witness holds for every sufficient fuel. -/

/-- A buffer in its initial state. -/
def zeros : List UInt8 := List.replicate 180 0

/-- Loading a file as the first one. -/
def load (fuel : Nat) (junk : Nat → UInt8) (file : List UInt8) : C (Bool × Cur × R) :=
  iLoadPnmInternal fuel junk zeros zeros (open_ file file.length)

/-- The outcome without the position in the file. -/
def outcome (r : C (Bool × Cur × R)) : C (Bool × Cur) := r >>= fun s => pure (s.1, s.2.1)

theorem outcome_mono {n fuel : Nat} {junk : Nat → UInt8} {file : List UInt8} {r : C (Bool × Cur)} (e : outcome (load n junk file) = r)
    (hr : r ≠ .error .hang) (h : n ≤ fuel) : outcome (load fuel junk file) = r := by
  unfold load at *
  rcases load_le (junk := junk) (line := zeros) (word := zeros) (l := open_ file file.length) h with h | h
  · rw [h] at e
    exact absurd e.symm hr
  · rw [h, e]

set_option maxRecDepth 20000 in
/-- **C97 fails for tabs.** `P5`, 1, 1 and 255, separated by tabs, are read as one word and the file is refused. -/
theorem C97_violated_tab (junk : Nat → UInt8) (fuel : Nat) (h : 60 ≤ fuel) :
    outcome (load fuel junk [80, 53, 9, 49, 9, 49, 9, 50, 53, 53, 10, 7]) = .ok (false, .same) :=
  outcome_mono (n := 60) (by rfl) (by simp) h

set_option maxRecDepth 20000 in
/-- **C97 fails for a comment line before the largest value**: `P5 1 1`, `# c`, `255`, and a pixel is refused. -/
theorem C97_violated_comment (junk : Nat → UInt8) (fuel : Nat) (h : 60 ≤ fuel) :
    outcome (load fuel junk (header 53 [.space] [49] [.space] [49] [.newline, .comment [32, 99]] [50, 53, 53] 10 ++ [7])) = .ok (false, .same) :=
  outcome_mono (n := 60) (by rfl) (by simp) h

set_option maxRecDepth 20000 in
/-- **C97 fails for an empty line before the largest value.** -/
theorem C97_violated_newline (junk : Nat → UInt8) (fuel : Nat) (h : 60 ≤ fuel) :
    outcome (load fuel junk (header 53 [.space] [49] [.space] [49] [.newline, .newline] [50, 53, 53] 10 ++ [7])) = .ok (false, .same) :=
  outcome_mono (n := 60) (by rfl) (by simp) h

set_option maxRecDepth 20000 in
/-- **C97 fails for 16-bit binary files.** One grey pixel of two bytes with the largest value 65535 loads as an image that says it has components of two bytes
but has one byte in all, the first one. -/
theorem C97_violated_sixteen (junk : Nat → UInt8) (fuel : Nat) (h : 60 ≤ fuel) :
    ∃ q, outcome (load fuel junk (header 53 [.space] [49] [.space] [49] [.newline] [54, 53, 53, 51, 53] 10 ++ [7, 8])) = .ok (true, .made q) ∧
      q.type = IL_UNSIGNED_SHORT ∧ q.bpc = 1 ∧ q.data = [7] :=
  ⟨_, outcome_mono (n := 60) (by rfl) (by simp) h, rfl, rfl, rfl⟩

set_option maxRecDepth 20000 in
/-- **C97 fails for 16-bit plain files**: a grey pixel is refused (four bytes are expected for it), and the current image is left with bytes that were never
written. -/
theorem C97_violated_sixteen_text (junk : Nat → UInt8) (fuel : Nat) (h : 60 ≤ fuel) :
    ∃ q, outcome (load fuel junk (header 50 [.space] [49] [.space] [49] [.newline] [54, 53, 53, 51, 53] 10 ++ [55, 10])) = .ok (false, .made q) ∧
      q.data = [7, junk 1, junk 2, junk 3] :=
  ⟨_, outcome_mono (n := 60) (by rfl) (by simp) h, rfl⟩

/-- A white RGB pixel of 16-bit components. -/
def white16 : Img :=
  { width := 1, height := 1, depth := 1, bpp := 3, bpc := 2, bps := 6, plane := 6, size := 6, format := IL_RGB, type := IL_UNSIGNED_SHORT,
    origin := IL_ORIGIN_UPPER_LEFT, data := [255, 255, 255, 255, 255, 255] }

/-- **C98 fails for 16-bit components.** A white pixel is written as 255 255 255 of 65535, which is all but black. -/
theorem C98_violated_sixteen (junk : Nat → UInt8) : ∃ conv ops,
    ConvImage.iConvertImage ConvImage.zeroFloats ⟨fun _ => 0, fun _ => 0⟩ white16 IL_RGB IL_UNSIGNED_BYTE = .ok conv ∧
    iSavePnmInternal junk false white16 conv = .ok (some ops) ∧
    output ops = header 51 [.newline] [49] [.space] [49] [.newline] [54, 53, 53, 51, 53] 10 ++ text [255, 255, 255] ∧ white16.Consistent :=
  ⟨_, _, rfl, rfl, by decide, ⟨rfl, rfl, rfl, rfl⟩⟩

/-! ## C99 -/

/-- **C99.** (Bitmaps.)  A P4 file with a proper header loads without a fault and the loader ends, whatever bytes follow the header, if the first of
them is not a space.
Missing: the other types, for which it is false (see below). -/
theorem C99_bitmap_partial (fuel : Nat) (junk : Nat → UInt8) (line word : List UInt8) (g1 g2 : List Item) (w h : List UInt8) (i3 : Item) (b : UInt8)
    (rest : List UInt8) (hgap : ∀ i ∈ g1 ++ g2 ++ [i3], i.Ok) (hg1 : g1 ≠ []) (hg2 : g2 ≠ []) (wn : IsNumber w) (hn : IsNumber h)
    (wl : w.length < 180) (hl : h.length < 180) (hb : b ≠ 32) (hw0 : 0 < number w) (hh0 : 0 < number h) (hwh : number w * number h < 2147483648)
    (hword : word.length = 180) (file : List UInt8) (hfile : file = [80, 52] ++ gap g1 ++ w ++ gap g2 ++ h ++ i3.bytes ++ b :: rest)
    (hsize : file.length < 4294967295) (hfuel : file.length + number w * number h + 2 < fuel) :
    ∃ q l, iLoadPnmInternal fuel junk line word (open_ file file.length) = .ok (true, .made q, l) ∧ q.Consistent ∧ q.width = number w ∧
      q.height = number h := by
  have hwlt : number w < 2147483648 := Nat.lt_of_le_of_lt (Nat.le_mul_of_pos_right _ hh0) hwh
  have hhlt : number h < 2147483648 := Nat.lt_of_le_of_lt (Nat.le_mul_of_pos_left _ hw0) hwh
  have a0 := at_open (data := file) (by rw [hfile]; simp) hsize
  have hat : At (open_ file file.length) ([80, 52] ++ gap g1 ++ w ++ gap g2 ++ h ++ i3.bytes ++ b :: rest) := hfile ▸ a0
  obtain ⟨word1, l1, word2, l2, e1, ht, e2, a2, _⟩ := header4_spec (fuel := fuel) hat hgap hg1 hg2 wn hn wl hl hb ⟨hw0, hh0⟩ hwlt hhlt hword
    (by show file.length + 2 < fuel; omega)
  obtain ⟨q, e, c, f1, f2, f3, f4, f5, _, f7, _, f9, f8⟩ := init8 junk 0 hw0 hh0 (bpp := 1) (by rw [Nat.mul_one]; omega)
  rw [Nat.mul_one] at f8 f9
  obtain ⟨d', l3, e3, hl3⟩ := bitLoop_any (w := number w) (h := number h) hw0 fuel (row := 0) (x := 0) (j := 0) (d := q.data) a2.good hw0 (Or.inl hh0) (by omega)
    (by rw [f8, Nat.mul_comm]) (by rw [Nat.mul_comm]; omega)
  rw [f8, ← f9] at e3
  refine ⟨{ q with origin := IL_ORIGIN_UPPER_LEFT, data := d', format := IL_LUMINANCE }, l3, ?_, ⟨c.1, c.2.1, c.2.2.1, ?_⟩, f1, f2⟩
  · unfold iLoadPnmInternal
    rw [e1, bind_ok]
    dsimp only
    rw [if_neg (by simp), ht, if_neg (by decide), if_neg (by decide), e2, bind_ok]
    dsimp only
    rw [show reader fuel junk ⟨4, number w, number h, 1, 1⟩ line word2 l2 = ilReadBitPbm fuel junk ⟨4, number w, number h, 1, 1⟩ l2 from rfl]
    unfold ilReadBitPbm
    dsimp only
    rw [e, bind_ok]
    dsimp only
    rw [e3, bind_ok]
    rfl
  · show d'.length = q.size
    rw [hl3, f8, f9]

/-- **C99 fails for every truncated binary file.** If fewer bytes follow the header of a binary PGM or PPM file than the pixels need, the loader frees the current
image and then uses it. -/
theorem C99_violated_truncated (fuel : Nat) (junk : Nat → UInt8) (line word : List UInt8) (magic : UInt8) (g1 g2 g3 : List Item)
    (w h m : List UInt8) (last : UInt8) (pix : List UInt8) (hmagic : magic = 53 ∨ magic = 54) (hfit : Fits g1 w g2 h g3 m)
    (hlast : last = 10 ∨ last = 32) (hw0 : 0 < number w) (hh0 : 0 < number h) (hm0 : 0 < number m) (hm : number m ≤ 255)
    (hfits : number w * number h * compsOf magic < 2147483648) (hpix : pix.length < number w * number h * compsOf magic) (hword : word.length = 180)
    (file : List UInt8) (hfile : file = header magic g1 w g2 h g3 m last ++ pix) (hsize : file.length < 2147483648) (hfuel : file.length + 2 < fuel) :
    iLoadPnmInternal fuel junk line word (open_ file file.length) = .error .useAfterFree := by
  have hc : 0 < compsOf magic := by rcases hmagic with rfl | rfl <;> decide
  have hwh : number w * number h < 2147483648 := Nat.lt_of_le_of_lt (Nat.le_mul_of_pos_right _ hc) hfits
  have hwlt : number w < 2147483648 := Nat.lt_of_le_of_lt (Nat.le_mul_of_pos_right _ hh0) hwh
  have hhlt : number h < 2147483648 := Nat.lt_of_le_of_lt (Nat.le_mul_of_pos_left _ hw0) hwh
  have hcomm : number w * compsOf magic * number h = number w * number h * compsOf magic := by
    rw [Nat.mul_assoc, Nat.mul_comm (compsOf magic), Nat.mul_assoc]
  have hm' : magic = 50 ∨ magic = 51 ∨ magic = 53 ∨ magic = 54 := by rcases hmagic with h | h <;> simp [h]
  have a0 := at_open (data := file) (by rw [hfile]; unfold header; simp) (by omega)
  have hat : At (open_ file file.length) (header magic g1 w g2 h g3 m last ++ pix) := hfile ▸ a0
  obtain ⟨word1, l1, word2, l2, e1, ht, e2, a2, hw2, _⟩ := header_spec (fuel := fuel) hat hfit hm' hlast ⟨hw0, hh0, hm0⟩ hwlt hhlt (by omega) hword hfuel
  have hb : bppOf (magic.toNat - 48) (number m) = compsOf magic := by
    rcases hmagic with rfl | rfl <;> rfl
  rw [hb] at e2
  obtain ⟨q, e, c, f1, f2, f3, f4, f5, _, f7, _, _, f8⟩ := init8 junk 0 hw0 hh0 (bpp := compsOf magic) (by rw [hcomm]; omega)
  have hu : u32 (u32 (number w * number h) * compsOf magic) = number w * number h * compsOf magic := by
    rw [u32_of_lt (show number w * number h < 4294967296 by omega), u32_of_lt (by omega)]
  unfold iLoadPnmInternal
  rw [e1, bind_ok]
  dsimp only
  rw [if_neg (by simp), ht, if_neg (by rcases hmagic with rfl | rfl <;> decide), if_neg (by rcases hmagic with rfl | rfl <;> decide), e2, bind_ok]
  dsimp only
  rw [show reader fuel junk ⟨magic.toNat - 48, number w, number h, number m, compsOf magic⟩ line word2 l2 =
    ilReadBinaryPpm junk ⟨magic.toNat - 48, number w, number h, number m, compsOf magic⟩ l2 by unfold reader; rcases hmagic with rfl | rfl <;> rfl]
  unfold ilReadBinaryPpm
  dsimp only
  rw [e, bind_ok, hu]
  dsimp only
  have hlen := a2.len
  obtain ⟨g, eg, hgl, hgr⟩ : ∃ g, read l2 1 (number w * number h * compsOf magic) = .ok (g, adv l2 pix.length) ∧ g.bytes.length = pix.length ∧
      g.ret = pix.length := by
    have hav : avail l2 1 (number w * number h * compsOf magic) = pix.length := by
      unfold avail
      rw [Nat.one_mul, u32_of_lt (by omega)]
      have := a2.good.pos
      omega
    have hdl : (l2.data.drop l2.pos).length = pix.length := by
      have := a2.2
      rw [← this]
    have hr := read_spec a2.good 1 (number w * number h * compsOf magic)
    rw [hav] at hr
    refine ⟨_, hr, ?_, ?_⟩
    · rw [List.length_take, hdl, Nat.min_self]
    · dsimp only
      rw [if_pos (by decide), Nat.div_one]
  unfold readAt
  rw [eg, bind_ok]
  dsimp only
  rw [if_pos (by rw [hgl, f8, hcomm]; omega), pure_eq_ok, bind_ok]
  dsimp only
  rw [if_pos (by omega)]
  rfl

example : Fits [.space] [50] [.space] [50] [.space] [57] ∧ ([1, 2, 3] : List UInt8).length < number [50] * number [50] * compsOf 53 := by
  refine ⟨⟨?_, by decide, by decide, ⟨_, 0, rfl⟩, by unfold IsNumber; decide, by unfold IsNumber; decide, by unfold IsNumber; decide, by decide, by decide,
    by decide⟩, by decide⟩
  intro i hi
  simp only [List.cons_append, List.nil_append, List.mem_cons, List.not_mem_nil, or_false] at hi
  rcases hi with rfl | rfl | rfl <;> trivial

/-- Where the loader stands in the file `P6`, line feed, line feed. -/
def stuck (pos : Nat) : R := ⟨[80, 54, 10, 10], 4, pos⟩

theorem stuck_outer (fuel : Nat) : ∀ word : List UInt8, word.length = 180 →
    outer false fuel word 0 (stuck 2) = .error .hang ∧ outer false fuel word 0 (stuck 3) = .error .hang := by
  have hin : ∀ f (word : List UInt8) p, (p = 2 ∨ p = 3) → inner (f + 1) word 0 (stuck p) = .ok ⟨word, 0, some 10, stuck (p + 1), false⟩ := by
    intro f word p hp
    unfold inner
    rcases hp with rfl | rfl <;> rfl
  induction fuel with
  | zero => intro word _; exact ⟨rfl, rfl⟩
  | succ fuel ih =>
    intro word hw
    cases fuel with
    | zero => exact ⟨rfl, rfl⟩
    | succ f =>
      have hwr : wr word 0 0 = .ok (word.set 0 0) := wr_of_lt (by omega)
      have h2 : readUntil (fun c => decide (c ≠ some 32)) (f + 1) (stuck 3) = .ok (some 10, stuck 4) := rfl
      have h3 : readUntil (fun c => decide (c ≠ some 32)) (f + 1) (stuck 4) = .ok (none, stuck 3) := rfl
      have s4 : seek (stuck 4) (-1) SEEK_CUR = .ok (true, stuck 3) := rfl
      have s3 : seek (stuck 3) (-1) SEEK_CUR = .ok (true, stuck 2) := rfl
      obtain ⟨i2, i3⟩ := ih (word.set 0 0) (by simpa using hw)
      constructor
      · unfold outer
        rw [hin f word 2 (by simp), bind_ok]
        simp only [Bool.false_eq_true, if_false]
        rw [if_neg (by simp), hwr, bind_ok, show skipComment (f + 1) (some 10) (stuck (2 + 1)) = .ok (stuck 3) from rfl, bind_ok, h2, bind_ok]
        dsimp only
        rw [s4, bind_ok]
        dsimp only
        rw [if_neg (by omega), i3]
      · unfold outer
        rw [hin f word 3 (by simp), bind_ok]
        simp only [Bool.false_eq_true, if_false]
        rw [if_neg (by simp), hwr, bind_ok, show skipComment (f + 1) (some 10) (stuck (3 + 1)) = .ok (stuck 4) from rfl, bind_ok, h3, bind_ok]
        dsimp only
        rw [s3, bind_ok]
        dsimp only
        rw [if_neg (by omega), i2]

set_option maxRecDepth 20000 in
/-- **C99 fails: the loader never ends** on the four bytes `P6`, line feed, line feed in memory. -/
theorem C99_violated_hang (junk : Nat → UInt8) (fuel : Nat) : load fuel junk [80, 54, 10, 10] = .error .hang := by
  have hfirst : ∀ f, ∃ word, word.length = 180 ∧ (iGetWord f false zeros (stuck 0) = .ok (true, word, stuck 3) ∨ iGetWord f false zeros (stuck 0) = .error .hang) ∧
      typeOf word = 6 := by
    intro f
    refine ⟨80 :: 54 :: 0 :: List.replicate 177 0, by simp, ?_, rfl⟩
    match f with
    | 0 => exact Or.inr rfl
    | 1 => exact Or.inr rfl
    | 2 => exact Or.inr rfl
    | 3 => exact Or.inr rfl
    | f + 4 => exact Or.inl rfl
  obtain ⟨word, hw, h, ht⟩ := hfirst fuel
  unfold load iLoadPnmInternal
  rw [show open_ [80, 54, 10, 10] ([80, 54, 10, 10] : List UInt8).length = stuck 0 from rfl]
  rcases h with h | h
  · rw [h, bind_ok]
    dsimp only
    rw [if_neg (by simp), ht, if_neg (by decide), if_neg (by decide)]
    unfold numbers iGetWord
    rw [show eof (stuck 3) = false from rfl, if_neg (by simp), (stuck_outer fuel word hw).2]
    rfl
  · rw [h]
    rfl

set_option maxRecDepth 20000 in
/-- **C99 fails: a line with more values than the image has** is written past the end of the pixels. -/
theorem C99_violated_values (junk : Nat → UInt8) (fuel : Nat) (h : 60 ≤ fuel) :
    outcome (load fuel junk (header 50 [.space] [49] [.space] [49] [.space] [50, 53, 53] 10 ++ [49, 32, 50, 10])) = .error .oobWrite :=
  outcome_mono (n := 60) (by rfl) (by simp) h

set_option maxRecDepth 20000 in
/-- **C99 fails: a word of 180 characters** is terminated behind the end of its buffer. -/
theorem C99_violated_word (junk : Nat → UInt8) (fuel : Nat) (h : 200 ≤ fuel) :
    outcome (load fuel junk ([80, 53, 32] ++ List.replicate 180 49 ++ [32])) = .error .oobWrite :=
  outcome_mono (n := 200) (by rfl) (by simp) h

set_option maxRecDepth 20000 in
/-- **C99 fails: a line of 180 characters** is terminated behind the end of its buffer. -/
theorem C99_violated_line (junk : Nat → UInt8) (fuel : Nat) (h : 220 ≤ fuel) :
    outcome (load fuel junk (header 50 [.space] [49] [.space] [49] [.space] [50, 53, 53] 10 ++ List.replicate 180 48 ++ [10])) = .error .oobWrite :=
  outcome_mono (n := 220) (by rfl) (by simp) h

set_option maxRecDepth 20000 in
/-- **C99 fails: in a line with nothing but a space** the loader looks for a number behind the end of its buffer. -/
theorem C99_violated_blank (junk : Nat → UInt8) (fuel : Nat) (h : 60 ≤ fuel) :
    outcome (load fuel junk (header 50 [.space] [49] [.space] [49] [.space] [50, 53, 53] 10 ++ [32, 10, 55, 10])) = .error .oobRead :=
  outcome_mono (n := 60) (by rfl) (by simp) h

set_option maxRecDepth 20000 in
/-- **C99 fails: a dimension that is no `int`** makes `atoi` undefined. -/
theorem C99_violated_number (junk : Nat → UInt8) (fuel : Nat) (h : 60 ≤ fuel) :
    outcome (load fuel junk ([80, 53, 32] ++ List.replicate 11 57 ++ [32, 49])) = .error .overflow :=
  outcome_mono (n := 60) (by rfl) (by simp) h

set_option maxRecDepth 20000 in
/-- **C99 fails: a truncated plain file in memory is reported as loaded.** The second of two pixels is missing; the last digit of the first is read again. -/
theorem C99_violated_repeated (junk : Nat → UInt8) (fuel : Nat) (h : 60 ≤ fuel) :
    ∃ q, outcome (load fuel junk (header 50 [.space] [50] [.space] [49] [.space] [50, 53, 53] 10 ++ [49, 55])) = .ok (true, .made q) ∧ q.data = [17, 7] :=
  ⟨_, outcome_mono (n := 60) (by rfl) (by simp) h, rfl⟩

/-- A PAM file of two grey pixels, the second of which is missing. -/
def shortPam : List UInt8 :=
  Register.txt ['P','7','\n','W','I','D','T','H',' ','1','\n','H','E','I','G','H','T',' ','2','\n','D','E','P','T','H',' ','1','\n',
    'M','A','X','V','A','L',' ','2','5','5','\n','T','U','P','L','T','Y','P','E',' ','G','R','A','Y','S','C','A','L','E','\n','E','N','D','H','D','R','\n'] ++ [7]

set_option maxRecDepth 20000 in
/-- **C99 fails: a truncated PAM file** leaves the library with a current image that has been freed. -/
theorem C99_violated_pam (junk : Nat → UInt8) (fuel : Nat) (h : 120 ≤ fuel) : outcome (load fuel junk shortPam) = .ok (false, .freed) :=
  outcome_mono (n := 120) (by rfl) (by simp) h

/-! ## C100 -/

/-- A pixel of a bitmap as the format has it: a set bit is black, a clear one white.  Bit 7 of a byte is the leftmost. -/
def pbmPixel (b : UInt8) (i : Nat) : UInt8 := if b.toNat / 2 ^ (7 - i) % 2 = 1 then 0 else 255

/-- A row of a bitmap of `w` columns, which starts on a byte. -/
def pbmRow (w : Nat) (bs : List UInt8) : List UInt8 := (List.range w).map fun x => pbmPixel (bs.getD (x / 8) 0) (x % 8)

theorem spread_get (cur n : Nat) : ∀ k i, i < n → (spread cur k n)[i]? = some (if cur / 2 ^ (k - 1 - i) % 2 = 1 then 255 else 0) := by
  induction n with
  | zero => intro k i h; omega
  | succ n ih =>
    intro k i h
    cases i with
    | zero => simp [spread]
    | succ i =>
      rw [spread, List.getElem?_cons_succ, ih (k - 1) i (by omega), show k - 1 - 1 - i = k - 1 - (i + 1) by omega]

theorem rowPix_get (bs : List UInt8) : ∀ w x, x < w → w ≤ 8 * bs.length → (rowPix w bs)[x]? = some (255 - pbmPixel (bs.getD (x / 8) 0) (x % 8)) := by
  induction bs with
  | nil => intro w x h1 h2; simp only [List.length_nil] at h2; omega
  | cons b bs ih =>
    intro w x h1 h2
    rw [rowPix_cons]
    by_cases hx : x < 8
    · rw [List.getElem?_append_left (by rw [spread_length]; omega), spread_get _ _ _ _ (by omega), Nat.div_eq_of_lt hx, Nat.mod_eq_of_lt hx]
      unfold pbmPixel
      simp only [List.getD_cons_zero, Nat.add_one_sub_one]
      split <;> rfl
    · rw [List.getElem?_append_right (by rw [spread_length]; omega), spread_length, Nat.min_eq_left (by omega)]
      rw [List.length_cons] at h2
      rw [ih (w - 8) (x - 8) (by omega) (by omega), show x / 8 = (x - 8) / 8 + 1 by omega, show (x - 8) % 8 = x % 8 by omega, List.getD_cons_succ]

theorem rowPix_eq {w : Nat} {bs : List UInt8} (h : w ≤ 8 * bs.length) : rowPix w bs = (pbmRow w bs).map (255 - ·) := by
  apply List.ext_getElem?
  intro x
  by_cases hx : x < w
  · rw [rowPix_get bs w x hx h]
    simp [pbmRow, hx]
  · rw [List.getElem?_eq_none (by rw [rowPix_length h]; omega), List.getElem?_eq_none (by simp [pbmRow]; omega)]

/-- **C100.** (Geometry.)  A P4 file with a proper header whose first data byte is not a space is loaded without a fault, every bit lands at its pixel, and the
padding bits at the end of each row are skipped; but every pixel is the negative of what the format says.
Missing: the right shades, and files whose first byte is a space, for which the claim is false (see below). -/
theorem C100_geometry_partial (fuel : Nat) (junk : Nat → UInt8) (line word : List UInt8) (g1 g2 : List Item) (w h : List UInt8) (i3 : Item)
    (rows : List (List UInt8)) (hgap : ∀ i ∈ g1 ++ g2 ++ [i3], i.Ok) (hg1 : g1 ≠ []) (hg2 : g2 ≠ []) (wn : IsNumber w) (hn : IsNumber h)
    (wl : w.length < 180) (hl : h.length < 180) (hw0 : 0 < number w) (hh0 : 0 < number h) (hwh : number w * number h < 2147483648)
    (hrows : rows.length = number h) (hrow : ∀ r ∈ rows, r.length = (number w + 7) / 8) (hb : rows.flatten.head? ≠ some 32)
    (hword : word.length = 180) (file : List UInt8) (hfile : file = [80, 52] ++ gap g1 ++ w ++ gap g2 ++ h ++ i3.bytes ++ rows.flatten)
    (hsize : file.length < 4294967295) (hfuel : file.length + 2 < fuel) :
    ∃ q l, iLoadPnmInternal fuel junk line word (open_ file file.length) = .ok (true, .made q, l) ∧ q.Consistent ∧ q.width = number w ∧
      q.height = number h ∧ q.format = IL_LUMINANCE ∧ q.type = IL_UNSIGNED_BYTE ∧ q.origin = IL_ORIGIN_UPPER_LEFT ∧
      q.data = (rows.flatMap (pbmRow (number w))).map (255 - ·) := by
  have hwlt : number w < 2147483648 := Nat.lt_of_le_of_lt (Nat.le_mul_of_pos_right _ hh0) hwh
  have hhlt : number h < 2147483648 := Nat.lt_of_le_of_lt (Nat.le_mul_of_pos_left _ hw0) hwh
  obtain ⟨b, rest, hbr⟩ : ∃ b rest, rows.flatten = b :: rest := by
    cases rows with
    | nil => simp only [List.length_nil] at hrows; omega
    | cons r rs =>
      have := hrow r (by simp)
      cases r with
      | nil => simp only [List.length_nil] at this; omega
      | cons b r => exact ⟨b, _, rfl⟩
  have hb32 : b ≠ 32 := by rintro rfl; exact hb (by rw [hbr]; rfl)
  have a0 := at_open (data := file) (by rw [hfile]; simp) hsize
  have hat : At (open_ file file.length) ([80, 52] ++ gap g1 ++ w ++ gap g2 ++ h ++ i3.bytes ++ b :: rest) := by rw [← hbr]; exact hfile ▸ a0
  obtain ⟨word1, l1, word2, l2, e1, ht, e2, a2, _⟩ := header4_spec (fuel := fuel) hat hgap hg1 hg2 wn hn wl hl hb32 ⟨hw0, hh0⟩ hwlt hhlt hword
    (by show file.length + 2 < fuel; omega)
  obtain ⟨q, e, c, f1, f2, f3, f4, f5, _, f7, _, f9, f8⟩ := init8 junk 0 hw0 hh0 (bpp := 1) (by rw [Nat.mul_one]; omega)
  rw [Nat.mul_one] at f8 f9
  rw [← hbr] at a2
  have hfl : rows.flatten.length ≤ file.length := by rw [hfile]; simp only [List.length_append]; omega
  obtain ⟨l3, e3⟩ := bitLoop_rows (w := number w) hw0 (rows := rows) (rest := []) (d := q.data) (fuel := fuel) (j := 0) (l := l2) (by rwa [List.append_nil]) hrow
    (by rw [f8, hrows, Nat.mul_comm]; omega) (by omega)
  rw [f8, ← f9] at e3
  have hmap : rows.flatMap (rowPix (number w)) = (rows.flatMap (pbmRow (number w))).map (255 - ·) := by
    rw [List.map_flatMap]
    have : ∀ rs : List (List UInt8), (∀ r ∈ rs, r.length = (number w + 7) / 8) →
        rs.flatMap (rowPix (number w)) = rs.flatMap fun r => (pbmRow (number w) r).map (255 - ·) := by
      intro rs
      induction rs with
      | nil => intro _; rfl
      | cons r rs ih =>
        intro hr
        rw [List.flatMap_cons, List.flatMap_cons, ih fun r' h' => hr r' (List.mem_cons_of_mem _ h'), rowPix_eq (by rw [hr r (by simp)]; omega)]
    exact this rows hrow
  have hlen : (rows.flatMap (rowPix (number w))).length = number w * number h := by
    have : ∀ rs : List (List UInt8), (∀ r ∈ rs, r.length = (number w + 7) / 8) → (rs.flatMap (rowPix (number w))).length = rs.length * number w := by
      intro rs
      induction rs with
      | nil => intro _; simp
      | cons r rs ih =>
        intro hr
        rw [List.flatMap_cons, List.length_append, ih fun r' h' => hr r' (List.mem_cons_of_mem _ h'), rowPix_length (by rw [hr r (by simp)]; omega), List.length_cons,
          Nat.add_mul, Nat.one_mul, Nat.add_comm]
    rw [this rows hrow, hrows, Nat.mul_comm]
  rw [splice_all (by rw [hlen, f8])] at e3
  refine ⟨{ q with origin := IL_ORIGIN_UPPER_LEFT, data := rows.flatMap (rowPix (number w)), format := IL_LUMINANCE }, l3, ?_, ⟨c.1, c.2.1, c.2.2.1, ?_⟩, f1, f2,
    rfl, ?_, rfl, hmap⟩
  · unfold iLoadPnmInternal
    rw [e1, bind_ok]
    dsimp only
    rw [if_neg (by simp), ht, if_neg (by decide), if_neg (by decide), e2, bind_ok]
    dsimp only
    rw [show reader fuel junk ⟨4, number w, number h, 1, 1⟩ line word2 l2 = ilReadBitPbm fuel junk ⟨4, number w, number h, 1, 1⟩ l2 from rfl]
    unfold ilReadBitPbm
    dsimp only
    rw [e, bind_ok]
    dsimp only
    rw [e3, bind_ok]
    rfl
  · show (rows.flatMap (rowPix (number w))).length = q.size
    rw [hlen, f9]
  · first | exact f5 | exact f4 | exact f7 | assumption

/-- Two rows of nine pixels. -/
def twoRows : List (List UInt8) := [[0x80, 0x80], [0x0f, 0]]

example : (∀ i ∈ [Item.newline] ++ [Item.space] ++ [Item.newline], i.Ok) ∧ IsNumber [57] ∧ IsNumber [50] ∧ twoRows.length = number [50] ∧
    (∀ r ∈ twoRows, r.length = (number [57] + 7) / 8) ∧ twoRows.flatten.head? ≠ some 32 ∧
    twoRows.flatMap (pbmRow (number [57])) = [0, 255, 255, 255, 255, 255, 255, 255, 0, 255, 255, 255, 255, 0, 0, 0, 0, 255] := by
  refine ⟨?_, by unfold IsNumber; decide, by unfold IsNumber; decide, by decide, by decide, by decide, by decide⟩
  intro i hi
  simp only [List.cons_append, List.nil_append, List.mem_cons, List.not_mem_nil, or_false] at hi
  rcases hi with rfl | rfl | rfl <;> trivial

/-- **C100 fails: black and white are exchanged in every bitmap.** No pixel of a P4 file gets the shade the format gives it. -/
theorem C100_violated_polarity (fuel : Nat) (junk : Nat → UInt8) (line word : List UInt8) (g1 g2 : List Item) (w h : List UInt8) (i3 : Item)
    (rows : List (List UInt8)) (hgap : ∀ i ∈ g1 ++ g2 ++ [i3], i.Ok) (hg1 : g1 ≠ []) (hg2 : g2 ≠ []) (wn : IsNumber w) (hn : IsNumber h)
    (wl : w.length < 180) (hl : h.length < 180) (hw0 : 0 < number w) (hh0 : 0 < number h) (hwh : number w * number h < 2147483648)
    (hrows : rows.length = number h) (hrow : ∀ r ∈ rows, r.length = (number w + 7) / 8) (hb : rows.flatten.head? ≠ some 32)
    (hword : word.length = 180) (file : List UInt8) (hfile : file = [80, 52] ++ gap g1 ++ w ++ gap g2 ++ h ++ i3.bytes ++ rows.flatten)
    (hsize : file.length < 4294967295) (hfuel : file.length + 2 < fuel) (q : Img) (l : R) (ok : Bool)
    (hload : iLoadPnmInternal fuel junk line word (open_ file file.length) = .ok (ok, .made q, l)) (i : Nat) (hi : i < q.data.length) :
    q.data[i]? ≠ (rows.flatMap (pbmRow (number w)))[i]? := by
  obtain ⟨q', l', e, _, _, _, _, _, _, hd⟩ := C100_geometry_partial fuel junk line word g1 g2 w h i3 rows hgap hg1 hg2 wn hn wl hl hw0 hh0 hwh hrows hrow hb hword
    file hfile hsize hfuel
  rw [hload] at e
  injection e with e
  injection e with _ e
  injection e with e _
  injection e with e
  subst e
  have hv : ∀ v ∈ rows.flatMap (pbmRow (number w)), 255 - v ≠ v := by
    intro v hv
    simp only [List.mem_flatMap, pbmRow, List.mem_map] at hv
    obtain ⟨_, _, _, _, rfl⟩ := hv
    unfold pbmPixel
    split <;> decide
  rw [hd, List.length_map] at hi
  rw [hd, List.getElem?_map, List.getElem?_eq_getElem hi]
  simpa using hv _ (List.getElem_mem hi)

set_option maxRecDepth 20000 in
/-- **C100 fails: the same in a plain bitmap.** `1 0` means black and white. -/
theorem C100_violated_plain (junk : Nat → UInt8) (fuel : Nat) (h : 60 ≤ fuel) :
    ∃ q, outcome (load fuel junk [80, 49, 32, 50, 32, 49, 10, 49, 32, 48, 10]) = .ok (true, .made q) ∧ q.data = [255, 0] :=
  ⟨_, outcome_mono (n := 60) (by rfl) (by simp) h, rfl⟩

set_option maxRecDepth 20000 in
/-- **C100 fails: a plain bitmap without blanks between the digits**, as the format allows and other programs write it, is refused. -/
theorem C100_violated_dense (junk : Nat → UInt8) (fuel : Nat) (h : 60 ≤ fuel) :
    ∃ q, outcome (load fuel junk [80, 49, 32, 50, 32, 49, 10, 49, 48, 10]) = .ok (false, q) :=
  ⟨_, outcome_mono (n := 60) (by rfl) (by simp) h⟩

set_option maxRecDepth 20000 in
/-- **C100 fails: a bitmap whose first eight pixels are the bits of a space** is refused: the byte is taken for a blank of the header. -/
theorem C100_violated_space (junk : Nat → UInt8) (fuel : Nat) (h : 60 ≤ fuel) :
    outcome (load fuel junk [80, 52, 32, 56, 32, 49, 10, 0x20]) = .ok (false, .same) :=
  outcome_mono (n := 60) (by rfl) (by simp) h

set_option maxRecDepth 20000 in
/-- **C100 fails: a bitmap whose second row is missing** is reported as loaded; the loader shows the row as white, as if its bits were set. -/
theorem C100_violated_truncated (junk : Nat → UInt8) (fuel : Nat) (h : 60 ≤ fuel) :
    ∃ q, outcome (load fuel junk [80, 52, 32, 49, 32, 50, 10, 0]) = .ok (true, .made q) ∧
      q.data = [0, 255] :=
  ⟨_, outcome_mono (n := 60) (by rfl) (by simp) h, rfl⟩

end DevIL.Pnm
