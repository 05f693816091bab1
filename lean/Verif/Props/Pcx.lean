import Verif.Lemmas.Pcx
import Verif.Props.Lump
import Verif.Props.TargaSave
import Verif.Props.Pal
/-! C42: PCX round trip.  C43: loading arbitrary bytes as PCX. -/
set_option autoImplicit false
namespace DevIL.Pcx
open DevIL.Lump DevIL.Endian DevIL.Image DevIL.Utility DevIL.Load
open DevIL.Targa (Loaded write_bytes putc_bytes)

/-! ## C42 -/

/-- An image PCX can hold: one slice, one byte per component, at most 65534 columns and 65536 rows. -/
structure Savable (m : Img) : Prop where
  cons : m.Consistent
  w0 : 0 < m.width
  h0 : 0 < m.height
  w : m.width ≤ 65534
  h : m.height ≤ 65536
  d : m.depth = 1
  bpc : m.bpc = 1
  fits : 2 * (m.bpp * (m.width + 1)) * m.height + 2000 < 4294967296

/-- The 128 bytes the saver puts in front of the pixels, and the rest of the file. -/
def headBytes (x y : BitVec 16) (planes : UInt8) (bps : BitVec 16) (rest : List UInt8) : List UInt8 :=
  10 :: 5 :: 1 :: 8 :: (leBytes 2 (0#16).toNat ++ (leBytes 2 (0#16).toNat ++ (leBytes 2 x.toNat ++ (leBytes 2 y.toNat ++
    (leBytes 2 (0#16).toNat ++ (leBytes 2 (0#16).toNat ++ (List.replicate 48 0 ++ (0 :: planes :: (leBytes 2 bps.toNat ++
    (leBytes 2 (1#16).toNat ++ (leBytes 2 (0#16).toNat ++ (leBytes 2 (0#16).toNat ++ (List.replicate 54 0 ++ rest)))))))))))))

theorem header_bytes (big : Bool) (m : Img) :
    (header big m).flatMap WOp.bytes = headBytes (BitVec.ofNat 16 (u32 (m.width + 4294967295))) (BitVec.ofNat 16 (u32 (m.height + 4294967295)))
      (UInt8.ofNat m.bpp) (BitVec.ofNat 16 (if m.width % 2 = 1 then m.width + 1 else m.width)) [] := by
  have h3 : ∀ v, (short big v).bytes = leBytes 2 (BitVec.ofNat 16 v).toNat := fun v => by
    unfold short
    rw [write_bytes, saveLittleUShort_eq, List.take_of_length_le (by simp)]
  unfold header headBytes
  simp only [List.flatMap_append, List.flatMap_cons, List.flatMap_nil, h3, putc_bytes, List.append_assoc]
  rfl

theorem head_spec {big : Bool} {junk : Nat → UInt8} {l : R} {x y bps : BitVec 16} {planes : UInt8} {rest : List UInt8}
    (a : At l (headBytes x y planes bps rest)) :
    iGetPcxHead big junk l = .ok (⟨10, 5, 1, 8, 0, 0, x.toNat, y.toNat, 0, List.replicate 48 0, planes.toNat, bps.toNat⟩, adv l 128) ∧
      At (adv l 128) rest := by
  unfold headBytes at a
  have a1 := a.adv_cons
  have a2 := a1.adv_cons
  have a3 := a2.adv_cons
  have a4 := a3.adv_cons
  have a5 := a4.adv
  have a6 := a5.adv
  have a7 := a6.adv
  have a8 := a7.adv
  have a9 := a8.adv
  have a10 := a9.adv
  have a11 := a10.adv
  have a12 := a11.adv_cons
  have a13 := a12.adv_cons
  have a14 := a13.adv
  have a15 := a14.adv
  have a16 := a15.adv
  have a17 := a16.adv
  have a18 := a17.adv
  simp only [adv_adv, leBytes_length, List.length_replicate, Nat.reduceAdd] at a1 a2 a3 a4 a5 a6 a7 a8 a9 a10 a11 a12 a13 a14 a15 a16 a17 a18
  refine ⟨?_, a18⟩
  unfold iGetPcxHead
  rw [a.getb, bind_ok]
  simp only []
  rw [a1.getb, bind_ok]
  simp only [adv_adv, Nat.reduceAdd]
  rw [a2.getb, bind_ok]
  simp only [adv_adv, Nat.reduceAdd]
  rw [a3.getb, bind_ok]
  simp only [adv_adv, Nat.reduceAdd]
  rw [a4.getLittleUShort, bind_ok]
  simp only [adv_adv, Nat.reduceAdd]
  rw [a5.getLittleUShort, bind_ok]
  simp only [adv_adv, Nat.reduceAdd]
  rw [a6.getLittleUShort, bind_ok]
  simp only [adv_adv, Nat.reduceAdd]
  rw [a7.getLittleUShort, bind_ok]
  simp only [adv_adv, Nat.reduceAdd]
  rw [a8.getLittleUShort, bind_ok]
  simp only [adv_adv, Nat.reduceAdd]
  rw [a9.getLittleUShort, bind_ok]
  simp only [adv_adv, Nat.reduceAdd]
  rw [a10.readAt (dst := alloc junk 48) (off := 0) (size := 1) (number := 48) (by simp) (by decide) (by simp), bind_ok]
  simp only [adv_adv, Nat.reduceAdd, List.length_replicate]
  rw [a11.getb, bind_ok]
  simp only [adv_adv, Nat.reduceAdd]
  rw [a12.getb, bind_ok]
  simp only [adv_adv, Nat.reduceAdd]
  rw [a13.getLittleUShort, bind_ok]
  simp only [adv_adv, Nat.reduceAdd]
  rw [a14.getLittleUShort, bind_ok]
  simp only [adv_adv, Nat.reduceAdd]
  rw [a15.getLittleUShort, bind_ok]
  simp only [adv_adv, Nat.reduceAdd]
  rw [a16.getLittleUShort, bind_ok]
  simp only [adv_adv, Nat.reduceAdd]
  rw [a17.readAt (dst := alloc junk 54) (off := 0) (size := 1) (number := 54) (by simp) (by decide) (by simp), bind_ok]
  simp only [adv_adv, Nat.reduceAdd, List.length_replicate]
  have hdrop : (alloc junk 48).drop (0 + 48) = [] := List.drop_eq_nil_of_le (by simp)
  rw [Nat.zero_add] at hdrop
  rw [hdrop]
  rfl

/-- Loading a file the saver made: `t` has the rows, top row first. -/
theorem load_spec {big : Bool} {junk : Nat → UInt8} {cur : Loaded} {l : R} {w h bpp fmt : Nat} {t rest : List UInt8} {f : Nat → List UInt8}
    (hw0 : 0 < w) (hh0 : 0 < h) (hw : w ≤ 65534) (hh : h ≤ 65536) (hfit : w * bpp * h < 4294967296) (hb : bpp < 256)
    (hfmt : planeFormat bpp = some fmt)
    (ht : t.length = w * bpp * h) (hf : ∀ y, y < h → Dec (f y) (rowDec t w bpp (w * bpp) y bpp))
    (a : At l (headBytes (BitVec.ofNat 16 (u32 (w + 4294967295))) (BitVec.ofNat 16 (u32 (h + 4294967295)))
      (UInt8.ofNat bpp) (BitVec.ofNat 16 (if w % 2 = 1 then w + 1 else w)) ((List.range h).flatMap f ++ rest))) :
    ∃ m l' hd, m.Consistent ∧ m.width = w ∧ m.height = h ∧ m.depth = 1 ∧ m.bpp = bpp ∧ m.bpc = 1 ∧ m.type = IL_UNSIGNED_BYTE ∧
      m.format = fmt ∧ m.origin = IL_ORIGIN_UPPER_LEFT ∧ m.data = t ∧ At l' rest ∧ hd.version = 5 ∧
      iLoadPcxInternal big junk cur l = finish hd m (planePal junk bpp) l' := by
  obtain ⟨e, a1⟩ := head_spec (big := big) (junk := junk) a
  have tw : (BitVec.ofNat 16 (u32 (w + 4294967295))).toNat = w - 1 := by
    rw [BitVec.toNat_ofNat]; unfold u32; omega
  have th : (BitVec.ofNat 16 (u32 (h + 4294967295))).toNat = h - 1 := by
    rw [BitVec.toNat_ofNat]; unfold u32; omega
  have tb : (BitVec.ofNat 16 (if w % 2 = 1 then w + 1 else w)).toNat = w + w % 2 := by
    rw [BitVec.toNat_ofNat]; split <;> omega
  have tp : (UInt8.ofNat bpp).toNat = bpp := by simp [UInt8.toNat_ofNat']; omega
  rw [tw, th, tb, tp] at e
  have hew : extent 0 (w - 1) = w := by unfold extent ofInt; omega
  have heh : extent 0 (h - 1) = h := by unfold extent ofInt; omega
  have hchk : iCheckPcx ⟨10, 5, 1, 8, 0, 0, w - 1, h - 1, 0, List.replicate 48 0, bpp, w + w % 2⟩ = true := by
    unfold iCheckPcx
    rw [if_neg (by simp), if_neg (by simp)]
    simp only [hew]
    rw [if_pos (by decide)]
    split
    · rw [u32_of_lt (by omega)]; simp; omega
    · simp; omega
  obtain ⟨m, em, c, f1, f2, f3, f4, f5, f6, f7, f8, f9, f10⟩ := init8 junk (bpp := bpp) 0 hw0 hh0 hfit
  obtain ⟨line', l', er, al⟩ := readLines_spec (m := { m with origin := IL_ORIGIN_UPPER_LEFT, format := fmt }) (line := alloc junk (bpp * (w + w % 2)))
    (f := f) (t := t) f1 f2 f4 f8 ht hfit f10 (by simp) hf a1
  refine ⟨{ m with origin := IL_ORIGIN_UPPER_LEFT, format := fmt, data := t }, l',
    ⟨10, 5, 1, 8, 0, 0, w - 1, h - 1, 0, List.replicate 48 0, bpp, w + w % 2⟩, ⟨c.1, c.2.1, c.2.2.1, by rw [f9]; exact ht⟩, f1, f2, f3, f4, f5, f7,
    rfl, rfl, rfl, al, rfl, ?_⟩
  · unfold iLoadPcxInternal
    rw [e, bind_ok]
    simp only [hchk, Bool.not_true, Bool.false_eq_true, if_false]
    unfold iUncompressPcx
    rw [if_neg (by simp)]
    unfold iUncompress8
    simp only [hew, heh]
    rw [em, bind_ok]
    dsimp only
    rw [show planeFormat m.bpp = some fmt by rw [f4]; exact hfmt]
    dsimp only
    rw [show m.bpp * (w + w % 2) = bpp * (w + w % 2) by rw [f4], show planePal junk m.bpp = planePal junk bpp by rw [f4]]
    rw [er, bind_ok]
    simp only [Bool.false_eq_true, if_false]

theorem rows_len {f : Nat → List UInt8} {k : Nat} : ∀ {h : Nat}, (∀ y, y < h → (f y).length ≤ k) → ((List.range h).flatMap f).length ≤ k * h
  | 0, _ => by simp
  | h + 1, hf => by
    rw [List.range_succ, List.flatMap_append, List.length_append, Nat.mul_succ]
    have h1 := rows_len (h := h) fun y hy => hf y (by omega)
    have h2 := hf h (by omega)
    simp only [List.flatMap_cons, List.flatMap_nil, List.append_nil]
    omega

theorem putc_flat (l : List UInt8) : (l.map WOp.putc).flatMap WOp.bytes = l := by
  induction l with
  | nil => rfl
  | cons a l ih => rw [List.map_cons, List.flatMap_cons, ih]; rfl

theorem putc_zero (n : Nat) : (List.replicate n (WOp.putc 0)).flatMap WOp.bytes = List.replicate n 0 := by
  rw [← putc_flat (List.replicate n 0), List.map_replicate]

/-- Saving an image that needs no conversion: what the file contains, and what loading it runs into. -/
theorem save_load {big big' : Bool} {junk junk' : Nat → UInt8} {m : Img} {pal : Option Pal} {fmt : Nat} {pops : List WOp} {cur : Loaded}
    {psize : Nat} (hm : Savable m) (hconv : converts m = false) (hfmt : planeFormat m.bpp = some fmt)
    (hpops : palOps junk (m, pal) = .ok (some pops)) (hp : palSize pal = psize) (hps : psize ≤ 768)
    (hpl : (pops.flatMap WOp.bytes).length ≤ 768) :
    ∃ ops, iSavePcxInternal big junk (m, pal) none = .ok (some ops) ∧
    ∃ m' l' hd, m'.Consistent ∧ m'.width = m.width ∧ m'.height = m.height ∧ m'.depth = 1 ∧ m'.bpp = m.bpp ∧ m'.bpc = 1 ∧
      m'.type = IL_UNSIGNED_BYTE ∧ m'.format = fmt ∧ m'.origin = IL_ORIGIN_UPPER_LEFT ∧
      (∀ x y b, x < m.width → y < m.height → b < m.bpp →
        m'.px x y 0 b = m.px x (if m.origin = IL_ORIGIN_UPPER_LEFT then y else m.height - 1 - y) 0 b) ∧
      At l' (12 :: (pops.flatMap WOp.bytes ++ List.replicate (768 - psize) 0)) ∧ hd.version = 5 ∧
      iLoadPcxInternal big' junk' cur (open_ (output ops) (output ops).length) = finish hd m' (planePal junk' m.bpp) l' := by
  have hfits := hm.fits
  have hb : 0 < m.bpp ∧ m.bpp < 256 := by
    unfold planeFormat at hfmt
    split at hfmt
    · omega
    split at hfmt
    · omega
    split at hfmt
    · omega
    · cases hfmt
  have hw := hm.w
  have hw0 := hm.w0
  have hh0 := hm.h0
  have hsz : m.size = m.width * m.bpp * m.height := by rw [hm.cons.2.2.1, hm.bpc, hm.d]; simp
  have hle : m.width * m.bpp * m.height ≤ 2 * (m.bpp * (m.width + 1)) * m.height := by
    refine Nat.mul_le_mul_right _ ?_
    rw [Nat.mul_comm m.width, Nat.mul_add]
    omega
  have hbps : m.bps = m.width * m.bpp := by rw [hm.cons.1, hm.bpc, Nat.mul_one]
  obtain ⟨t, et, htl, htp⟩ := fromSide junk hm.cons hm.d hm.bpc (by omega) IL_ORIGIN_UPPER_LEFT
  rw [hsz] at htl
  obtain ⟨rows, f, er, ef, hf⟩ := encRows_spec (m := m) (t := t) rfl rfl rfl hbps hb.1 hb.2 hm.w0 (by omega) htl (by omega)
  have hpsz : u32 (768 + 4294967296 - psize) = 768 - psize := by unfold u32; omega
  have hsave : iSavePcxInternal big junk (m, pal) none = .ok (some (header big m ++ rows.map .putc ++ [.putc 0xC] ++ pops ++
      List.replicate (768 - psize) (.putc 0))) := by
    unfold iSavePcxInternal
    simp only [hconv, Bool.false_eq_true, if_false]
    unfold topDown
    rw [et, bind_ok, er, bind_ok, hpops, bind_ok]
    simp only []
    rw [hp, hpsz]
    rfl
  refine ⟨_, hsave, ?_⟩
  have hout : output (header big m ++ rows.map .putc ++ [.putc 0xC] ++ pops ++ List.replicate (768 - psize) (.putc 0)) =
      headBytes (BitVec.ofNat 16 (u32 (m.width + 4294967295))) (BitVec.ofNat 16 (u32 (m.height + 4294967295)))
        (UInt8.ofNat m.bpp) (BitVec.ofNat 16 (if m.width % 2 = 1 then m.width + 1 else m.width))
        ((List.range m.height).flatMap f ++ (12 :: (pops.flatMap WOp.bytes ++ List.replicate (768 - psize) 0))) := by
    unfold output
    simp only [List.flatMap_append, header_bytes, putc_flat, putc_zero]
    unfold headBytes
    simp only [List.append_assoc, List.cons_append, List.nil_append, ef]
    rfl
  have hrl : ((List.range m.height).flatMap f).length ≤ 2 * (m.bpp * (m.width + 1)) * m.height := by
    refine rows_len fun y hy => ?_
    have h1 := (hf y hy).len
    rw [rowDec_length] at h1
    have h2 : m.bpp * (m.width + m.width % 2) ≤ m.bpp * (m.width + 1) := Nat.mul_le_mul_left _ (by omega)
    omega
  have hlen : (output (header big m ++ rows.map .putc ++ [.putc 0xC] ++ pops ++ List.replicate (768 - psize) (.putc 0))).length =
      128 + ((List.range m.height).flatMap f).length + 1 + (pops.flatMap WOp.bytes).length + (768 - psize) := by
    rw [hout]; unfold headBytes
    simp only [List.length_cons, List.length_append, leBytes_length, List.length_replicate]
    omega
  have a0 := at_open (data := output (header big m ++ rows.map .putc ++ [.putc 0xC] ++ pops ++ List.replicate (768 - psize) (.putc 0))) (by omega) (by omega)
  have a1 := And.intro a0.1 (a0.2.trans hout)
  obtain ⟨m', l', hd, c, g1, g2, g3, g4, g5, g6, g7, g8, g9, g10, g11, g12⟩ := load_spec (big := big') (junk := junk') (cur := cur)
    hm.w0 hm.h0 hm.w hm.h (by omega) hb.2 hfmt htl hf ⟨a1.1, a1.2⟩
  refine ⟨m', l', hd, c, g1, g2, g3, g4, g5, g6, g7, g8, fun x y b hx hy hb' => ?_, g10, g11, g12⟩
  rw [px_eq g5, g9, g1, g4]
  exact htp x y b hx hy hb'

/-- **C42 (colour images).** Every 8-bit RGB or RGBA image of at most 65534x65536 pixels, saved as PCX and loaded again, comes back
with the same dimensions and format and, row by row from the top, the same pixels.  Missing: formats that are converted before saving,
and (false, see below) 65535 columns and two-component images. -/
theorem C42_round_trip_partial (big big' : Bool) (junk junk' : Nat → UInt8) (m : Img) (hm : Savable m)
    (hf : (m.format = IL_RGB ∧ m.bpp = 3) ∨ (m.format = IL_RGBA ∧ m.bpp = 4)) (cur : Loaded) :
    ∃ ops, iSavePcxInternal big junk (m, none) none = .ok (some ops) ∧
    ∃ m' l, iLoadPcxInternal big' junk' cur (open_ (output ops) (output ops).length) = .ok (true, (m', none), l) ∧ m'.Consistent ∧
      m'.width = m.width ∧ m'.height = m.height ∧ m'.depth = 1 ∧ m'.bpp = m.bpp ∧ m'.bpc = 1 ∧ m'.format = m.format ∧
      m'.origin = IL_ORIGIN_UPPER_LEFT ∧
      ∀ x y b, x < m.width → y < m.height → b < m.bpp →
        m'.px x y 0 b = m.px x (if m.origin = IL_ORIGIN_UPPER_LEFT then y else m.height - 1 - y) 0 b := by
  have hpf : planeFormat m.bpp = some m.format := by rcases hf with ⟨h1, h2⟩ | ⟨h1, h2⟩ <;> rw [h1, h2] <;> rfl
  have hcv : converts m = false := by
    unfold converts
    have := hm.bpc
    rcases hf with ⟨h1, h2⟩ | ⟨h1, h2⟩ <;> rw [h1, this] <;> decide
  have hpo : palOps junk (m, none) = .ok (some []) := by
    unfold palOps
    rw [if_neg (by rcases hf with ⟨h1, h2⟩ | ⟨h1, h2⟩ <;> rw [h1] <;> decide)]
    rfl
  obtain ⟨ops, e, m', l', hd, c, g1, g2, g3, g4, g5, g6, g7, g8, g9, g10, g11, g12⟩ := save_load (big := big) (big' := big') (junk := junk)
    (junk' := junk') (pal := none) (cur := cur) (psize := 0) hm hcv hpf hpo rfl (by decide) (by simp)
  refine ⟨ops, e, m', l', ?_, c, g1, g2, g3, g4, g5, g7, g8, g9⟩
  rw [g12]
  unfold finish
  rw [if_neg (by rcases hf with ⟨h1, h2⟩ | ⟨h1, h2⟩ <;> rw [g4, h2] <;> simp)]
  unfold planePal
  rw [if_neg (by rcases hf with ⟨h1, h2⟩ | ⟨h1, h2⟩ <;> rw [h2] <;> decide)]
  rfl

/-- **C42 (palette images).** A colour-indexed image with a palette of 256 red-green-blue entries, saved as PCX and loaded again, comes
back with the same indices, row by row from the top, and the same palette.  Missing: palettes that are converted, and (false, see below)
palettes of more than 768 bytes. -/
theorem C42_palette_partial (big big' : Bool) (junk junk' : Nat → UInt8) (m : Img) (hm : Savable m) (hf : m.format = IL_COLOUR_INDEX)
    (hb : m.bpp = 1) (p : Pal) (ht : p.type = IL_PAL_RGB24) (hs : p.size = 768) (hd : p.data.length = p.size) (cur : Loaded) :
    ∃ ops, iSavePcxInternal big junk (m, some p) none = .ok (some ops) ∧
    ∃ m' l, iLoadPcxInternal big' junk' cur (open_ (output ops) (output ops).length) = .ok (true, (m', some p), l) ∧ m'.Consistent ∧
      m'.width = m.width ∧ m'.height = m.height ∧ m'.depth = 1 ∧ m'.bpp = m.bpp ∧ m'.bpc = 1 ∧ m'.format = m.format ∧
      m'.origin = IL_ORIGIN_UPPER_LEFT ∧
      ∀ x y, x < m.width → y < m.height →
        m'.px x y 0 0 = m.px x (if m.origin = IL_ORIGIN_UPPER_LEFT then y else m.height - 1 - y) 0 0 := by
  have hpf : planeFormat m.bpp = some m.format := by rw [hf, hb]; rfl
  have hcv : converts m = false := by
    unfold converts
    rw [hf, hm.bpc]; decide
  have hpo : palOps junk (m, some p) = .ok (some [.write p.data 1 p.size]) := by
    unfold palOps
    simp only []
    rw [if_pos hf, if_pos ht]
    rfl
  have hby : ([.write p.data 1 p.size] : List WOp).flatMap WOp.bytes = p.data := by
    simp only [List.flatMap_cons, List.flatMap_nil, List.append_nil, write_bytes]
    rw [Nat.one_mul, ← hd, List.take_length]
  obtain ⟨ops, e, m', l', hdr, c, g1, g2, g3, g4, g5, g6, g7, g8, g9, g10, g11, g12⟩ := save_load (big := big) (big' := big') (junk := junk)
    (junk' := junk') (pal := some p) (cur := cur) (psize := 768) hm hcv hpf hpo hs (by decide) (by rw [hby]; omega)
  rw [hby, Nat.sub_self, List.replicate_zero, List.append_nil] at g10
  refine ⟨ops, e, m', adv (adv l' 1) p.data.length, ?_, c, g1, g2, g3, g4, g5, g7, g8, fun x y hx hy => g9 x y 0 hx hy (by omega)⟩
  rw [g12]
  unfold finish
  rw [if_pos ⟨g11, by rw [g4, hb]⟩]
  unfold planePal
  rw [if_pos hb]
  simp only []
  unfold readPal skipMark
  have g13 : At (adv l' 1) (p.data ++ []) := by rw [List.append_nil]; exact g10.adv_cons
  rw [readByte_ok g10, bind_ok]
  simp only []
  rw [if_neg (by decide), pure_eq_ok, bind_ok]
  simp only []
  rw [g13.readAt (dst := alloc junk' 768) (off := 0) (size := 1) (number := 768) (by omega) (by decide) (by simp; omega), bind_ok]
  have hdrop : (alloc junk' 768).drop (0 + p.data.length) = [] := List.drop_eq_nil_of_le (by simp; omega)
  simp only []
  rw [hdrop]
  have hp : (⟨p.data, 768, IL_PAL_RGB24⟩ : Pal) = p := by rw [← hs, ← ht]
  simp only [List.take_zero, List.nil_append, List.append_nil]
  rw [hp]
  rfl

/-- A 3x2 image with its origin in the lower left corner: runs, a byte that needs escaping, and an odd width. -/
def rgb32 : Img :=
  { width := 3, height := 2, depth := 1, bpp := 3, bpc := 1, bps := 9, plane := 18, size := 18, format := IL_RGB,
    type := IL_UNSIGNED_BYTE, origin := IL_ORIGIN_LOWER_LEFT, data := [7, 7, 200, 7, 8, 200, 7, 9, 255, 1, 2, 3, 4, 5, 6, 7, 8, 9] }

example : Savable rgb32 ∧ rgb32.format = IL_RGB ∧ rgb32.bpp = 3 :=
  ⟨⟨⟨rfl, rfl, rfl, rfl⟩, by decide, by decide, by decide, by decide, rfl, rfl, by decide⟩, rfl, rfl⟩

example : Savable { rgb32 with bpp := 1, bps := 3, plane := 6, size := 6, format := IL_COLOUR_INDEX, data := [0, 1, 255, 3, 3, 3] } :=
  ⟨⟨rfl, rfl, rfl, rfl⟩, by decide, by decide, by decide, by decide, rfl, rfl, by decide⟩

end DevIL.Pcx

namespace DevIL.Pcx
open DevIL.Lump DevIL.Endian DevIL.Image DevIL.Utility DevIL.Load
open DevIL.Targa (Loaded write_bytes putc_bytes)

/-! ### Violations of C42 -/

theorem open_head {file rest : List UInt8} {x y bps : BitVec 16} {planes : UInt8} (h : file = headBytes x y planes bps rest)
    (hl : file.length < 4294967295) : At (open_ file file.length) (headBytes x y planes bps rest) := by
  have a := at_open (data := file) (by rw [h]; unfold headBytes; simp) hl
  exact ⟨a.1, a.2.trans h⟩

/-- A black 65535x1 RGB image. -/
def wide : Img :=
  { width := 65535, height := 1, depth := 1, bpp := 3, bpc := 1, bps := 196605, plane := 196605, size := 196605, format := IL_RGB,
    type := IL_UNSIGNED_BYTE, origin := IL_ORIGIN_UPPER_LEFT, data := List.replicate 196605 0 }

/-- **C42 is violated for 65535 columns.** The file the library writes for such an image is refused when it is loaded: the padded
row length 65536 does not fit the 16-bit field. -/
theorem C42_violated_wide (big big' : Bool) (junk junk' : Nat → UInt8) (cur : Loaded) :
    wide.Consistent ∧ ∃ ops, iSavePcxInternal big junk (wide, none) none = .ok (some ops) ∧
      ∃ l, iLoadPcxInternal big' junk' cur (open_ (output ops) (output ops).length) = .ok (false, cur, l) := by
  refine ⟨⟨rfl, rfl, rfl, List.length_replicate⟩, ?_⟩
  obtain ⟨rows, f, er, ef, hf⟩ := encRows_spec (m := wide) (t := List.replicate 196605 0) (w := 65535) (h := 1) (bpp := 3) rfl rfl rfl rfl
    (by decide) (by decide) (by decide) (by decide) List.length_replicate (by decide)
  have hd : wide.data = List.replicate 196605 0 := rfl
  have hsave : iSavePcxInternal big junk (wide, none) none = .ok (some (header big wide ++ rows.map .putc ++ [.putc 0xC] ++ [] ++
      List.replicate 768 (.putc 0))) := by
    unfold iSavePcxInternal
    rw [show converts (wide, (none : Option Pal)).1 = false from rfl]
    simp only [Bool.false_eq_true, if_false]
    unfold topDown
    rw [if_neg (show ¬ wide.origin ≠ IL_ORIGIN_UPPER_LEFT by decide), pure_eq_ok, bind_ok, hd, er, bind_ok]
    rfl
  refine ⟨_, hsave, ?_⟩
  have hrl : rows.length ≤ 2 * (3 * 65536) * 1 := by
    rw [ef]
    refine rows_len fun y hy => ?_
    have h1 := (hf y hy).len
    rw [rowDec_length] at h1
    exact h1
  have hout : output (header big wide ++ rows.map .putc ++ [.putc 0xC] ++ [] ++ List.replicate 768 (.putc 0)) =
      headBytes 65534#16 0#16 3 0#16 (rows ++ (12 :: List.replicate 768 0)) := by
    unfold output
    simp only [List.flatMap_append, header_bytes, putc_flat, putc_zero]
    unfold headBytes
    simp only [List.append_assoc, List.cons_append, List.nil_append]
    rfl
  have hl : (output (header big wide ++ rows.map .putc ++ [.putc 0xC] ++ [] ++ List.replicate 768 (.putc 0))).length < 4294967295 := by
    rw [hout]; unfold headBytes
    simp only [List.length_cons, List.length_append, leBytes_length, List.length_replicate]
    omega
  obtain ⟨e, _⟩ := head_spec (big := big') (junk := junk') (open_head hout hl)
  unfold iLoadPcxInternal
  rw [e, bind_ok]
  exact ⟨_, rfl⟩

/-- **C42 is violated for palettes of four-byte entries.** A colour-indexed image with 256 palette entries of red, green, blue and
alpha is saved as a file of more than 4294967040 bytes: the padding is counted from the size of the unconverted palette. -/
theorem C42_violated_palette (big : Bool) (junk : Nat → UInt8) (m : Img) (hm : Savable m) (hf : m.format = IL_COLOUR_INDEX) (hb : m.bpp = 1)
    (p : Pal) (hp : Palette.Has p 256) (ht : p.type = IL_PAL_RGBA32) :
    ∃ ops, iSavePcxInternal big junk (m, some p) none = .ok (some ops) ∧ 4294967040 < (output ops).length := by
  have hfits := hm.fits
  have hw := hm.w
  have hsz : m.size = m.width * m.bpp * m.height := by rw [hm.cons.2.2.1, hm.bpc, hm.d]; simp
  have hle : m.width * m.bpp * m.height ≤ 2 * (m.bpp * (m.width + 1)) * m.height := by
    refine Nat.mul_le_mul_right _ ?_
    rw [Nat.mul_comm m.width, Nat.mul_add]
    omega
  have hbps : m.bps = m.width * m.bpp := by rw [hm.cons.1, hm.bpc, Nat.mul_one]
  obtain ⟨t, et, htl, htp⟩ := fromSide junk hm.cons hm.d hm.bpc (by omega) IL_ORIGIN_UPPER_LEFT
  rw [hsz] at htl
  obtain ⟨rows, f, er, ef, hf'⟩ := encRows_spec (m := m) (t := t) rfl rfl rfl hbps (by omega) (by omega) hm.w0 (by omega) htl (by omega)
  obtain ⟨q, eq, _⟩ := Palette.C29_convert_partial junk p 256 IL_PAL_RGB24 hp (by decide) (by decide)
  have hps : p.size = 1024 := by rw [hp.size, ht]; rfl
  have hcv : converts m = false := by unfold converts; rw [hf, hm.bpc]; decide
  have hpo : palOps junk (m, some p) = .ok (some [.write q.data 1 q.size]) := by
    unfold palOps
    simp only []
    rw [if_pos hf, if_neg (by rw [ht]; decide), if_neg (by omega), eq]
    rfl
  have hsave : iSavePcxInternal big junk (m, some p) none = .ok (some (header big m ++ rows.map .putc ++ [.putc 0xC] ++ [.write q.data 1 q.size] ++
      List.replicate (u32 (768 + 4294967296 - palSize (some p))) (.putc 0))) := by
    unfold iSavePcxInternal
    simp only [hcv, Bool.false_eq_true, if_false]
    unfold topDown
    rw [et, bind_ok, er, bind_ok, hpo, bind_ok]
    rfl
  have hn : u32 (768 + 4294967296 - palSize (some p)) = 4294967040 := by
    show u32 (768 + 4294967296 - p.size) = _
    rw [hps]; rfl
  refine ⟨_, hsave, ?_⟩
  rw [hn]
  unfold output
  rw [List.flatMap_append, List.length_append, putc_zero, List.length_replicate, List.flatMap_append, List.flatMap_append, List.length_append, List.length_append]
  have : ([WOp.putc 12].flatMap WOp.bytes).length = 1 := rfl
  omega

example : Palette.Has ⟨List.replicate 1024 0, 1024, IL_PAL_RGBA32⟩ 256 := ⟨by decide, rfl, List.length_replicate⟩

/-- A 1x1 image of a grey value and an alpha value. -/
def greyAlpha : Img :=
  { width := 1, height := 1, depth := 1, bpp := 2, bpc := 1, bps := 2, plane := 2, size := 2, format := IL_LUMINANCE_ALPHA,
    type := IL_UNSIGNED_BYTE, origin := IL_ORIGIN_UPPER_LEFT, data := [1, 2] }

/-- **C42 is violated for two components.** An image of grey and alpha is saved, but the file is refused when it is loaded. -/
theorem C42_violated_two_components (big big' : Bool) (junk junk' : Nat → UInt8) (cur : Loaded) :
    greyAlpha.Consistent ∧ ∃ ops, iSavePcxInternal big junk (greyAlpha, none) none = .ok (some ops) ∧
      ∃ m l, iLoadPcxInternal big' junk' cur (open_ (output ops) (output ops).length) = .ok (false, m, l) := by
  have er : encRows greyAlpha greyAlpha.data = .ok [1, 0, 2, 0] := by decide
  have hsave : iSavePcxInternal big junk (greyAlpha, none) none = .ok (some (header big greyAlpha ++ ([1, 0, 2, 0] : List UInt8).map .putc ++ [.putc 0xC] ++ [] ++
      List.replicate 768 (.putc 0))) := by
    unfold iSavePcxInternal
    rw [show converts (greyAlpha, (none : Option Pal)).1 = false from rfl]
    simp only [Bool.false_eq_true, if_false]
    unfold topDown
    rw [if_neg (show ¬ greyAlpha.origin ≠ IL_ORIGIN_UPPER_LEFT by decide), pure_eq_ok, bind_ok, er, bind_ok]
    rfl
  refine ⟨⟨rfl, rfl, rfl, rfl⟩, _, hsave, ?_⟩
  have hout : output (header big greyAlpha ++ ([1, 0, 2, 0] : List UInt8).map .putc ++ [.putc 0xC] ++ [] ++ List.replicate 768 (.putc 0)) =
      headBytes 0#16 0#16 2 2#16 ([1, 0, 2, 0] ++ (12 :: List.replicate 768 0)) := by
    unfold output
    simp only [List.flatMap_append, header_bytes, putc_flat, putc_zero]
    unfold headBytes
    simp only [List.append_assoc, List.cons_append, List.nil_append]
    rfl
  have hl : (output (header big greyAlpha ++ ([1, 0, 2, 0] : List UInt8).map .putc ++ [.putc 0xC] ++ [] ++ List.replicate 768 (.putc 0))).length < 4294967295 := by
    rw [hout]; unfold headBytes
    simp only [List.length_cons, List.length_append, leBytes_length, List.length_replicate, List.length_nil]
    decide
  obtain ⟨e, _⟩ := head_spec (big := big') (junk := junk') (open_head hout hl)
  unfold iLoadPcxInternal
  rw [e, bind_ok]
  exact ⟨_, _, rfl⟩

end DevIL.Pcx

namespace DevIL.Pcx
open DevIL.Lump DevIL.Endian DevIL.Image DevIL.Utility DevIL.Load
open DevIL.Targa (Loaded)

/-! ## C43 -/

theorem holds_readByte {l : R} (h : Good l) :
    Holds (readByte l) fun r => Good r.2 ∧ r.2.size = l.size ∧ (r.1 ≠ none → l.pos < r.2.pos) := by
  unfold readByte
  rw [read_spec h, bind_ok]
  refine Holds.pure ⟨h.read_good 1 1, rfl, fun hn => ?_⟩
  show l.pos < l.pos + avail l 1 1
  by_cases h0 : avail l 1 1 = 0
  · exfalso
    apply hn
    simp [h0]
  · omega

theorem lineStep_safe {size N : Nat} {s : S} (hg : Good s.inp) (hN : s.inp.size = N) (hl : s.line.length = size) (hx : s.x < size) :
    Holds (lineStep size s) fun t => (Good t.inp ∧ t.inp.size = N ∧ t.line.length = size ∧ t.x ≤ size) ∧
      (t.failed = false → s.inp.pos < t.inp.pos) := by
  unfold lineStep
  refine (holds_readByte hg).bind fun r hr => ?_
  obtain ⟨b, l⟩ := r
  simp only [] at hr ⊢
  cases b with
  | none => exact Holds.pure ⟨⟨hr.1, by rw [hr.2.1, hN], hl, by show s.x ≤ size; omega⟩, fun h => nomatch h⟩
  | some b =>
    simp only []
    have hp1 := hr.2.2 (by simp)
    refine Holds.ite (fun _ => ?_) (fun _ => ?_)
    · refine (holds_readByte hr.1).bind fun r2 hr2 => ?_
      obtain ⟨c, l2⟩ := r2
      simp only [] at hr2 ⊢
      cases c with
      | none => exact Holds.pure ⟨⟨hr2.1, by rw [hr2.2.1, hr.2.1, hN], hl, by show s.x ≤ size; omega⟩, fun h => nomatch h⟩
      | some c =>
        simp only []
        have hp2 := hr2.2.2 (by simp)
        refine Holds.ite (fun _ => Holds.pure ⟨⟨hr2.1, by rw [hr2.2.1, hr.2.1, hN], hl, by show s.x ≤ size; omega⟩, fun h => nomatch h⟩) (fun hle => ?_)
        rw [fill_splice (by omega), bind_ok]
        exact Holds.pure ⟨⟨hr2.1, by rw [hr2.2.1, hr.2.1, hN], by rw [splice_length (by simp; omega)]; exact hl, by show s.x + _ ≤ size; omega⟩,
          fun _ => by show s.inp.pos < l2.pos; omega⟩
    · rw [wr_splice (by omega), bind_ok]
      exact Holds.pure ⟨⟨hr.1, by rw [hr.2.1, hN], by rw [splice_length (by simp; omega)]; exact hl, by show s.x + 1 ≤ size; omega⟩,
        fun _ => hp1⟩

theorem readLine_safe {size : Nat} {line : List UInt8} {l : R} (hg : Good l) (hl : line.length = size) :
    Holds (readLine size line l) fun t => Good t.inp ∧ t.line.length = size := by
  unfold readLine
  refine (Holds.while (fun s : S => Good s.inp ∧ s.inp.size = l.size ∧ s.line.length = size)
    (fun s : S => if s.failed then 0 else s.inp.size + 1 - s.inp.pos) ?_ (l.size + 2) _ ⟨hg, rfl, hl⟩ ?_).mono fun t ht => ⟨ht.1.1, ht.1.2.2⟩
  · rintro s ⟨h1, h2, h3⟩ hc
    simp only [Bool.and_eq_true, Bool.not_eq_true', decide_eq_true_eq] at hc
    refine (lineStep_safe h1 h2 h3 hc.2).mono fun t ht => ⟨⟨ht.1.1, ht.1.2.1, ht.1.2.2.1⟩, ?_⟩
    rw [hc.1]
    have hp := h1.pos
    have hp' := ht.1.1.pos
    have hs := ht.1.2.1
    by_cases hf : t.failed = true
    · simp only [hf, if_true, Bool.false_eq_true, if_false]; omega
    · have := ht.2 (by simpa using hf)
      simp only [hf, Bool.false_eq_true, if_false]; omega
  · simp only [Bool.false_eq_true, if_false]; omega

theorem spread_safe {m : Img} {line d : List UInt8} {w bpp hbps y n : Nat} (hw : m.width = w) (hp : m.bpp = bpp) (hb : m.bps = w * bpp)
    (hline : line.length = bpp * hbps) (hwb : w ≤ hbps) (hy : w * bpp * y + w * bpp ≤ n) (hn : n ≤ 4294967296) (hd : d.length = n) :
    Holds (spread m hbps line y d) fun d' => d'.length = n := by
  obtain ⟨d', e, hl, _⟩ := spread_spec hw hp hb hline hwb hy hn hd
  exact ⟨d', e, hl⟩

theorem readLines_safe {m : Img} {line : List UInt8} {w h bpp hbps : Nat} {l : R}
    (hw : m.width = w) (hh : m.height = h) (hp : m.bpp = bpp) (hb : m.bps = w * bpp) (hfit : w * bpp * h < 4294967296)
    (hd : m.data.length = w * bpp * h) (hwb : w ≤ hbps) (hline : line.length = bpp * hbps) (hg : Good l) :
    Holds (readLines m hbps line l) fun p => p.data.length = w * bpp * h ∧ Good p.inp := by
  unfold readLines
  rw [hh]
  refine (Holds.loop (fun _ (p : P) => p.data.length = w * bpp * h ∧ p.line.length = bpp * hbps ∧ Good p.inp) ⟨hd, hline, hg⟩ ?_).mono
    fun p hp => ⟨hp.1, hp.2.2⟩
  rintro k ⟨pd, pl, pi, pf⟩ hk ⟨h1, h2, h3⟩
  simp only [] at h1 h2 h3 ⊢
  refine Holds.ite (fun _ => Holds.pure ⟨h1, h2, h3⟩) (fun _ => ?_)
  rw [hp]
  refine (readLine_safe h3 h2).bind fun s hs => ?_
  refine Holds.ite (fun _ => Holds.pure ⟨h1, hs.2, hs.1⟩) (fun _ => ?_)
  have hrow : w * bpp * k + w * bpp ≤ w * bpp * h := by rw [← Nat.mul_succ]; exact Nat.mul_le_mul_left _ hk
  exact (spread_safe hw hp hb hs.2 hwb hrow (by omega) h1).bind fun d hd => Holds.pure ⟨hd, hs.2, hs.1⟩

theorem putBits_safe {b on : UInt8} {base stop n : Nat} {s : Nat × List UInt8} (hd : s.2.length = n) (hb : base + stop ≤ n)
    (hn : n ≤ 4294967296) : Holds (putBits b on base stop s) fun t => t.2.length = n := by
  unfold putBits
  refine Holds.loop (fun _ (t : Nat × List UInt8) => t.2.length = n) hd ?_
  rintro k ⟨i, d⟩ hk h
  simp only [] at h ⊢
  refine Holds.ite (fun hi => ?_) (fun _ => Holds.pure h)
  rw [u32_of_lt (by omega)]
  exact (Holds.wr (by omega)).bind fun d' hd' => Holds.pure (by show d'.length = n; rw [hd'.1, h])

theorem smallStep_safe {on : UInt8} {base stop n N : Nat} {s : S} (hg : Good s.inp) (hN : s.inp.size = N) (hl : s.line.length = n)
    (hb : base + stop ≤ n) (hn : n ≤ 4294967296) :
    Holds (smallStep on base stop s) fun t => (Good t.inp ∧ t.inp.size = N ∧ t.line.length = n) ∧ (t.failed = false → s.inp.pos < t.inp.pos) := by
  unfold smallStep
  refine (holds_readByte hg).bind fun r hr => ?_
  obtain ⟨b, l⟩ := r
  simp only [] at hr ⊢
  cases b with
  | none => exact Holds.pure ⟨⟨hr.1, by rw [hr.2.1, hN], hl⟩, fun h => nomatch h⟩
  | some b =>
    simp only []
    have hp1 := hr.2.2 (by simp)
    refine Holds.ite (fun _ => ?_) (fun _ => ?_)
    · refine (holds_readByte hr.1).bind fun r2 hr2 => ?_
      obtain ⟨c, l2⟩ := r2
      simp only [] at hr2 ⊢
      cases c with
      | none => exact Holds.pure ⟨⟨hr2.1, by rw [hr2.2.1, hr.2.1, hN], hl⟩, fun h => nomatch h⟩
      | some c =>
        simp only []
        have hp2 := hr2.2.2 (by simp)
        refine (Holds.loop (n := b.toNat - 192) (f := fun _ t => putBits c on base stop t)
          (fun _ (t : Nat × List UInt8) => t.2.length = n) (s := (s.x, s.line)) hl
          (fun k t _ ht => putBits_safe ht hb hn)).bind fun t ht => ?_
        exact Holds.pure ⟨⟨hr2.1, by rw [hr2.2.1, hr.2.1, hN], ht⟩, fun _ => by show s.inp.pos < l2.pos; omega⟩
    · exact (putBits_safe (s := (s.x, s.line)) hl hb hn).bind fun t ht => Holds.pure ⟨⟨hr.1, by rw [hr.2.1, hN], ht⟩, fun _ => hp1⟩

theorem readBits_safe {on : UInt8} {base stop n : Nat} {d : List UInt8} {l : R} (hg : Good l) (hd : d.length = n)
    (hb : base + stop ≤ n) (hn : n ≤ 4294967296) :
    Holds (readBits on base stop d l) fun t => Good t.inp ∧ t.line.length = n := by
  unfold readBits
  refine (Holds.while (fun s : S => Good s.inp ∧ s.inp.size = l.size ∧ s.line.length = n)
    (fun s : S => if s.failed then 0 else s.inp.size + 1 - s.inp.pos) ?_ (l.size + 2) _ ⟨hg, rfl, hd⟩ ?_).mono fun t ht => ⟨ht.1.1, ht.1.2.2⟩
  · rintro s ⟨h1, h2, h3⟩ hc
    simp only [Bool.and_eq_true, Bool.not_eq_true', decide_eq_true_eq] at hc
    refine (smallStep_safe h1 h2 h3 hb hn).mono fun t ht => ⟨ht.1, ?_⟩
    rw [hc.1]
    have hp := h1.pos
    have hp' := ht.1.1.pos
    have hs := ht.1.2.1
    by_cases hf : t.failed = true
    · simp only [hf, if_true, Bool.false_eq_true, if_false]; omega
    · have := ht.2 (by simpa using hf)
      simp only [hf, Bool.false_eq_true, if_false]; omega
  · simp only [Bool.false_eq_true, if_false]; omega

theorem holds_getc {l : R} (h : Good l) : Holds (getc l) fun r => Good r.2 := by
  by_cases hp : l.pos < l.size
  · obtain ⟨b, _, e⟩ := getc_spec h hp
    exact ⟨_, e, ⟨h.size, hp, h.lt, h.ne⟩⟩
  · have := h.pos
    exact ⟨_, getc_end h (by omega), ⟨h.size, Nat.sub_le _ _, h.lt, h.ne⟩⟩

theorem readMono_safe {m : Img} {w h : Nat} {l : R} (hw : m.width = w) (hh : m.height = h) (hfit : w * h < 4294967296)
    (hd : m.data.length = w * h) (hg : Good l) : Holds (readMono m l) fun p => p.data.length = w * h ∧ Good p.inp := by
  unfold readMono
  rw [hh, hw]
  refine Holds.loop (fun _ (p : P) => p.data.length = w * h ∧ Good p.inp) ⟨hd, hg⟩ ?_
  rintro k ⟨pd, pl, pi, pf⟩ hk ⟨h1, h3⟩
  simp only [] at h1 h3 ⊢
  refine Holds.ite (fun _ => Holds.pure ⟨h1, h3⟩) (fun _ => ?_)
  have hrow : k * w + w ≤ w * h := by rw [← Nat.succ_mul, Nat.mul_comm w]; exact Nat.mul_le_mul_right _ hk
  have hu : u32 (k * w) ≤ k * w := Nat.mod_le _ _
  refine (readBits_safe h3 h1 (by omega) (by omega)).bind fun s hs => ?_
  refine Holds.ite (fun _ => Holds.pure ⟨hs.2, hs.1⟩) (fun _ => ?_)
  refine Holds.ite (fun _ => ?_) (fun _ => Holds.pure ⟨hs.2, hs.1⟩)
  exact (holds_getc hs.1).bind fun r hr => Holds.pure ⟨hs.2, hr⟩

theorem spread4_safe {m : Img} {line d : List UInt8} {w hbps y n : Nat} (hw : m.width = w)
    (hline : line.length = hbps * 4 * 8) (hwb : w ≤ hbps * 8) (hy : y * w + w ≤ n) (hn : n ≤ 4294967296) (hd : d.length = n) :
    Holds (spread4 m hbps line y d) fun d' => d'.length = n := by
  unfold spread4
  rw [hw]
  refine Holds.loop (fun _ (d : List UInt8) => d.length = n) hd fun x d hx h => ?_
  refine Holds.loop (fun _ (d : List UInt8) => d.length = n) h fun c d hc h => ?_
  rw [u32_of_lt (by omega)]
  have hi : x + c * (hbps * 8) < line.length := by
    rw [hline]
    have := idx_lt (k := hbps * 8) hc (show x < hbps * 8 by omega)
    omega
  refine (Holds.rd hi).bind fun v _ => (Holds.rd (by omega)).bind fun o _ => ?_
  exact (Holds.wr (by omega)).mono fun d' hd' => by rw [hd'.1, h]

theorem readFour_safe {m : Img} {line : List UInt8} {w h hbps : Nat} {l : R} (hw : m.width = w) (hh : m.height = h) (hfit : w * h < 4294967296)
    (hb : hbps < 65536) (hwb : w ≤ hbps * 8) (hline : line.length = hbps * 4 * 8)
    (hd : m.data.length = w * h) (hg : Good l) : Holds (readFour m hbps line l) fun p => p.data.length = w * h ∧ Good p.inp := by
  unfold readFour
  rw [hh]
  refine (Holds.loop (fun _ (p : P) => p.data.length = w * h ∧ p.line.length = hbps * 4 * 8 ∧ Good p.inp) ⟨by simpa using hd, hline, hg⟩ ?_).mono
    fun p hp => ⟨hp.1, hp.2.2⟩
  rintro k ⟨pd, pl, pi, pf⟩ hk ⟨h1, h2, h3⟩
  simp only [] at h1 h2 h3 ⊢
  refine Holds.ite (fun _ => Holds.pure ⟨h1, h2, h3⟩) (fun _ => ?_)
  refine (readBits_safe h3 h2 (by omega) (by omega)).bind fun s hs => ?_
  refine Holds.ite (fun _ => Holds.pure ⟨h1, hs.2, hs.1⟩) (fun _ => ?_)
  have hrow : k * w + w ≤ w * h := by rw [← Nat.succ_mul, Nat.mul_comm w]; exact Nat.mul_le_mul_right _ hk
  exact (spread4_safe hw hs.2 hwb hrow (by omega) h1).bind fun d hd => Holds.pure ⟨hd, hs.2, hs.1⟩

/-- What a header must satisfy for loading to be safe: the announced image has at least one column and row and fits 32 bits, and four
planes of one bit have rows long enough for the announced width. -/
structure Sane (h : Head) : Prop where
  x : h.xmin ≤ h.xmax
  y : h.ymin ≤ h.ymax
  fits : (h.xmax - h.xmin + 1) * max h.numPlanes 1 * (h.ymax - h.ymin + 1) < 4294967296
  rows : h.bpp = 1 → h.numPlanes = 4 → h.xmax - h.xmin + 1 ≤ 8 * h.bps

/-- An image and its palette own blocks of exactly the sizes they report. -/
def Whole (m : Loaded) : Prop := m.1.Consistent ∧ ∀ p, m.2 = some p → p.data.length = p.size

theorem head_safe {big : Bool} {junk : Nat → UInt8} {l : R} (hg : Good l) :
    Holds (iGetPcxHead big junk l) fun r => Good r.2 ∧ r.1.xmin < 65536 ∧ r.1.xmax < 65536 ∧ r.1.ymin < 65536 ∧ r.1.ymax < 65536 ∧ r.1.bps < 65536 ∧
      r.1.colMap.length = 48 := by
  unfold iGetPcxHead
  refine (holds_getb hg).bind fun r1 h1 => ?_
  refine (holds_getb h1.1).bind fun r2 h2 => ?_
  refine (holds_getb h2.1).bind fun r3 h3 => ?_
  refine (holds_getb h3.1).bind fun r4 h4 => ?_
  refine (holds_getLittleUShort h4.1).bind fun r5 h5 => ?_
  refine (holds_getLittleUShort h5.1).bind fun r6 h6 => ?_
  refine (holds_getLittleUShort h6.1).bind fun r7 h7 => ?_
  refine (holds_getLittleUShort h7.1).bind fun r8 h8 => ?_
  refine (holds_getLittleUShort h8.1).bind fun r9 h9 => ?_
  refine (holds_getLittleUShort h9.1).bind fun r10 h10 => ?_
  refine (holds_readAt (dst := alloc junk 48) (off := 0) (size := 1) (number := 48) h10.1 (by simp [u32])).bind fun r11 h11 => ?_
  refine (holds_getb h11.1).bind fun r12 h12 => ?_
  refine (holds_getb h12.1).bind fun r13 h13 => ?_
  refine (holds_getLittleUShort h13.1).bind fun r14 h14 => ?_
  refine (holds_getLittleUShort h14.1).bind fun r15 h15 => ?_
  refine (holds_getLittleUShort h15.1).bind fun r16 h16 => ?_
  refine (holds_getLittleUShort h16.1).bind fun r17 h17 => ?_
  refine (holds_readAt (dst := alloc junk 54) (off := 0) (size := 1) (number := 54) h17.1 (by simp [u32])).bind fun r18 h18 => ?_
  exact Holds.pure ⟨h18.1, r5.1.isLt, r7.1.isLt, r6.1.isLt, r8.1.isLt, r14.1.isLt, by rw [h11.2.2]; simp⟩

theorem finish_safe {h : Head} {m : Img} {pal : Option Pal} {l : R} (hg : Good l) (hw : Whole (m, pal)) (hp : ∀ p, pal = some p → p.size = 768) :
    Holds (finish h m pal l) fun r => Whole r.2.1 := by
  unfold finish
  refine Holds.ite (fun _ => ?_) (fun _ => Holds.pure hw)
  cases pal with
  | none => exact Holds.pure hw
  | some p =>
    simp only []
    unfold readPal
    refine (holds_readByte hg).bind fun r hr => ?_
    obtain ⟨b, l1⟩ := r
    simp only [] at hr ⊢
    cases b with
    | none => exact Holds.pure ⟨⟨hw.1.1, hw.1.2.1, hw.1.2.2.1, hw.1.2.2.2⟩, fun _ h => nomatch h⟩
    | some b =>
      simp only []
      have hs : Holds (skipMark b l1) fun r => Good r.2 := by
        unfold skipMark
        refine Holds.ite (fun _ => ?_) (fun _ => Holds.pure hr.1)
        obtain ⟨r, l', e, g⟩ := seek_ok (off := -1) (mode := SEEK_CUR) hr.1 (by decide) (by decide)
        exact ⟨_, e, g⟩
      refine hs.bind fun r2 h2 => ?_
      have hps := hp p rfl
      have hpl := hw.2 p rfl
      refine (holds_readAt (dst := p.data) (off := 0) (size := 1) (number := p.size) h2 (by rw [hps]; simp [u32]; omega)).bind fun r3 h3 => ?_
      refine Holds.pure ⟨hw.1, fun q hq => ?_⟩
      cases hq
      exact h3.2.2.trans hpl

theorem fresh_pal (junk : Nat → UInt8) (n t : Nat) :
    (Pal.mk (alloc junk n) n t).data.length = (Pal.mk (alloc junk n) n t).size ∧ (Pal.mk (alloc junk n) n t).size = n :=
  ⟨alloc_length _ _, rfl⟩

/-- **C43.** Loading any non-empty byte string as PCX over any image terminates without touching memory outside the file, the scan line,
the image or its palette, and leaves an image and a palette that own blocks of the sizes they report, provided the header the file starts
with is `Sane`.  Missing, and false: other headers, see below. -/
theorem C43_safe_partial (big : Bool) (junk : Nat → UInt8) (cur : Loaded) (hcur : Whole cur) (file : List UInt8)
    (h0 : 0 < file.length) (hlt : file.length < 4294967295)
    (hs : ∀ h l, iGetPcxHead big junk (open_ file file.length) = .ok (h, l) → Sane h) :
    ∃ ok m l, iLoadPcxInternal big junk cur (open_ file file.length) = .ok (ok, m, l) ∧ Whole m := by
  have hg := (at_open h0 hlt).1
  suffices H : Holds (iLoadPcxInternal big junk cur (open_ file file.length)) fun r => Whole r.2.1 by
    obtain ⟨⟨ok, m, l⟩, e, h⟩ := H
    exact ⟨ok, m, l, e, h⟩
  unfold iLoadPcxInternal
  obtain ⟨⟨h, l⟩, e, g1, b1, b2, b3, b4, b5, b6⟩ := head_safe (big := big) (junk := junk) hg
  have hh := hs h l e
  simp only [] at g1 b1 b2 b3 b4 b5 b6
  rw [e, bind_ok]
  simp only []
  refine Holds.ite (fun _ => Holds.pure hcur) (fun hchk => ?_)
  have hx := hh.x
  have hy := hh.y
  have hfit := hh.fits
  have hew : extent h.xmin h.xmax = h.xmax - h.xmin + 1 := by unfold extent ofInt; omega
  have heh : extent h.ymin h.ymax = h.ymax - h.ymin + 1 := by unfold extent ofInt; omega
  have hchk' : iCheckPcx h = true := by simpa using hchk
  unfold iUncompressPcx
  refine Holds.ite (fun hb8 => ?_) (fun hb8 => ?_)
  · -- one bit per pixel
    unfold iUncompressSmall
    rw [hew, heh]
    generalize hw : h.xmax - h.xmin + 1 = w at *
    generalize hht : h.ymax - h.ymin + 1 = ht at *
    have hfit1 : w * 1 * ht < 4294967296 := by
      refine Nat.lt_of_le_of_lt ?_ hfit
      exact Nat.mul_le_mul_right _ (Nat.mul_le_mul_left _ (Nat.le_max_right _ _))
    obtain ⟨m, em, c, f1, f2, f3, f4, f5, f6, f7, f8, f9, f10⟩ := init8 junk (bpp := 1) 0 (by omega : 0 < w) (by omega : 0 < ht) hfit1
    rw [Nat.mul_one] at f8 f9 f10 hfit1
    rw [em, bind_ok]
    simp only []
    refine Holds.ite (fun h1 => ?_) (fun h1 => Holds.ite (fun h4 => ?_) (fun _ => ?_))
    · refine Holds.ite (fun _ => ?_) (fun _ => Holds.pure ⟨⟨c.1, c.2.1, c.2.2.1, c.2.2.2⟩, fun _ h => nomatch h⟩)
      refine (readMono_safe (m := { m with origin := IL_ORIGIN_UPPER_LEFT, format := IL_LUMINANCE }) f1 f2 hfit1 f10 g1).bind fun p hp => ?_
      exact Holds.pure ⟨⟨c.1, c.2.1, c.2.2.1, by rw [f9]; exact hp.1⟩, fun _ h => nomatch h⟩
    · refine Holds.ite (fun hb1 => ?_) (fun _ => Holds.pure ⟨⟨c.1, c.2.1, c.2.2.1, c.2.2.2⟩, fun _ h => nomatch h⟩)
      have hrow := hh.rows hb1 h4
      rw [hw] at hrow
      refine (readFour_safe (m := { m with origin := IL_ORIGIN_UPPER_LEFT, format := IL_COLOUR_INDEX }) f1 f2 hfit1 b5 (by omega) (by simp) f10 g1).bind fun p hp => ?_
      exact Holds.pure ⟨⟨c.1, c.2.1, c.2.2.1, by rw [f9]; exact hp.1⟩, fun q hq => by cases hq; exact b6⟩
    · exact Holds.pure ⟨⟨c.1, c.2.1, c.2.2.1, c.2.2.2⟩, fun _ h => nomatch h⟩
  · -- whole bytes
    unfold iUncompress8
    rw [hew, heh]
    have hbps : h.xmax - h.xmin + 1 ≤ h.bps := by
      unfold iCheckPcx at hchk'
      rw [hew] at hchk'
      split at hchk'
      · cases hchk'
      split at hchk'
      · cases hchk'
      simp only [] at hchk'
      rw [if_pos (by omega)] at hchk'
      split at hchk'
      · rw [u32_of_lt (by omega)] at hchk'
        simp only [decide_eq_true_eq] at hchk'
        omega
      · simp only [decide_eq_true_eq] at hchk'
        omega
    have hfit : (h.xmax - h.xmin + 1) * h.numPlanes * (h.ymax - h.ymin + 1) < 4294967296 :=
      Nat.lt_of_le_of_lt (Nat.mul_le_mul_right _ (Nat.mul_le_mul_left _ (Nat.le_max_left _ _))) hfit
    obtain ⟨m, em, c, f1, f2, f3, f4, f5, f6, f7, f8, f9, f10⟩ := init8 junk (bpp := h.numPlanes) 0 (by omega : 0 < h.xmax - h.xmin + 1)
      (by omega : 0 < h.ymax - h.ymin + 1) hfit
    rw [em, bind_ok]
    dsimp only
    cases hpf : planeFormat m.bpp with
    | none => exact Holds.pure ⟨⟨c.1, c.2.1, c.2.2.1, c.2.2.2⟩, fun _ h => nomatch h⟩
    | some f =>
      simp only []
      have hpp : ∀ p, planePal junk m.bpp = some p → p.data.length = p.size ∧ p.size = 768 := by
        intro p hp
        unfold planePal at hp
        split at hp
        · obtain rfl := Option.some.inj hp; exact fresh_pal junk 768 IL_PAL_RGB24
        · cases hp
      refine (readLines_safe (m := { m with origin := IL_ORIGIN_UPPER_LEFT, format := f }) (line := alloc junk (m.bpp * h.bps)) f1 f2 f4 f8 hfit f10 hbps
        (by simp [f4]) g1).bind fun p hp => ?_
      have hcons : Img.Consistent { m with origin := IL_ORIGIN_UPPER_LEFT, format := f, data := p.data } := ⟨c.1, c.2.1, c.2.2.1, by rw [f9]; exact hp.1⟩
      refine Holds.ite (fun _ => Holds.pure ⟨hcons, fun q hq => (hpp q hq).1⟩) (fun _ => ?_)
      exact finish_safe hp.2 ⟨hcons, fun q hq => (hpp q hq).1⟩ fun q hq => (hpp q hq).2

/-- A PCX file: the fields of the header that matter here, and what follows the header. -/
def pcx (bpp xmin ymin xmax ymax planes bps : UInt8) (rest : List UInt8) : List UInt8 :=
  [10, 5, 1, bpp, xmin, 0, ymin, 0, xmax, 0, ymax, 0, 0, 0, 0, 0] ++ List.replicate 48 0 ++ [0, planes, bps, 0, 0, 0, 0, 0, 0, 0] ++
    List.replicate 54 0 ++ rest

set_option maxRecDepth 20000 in
/-- A file of two rows of three pixels with a broken second row: it is rejected without harm. -/
example : (∀ h l, iGetPcxHead false (fun _ => 7) (open_ (pcx 8 0 0 2 1 1 4 [1, 2, 3, 4, 255, 9]) 134) = .ok (h, l) → Sane h) ∧
    (iLoadPcxInternal false (fun _ => 7) (⟨0, 0, 1, 1, 1, 1, 1, 1, 1, 1, 1, [0]⟩, none) (open_ (pcx 8 0 0 2 1 1 4 [1, 2, 3, 4, 255, 9]) 134)).map
      (fun r => (r.1, r.2.1.1.data)) = .ok (false, [1, 2, 3, 7, 7, 7]) := by
  refine ⟨fun h l e => ?_, by rfl⟩
  have e' : iGetPcxHead false (fun _ => 7) (open_ (pcx 8 0 0 2 1 1 4 [1, 2, 3, 4, 255, 9]) 134) =
    .ok (⟨10, 5, 1, 8, 0, 0, 2, 1, 0, List.replicate 48 0, 1, 4⟩, ⟨pcx 8 0 0 2 1 1 4 [1, 2, 3, 4, 255, 9], 134, 128⟩) := by rfl
  rw [e'] at e
  cases e
  exact ⟨by decide, by decide, by decide, by decide⟩

set_option maxRecDepth 20000 in
/-- **C43 (violated).** A header whose last column precedes its first by one announces no columns and no bytes per row.  The image gets one
column all the same, and is filled from an empty scan line. -/
theorem C43_violated_empty (cur : Loaded) :
    iLoadPcxInternal false (fun _ => 0) cur (open_ (pcx 8 1 0 0 0 1 0 []) 128) = .error .oobRead := by rfl

set_option maxRecDepth 20000 in
/-- **C43 (violated).** Four planes of one bit with rows of one byte for an image of nine columns: the ninth column is taken from outside the
scan line. -/
theorem C43_violated_planes (cur : Loaded) :
    iLoadPcxInternal false (fun _ => 0) cur (open_ (pcx 1 0 0 8 0 4 1 [1, 2, 3, 4]) 132) = .error .oobRead := by rfl

set_option maxRecDepth 20000 in
/-- **C43 (violated).** A header whose last row and column precede its first by two announces 4294967295 rows and columns; the size of the block
wraps to one byte, and the second pixel is stored outside it. -/
theorem C43_violated_wrap (cur : Loaded) :
    iLoadPcxInternal false (fun _ => 0) cur (open_ (pcx 1 2 2 0 0 1 0 [1]) 129) = .error .oobWrite := by rfl

set_option maxRecDepth 20000 in
/-- **C83 (violated).** Two loads of the same one-pixel file of version 0 both succeed, with different palettes: the palette of the current
image is left as it was allocated. -/
theorem C83_violated_pcx (cur : Loaded) :
    (iLoadPcxInternal false (fun _ => 1) cur (open_ ((pcx 8 0 0 0 0 1 2 [3, 0]).set 1 0) 130)).map (fun r => (r.1, r.2.1.2)) =
      .ok (true, some ⟨List.replicate 768 1, 768, IL_PAL_RGB24⟩) ∧
    (iLoadPcxInternal false (fun _ => 2) cur (open_ ((pcx 8 0 0 0 0 1 2 [3, 0]).set 1 0) 130)).map (fun r => (r.1, r.2.1.2)) =
      .ok (true, some ⟨List.replicate 768 2, 768, IL_PAL_RGB24⟩) := by
  constructor <;> rfl

end DevIL.Pcx
