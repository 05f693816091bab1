import Verif.Props.TargaLoad
import Verif.Props.Channels
import Verif.Props.Manip
/-! C39: Targa save and load.  C35 for Targa. -/
set_option autoImplicit false
namespace DevIL.Targa
open DevIL.Lump DevIL.Endian DevIL.Image DevIL.Utility DevIL.Channels

/-! ## Specification -/

/-- Where the pixel of a format keeps its red (0), green (1), blue (2) or alpha (3) value, or the grey value (0). -/
def slot (format c : Nat) : Nat := if format = IL_BGR ∨ format = IL_BGRA then swap02 c else c

/-- An image of unsigned bytes, one slice, in one of the formats the Targa saver writes without a palette. -/
structure Savable (m : Img) : Prop where
  cons : m.Consistent
  w0 : 0 < m.width
  h0 : 0 < m.height
  w : m.width < 65536
  h : m.height < 65536
  d : m.depth = 1
  bpc : m.bpc = 1
  type : m.type = IL_UNSIGNED_BYTE
  fmt : ((m.format = IL_RGB ∨ m.format = IL_BGR) ∧ m.bpp = 3) ∨ ((m.format = IL_RGBA ∨ m.format = IL_BGRA) ∧ m.bpp = 4) ∨
    (m.format = IL_LUMINANCE ∧ m.bpp = 1)
  fits : m.width * m.height * 4 + 2048 ≤ 4294967296

/-- The texts the library state can hold and the six numbers of a date. -/
structure EnvOk (env : SaveEnv) : Prop where
  id : env.id.length < 256
  author : env.author.length ≤ 40
  comment : env.comment.length ≤ 80
  now : env.now.length = 6

/-- Two images of the same dimensions and the same kind of pixel. -/
def SameKind (m m' : Img) : Prop :=
  m'.width = m.width ∧ m'.height = m.height ∧ m'.depth = m.depth ∧ m'.bpp = m.bpp ∧ m'.bpc = m.bpc ∧ m'.type = m.type ∧
    (m'.format = m.format ∨ Reordered m.format m'.format)

/-! ## The file -/

theorem write_bytes (b : List UInt8) (s n : Nat) : (WOp.write b s n).bytes = b.take (s * n) := rfl
theorem putc_bytes (b : UInt8) : (WOp.putc b).bytes = [b] := rfl

theorem trailer_len (big : Bool) (env : SaveEnv) (h : EnvOk env) (off : Nat) : ((trailer big env off).flatMap WOp.bytes).length = 533 := by
  have hs : ∀ v, (short big v).bytes.length = 2 := fun v => by simp [short, WOp.bytes, saveLittleUShort_eq]
  have hi : ∀ v, (int big v).bytes.length = 4 := fun v => by simp [int, WOp.bytes, saveLittleUInt_eq]
  have hp : ∀ n, ((pad n).flatMap WOp.bytes).length = n := fun n => by
    unfold pad
    rw [List.length_flatMap]
    simp [WOp.bytes]
  have hm : ((env.now.map (short big)).flatMap WOp.bytes).length = 12 := by
    rw [List.length_flatMap, List.map_map]
    have : (List.length ∘ WOp.bytes) ∘ short big = fun _ => 2 := funext hs
    have e : List.map ((fun a => a.bytes.length) ∘ short big) env.now = List.replicate 6 2 := by
      rw [← h.now]; clear h
      induction env.now with
      | nil => rfl
      | cons a t ih => simp only [List.map_cons, List.length_cons, List.replicate_succ, ih, Function.comp, hs]
    rw [e]; rfl
  have ha := h.author
  have hc := h.comment
  unfold trailer
  simp only [List.flatMap_append, List.length_append, hp, hm, List.flatMap_cons, List.flatMap_nil, hs, hi, List.replicate, List.append_nil,
    write_bytes, putc_bytes, List.length_take, List.length_nil, List.length_cons]
  have : idString.length = 33 := by decide
  have : footer.length = 18 := by decide
  omega

/-- The bytes of an uncompressed file without a palette. -/
theorem front_bytes (big : Bool) (env : SaveEnv) (he : EnvOk env) (m : Img) (type : UInt8) (t : List UInt8) (ht : t.length = m.size) :
    (header big env m false type 0 0 ++ [] ++ [WOp.write t 1 m.size]).flatMap WOp.bytes =
      headBytes (UInt8.ofNat env.id.length) 0 type 0 0 0 0 0 (BitVec.ofNat 16 m.width) (BitVec.ofNat 16 m.height) (UInt8.ofNat (m.bpp * 8))
        ((if m.bpp > 3 then 8 else 0) ||| (if m.origin = IL_ORIGIN_UPPER_LEFT then 0x20 else 0)) (env.id ++ t) := by
  have h1 : List.take (1 * (env.id.length % 256)) env.id = env.id := by
    rw [Nat.mod_eq_of_lt he.id, Nat.one_mul, List.take_length]
  have h2 : List.take (1 * m.size) t = t := by rw [Nat.one_mul, ← ht, List.take_length]
  have h3 : ∀ v, (short big v).bytes = leBytes 2 v.toNat := fun v => by
    unfold short
    rw [write_bytes, saveLittleUShort_eq, List.take_of_length_le (by simp)]
  unfold header headBytes
  simp only [List.append_nil, List.flatMap_append, List.flatMap_cons, List.flatMap_nil, h3, write_bytes, h1, h2, List.append_assoc]
  rfl

/-! ## Loading it -/

theorem bpp_byte {n : Nat} (h : n = 1 ∨ n = 3 ∨ n = 4) : (UInt8.ofNat (n * 8)).toNat = n * 8 := by
  rcases h with h | h | h <;> subst h <;> rfl

theorem load_spec {big : Bool} {junk : Nat → UInt8} {cur : Loaded} {l : R} {id : List UInt8} {type desc : UInt8} {w h n : Nat} {t rest : List UInt8}
    (hid : id.length < 256) (hw0 : 0 < w) (hh0 : 0 < h) (hw : w < 65536) (hh : h < 65536)
    (hn : (n = 1 ∧ type = 3) ∨ ((n = 3 ∨ n = 4) ∧ type = 2)) (hdesc : desc.toNat &&& 0x10 = 0) (ht : t.length = w * h * n)
    (hfit : w * h * 4 + 512 ≤ 4294967296)
    (a : At l (headBytes (UInt8.ofNat id.length) 0 type 0 0 0 0 0 (BitVec.ofNat 16 w) (BitVec.ofNat 16 h) (UInt8.ofNat (n * 8)) desc
      (id ++ (t ++ rest)))) :
    ∃ m l', iLoadTargaInternal big junk cur l = .ok (true, (m, none), l') ∧ m.Consistent ∧ m.width = w ∧ m.height = h ∧ m.depth = 1 ∧
      m.bpp = n ∧ m.bpc = 1 ∧ m.type = IL_UNSIGNED_BYTE ∧ m.data = t ∧
      m.format = (if n = 1 then IL_LUMINANCE else if n = 3 then IL_BGR else IL_BGRA) ∧
      m.origin = (if desc.toNat &&& 0x30 = 0x20 then IL_ORIGIN_UPPER_LEFT else IL_ORIGIN_LOWER_LEFT) := by
  obtain ⟨e, a1⟩ := head_spec (big := big) (junk := junk) a
  have tw : (BitVec.ofNat 16 w).toNat = w := by rw [BitVec.toNat_ofNat]; omega
  have th : (BitVec.ofNat 16 h).toNat = h := by rw [BitVec.toNat_ofNat]; omega
  have ti : (UInt8.ofNat id.length).toNat = id.length := by simp [UInt8.toNat_ofNat']; omega
  have tn : (UInt8.ofNat (n * 8)).toNat = n * 8 := bpp_byte (by omega)
  rw [tw, th, ti, tn] at e
  unfold iLoadTargaInternal
  rw [e, bind_ok]
  simp only []
  have hty : type.toNat = 2 ∨ type.toNat = 3 := by rcases hn with ⟨_, h⟩ | ⟨_, h⟩ <;> subst h <;> decide
  unfold iCheckTarga
  simp only []
  rw [if_neg (by omega), if_neg (by omega), if_neg (by omega), if_neg (by omega), if_neg (by omega)]
  simp only []
  rw [if_neg (by omega)]
  have a2 := a1.adv
  have hrid : readId junk id.length (adv l 18) = .ok (true, adv (adv l 18) id.length) := by
    unfold readId
    rw [a1.readAt (dst := alloc junk 255) (off := 0) (size := 1) (number := id.length) (by omega) (by decide) (by simp; omega), bind_ok]
    simp
  obtain ⟨m0, em, c, f1, f2, f3, f4, f5, f6, f7, f8⟩ : ∃ m0, ilInitImage junk w h 1 (n * 8 / 8) (if n = 1 then IL_LUMINANCE else 0)
    IL_UNSIGNED_BYTE none = .ok (some m0) ∧ m0.Consistent ∧ m0.bpc = 1 ∧ m0.bpp = n ∧ m0.width = w ∧ m0.height = h ∧ m0.depth = 1 ∧
    m0.type = IL_UNSIGNED_BYTE ∧ m0.size = t.length ∧ m0.format = (if n = 1 then IL_LUMINANCE else 0) := by
    have hle : w * n * 1 * h * 1 ≤ w * h * 4 := by
      have : w * n * 1 * h * 1 = w * h * n := by grind
      rw [this]
      exact Nat.mul_le_mul_left _ (by omega)
    have hbt : ilGetBpcType IL_UNSIGNED_BYTE = 1 := rfl
    obtain ⟨m, e, c, f1, f2, f3, f4, f5, f6, f7, _⟩ := C14_geometry_partial junk w h 1 (n * 8 / 8) (if n = 1 then IL_LUMINANCE else 0) IL_UNSIGNED_BYTE
      none (by rw [hbt]; decide)
      (by rw [hbt, Nat.max_eq_left hw0, Nat.max_eq_left hh0, Nat.max_self, show n * 8 / 8 = n by omega]; omega) (fun _ h => nomatch h)
    rw [hbt] at f5
    rw [Nat.max_eq_left hw0] at f1
    rw [Nat.max_eq_left hh0] at f2
    rw [Nat.max_self] at f3
    rw [show n * 8 / 8 = n by omega] at f4
    have hs : m.size = w * n * 1 * h * 1 := by rw [c.2.2.1, f1, f2, f4, f5, f3]
    refine ⟨m, e, c, f5, f4, f1, f2, f3, ?_, ?_, ?_⟩
    · assumption
    · rw [hs, ht]; grind
    · assumption
  have hpx : ∀ fmt : Nat, readPixels junk false { m0 with format := fmt } (adv (adv l 18) id.length) =
      .ok (true, { m0 with format := fmt, data := t }, adv (adv (adv l 18) id.length) t.length) := fun fmt => by
    unfold readPixels
    rw [if_neg (by decide)]
    show (readAt (adv (adv l 18) id.length) m0.data 0 1 m0.size >>= _) = _
    rw [a2.readAt (dst := m0.data) (off := 0) (size := 1) (number := m0.size) (by omega) (by decide) (by rw [c.2.2.2]; omega), bind_ok]
    have hdrop : m0.data.drop (0 + t.length) = [] := List.drop_eq_nil_of_le (by rw [c.2.2.2]; omega)
    rw [hdrop]
    simp
  unfold readBody
  rw [if_neg (by simp only []; omega)]
  rcases hn with ⟨hn, ht2⟩ | ⟨hn, ht2⟩
  · rw [if_neg (by rw [ht2]; show ¬ ((3 : UInt8).toNat = 2 ∨ (3 : UInt8).toNat = 10); decide)]
    unfold iReadBwTga
    simp only []
    rw [hrid, bind_ok]
    simp only [Bool.not_true, Bool.false_eq_true, if_false]
    rw [if_pos hn] at em f8
    rw [em, bind_ok]
    simp only []
    rw [ht2]
    have := hpx m0.format
    rw [show decide ((3 : UInt8).toNat = 11) = false from rfl, this, bind_ok]
    refine ⟨_, _, rfl, ⟨c.1, c.2.1, c.2.2.1, ?_⟩, f3, f4, f5, f2, f1, f6, rfl, ?_, rfl⟩
    · exact f7.symm
    · rw [if_pos hn]; exact f8
  · rw [if_pos (by rw [ht2]; show ((2 : UInt8).toNat = 2 ∨ (2 : UInt8).toNat = 10); decide)]
    unfold iReadUnmapTga
    simp only []
    rw [hrid, bind_ok]
    simp only [Bool.not_true, Bool.false_eq_true, if_false]
    rw [if_neg (by omega)] at em
    rw [em, bind_ok]
    simp only []
    rw [ht2, show decide ((2 : UInt8).toNat = 10) = false from rfl, hpx, bind_ok]
    simp only [Bool.not_true, Bool.false_eq_true, if_false]
    rw [if_neg (by omega)]
    refine ⟨_, _, rfl, ⟨c.1, c.2.1, c.2.2.1, ?_⟩, f3, f4, f5, f2, f1, f6, rfl, ?_, rfl⟩
    · exact f7.symm
    · show unmapFormat m0.bpp = _
      rw [f2]
      unfold unmapFormat
      rcases hn with h | h <;> subst h <;> rfl

/-! ## C39 -/

theorem toBgr_spec {m : Img} (hm : Savable m) : ∃ m', toBgr m = .ok (some m') ∧ { m' with format := m.format, data := m.data } = m ∧
    m'.Consistent ∧ (m'.format = m.format ∨ Reordered m.format m'.format) ∧ m'.format = (if m.bpp = 1 then IL_LUMINANCE else if m.bpp = 3 then IL_BGR else IL_BGRA) ∧
    ∀ x y c, x < m.width → y < m.height → c < m.bpp → m'.px x y 0 (slot m'.format c) = m.px x y 0 (slot m.format c) := by
  unfold toBgr
  have h3 : ¬ (3 = 1) := by decide
  by_cases hf : m.format = IL_RGB ∨ m.format = IL_RGBA
  · rw [if_pos hf]
    have hcol : Coloured m := by
      refine ⟨hm.cons, ?_, by rw [hm.bpc, hm.type]; rfl, by rw [hm.type]; unfold Conv.IsType; decide, ?_⟩
      · have := hm.fits
        have hp := px_count hm.cons
        rw [hm.d, hm.bpc] at hp
        have : m.size ≤ m.width * m.height * 4 := by
          have e : m.size = m.width * m.height * m.bpp := by rw [hp]; grind
          rw [e]; refine Nat.mul_le_mul_left _ ?_
          rcases hm.fmt with h | h | h <;> omega
        omega
      · rcases hm.fmt with h | h | h
        · exact .inl ⟨h.1, h.2⟩
        · exact .inr ⟨h.1, h.2⟩
        · rw [h.1] at hf; exact absurd hf (by decide)
    obtain ⟨m', e, s, hl, hre, hpx⟩ := C71_swap_partial m hcol hm.d
    have ew : m'.width = m.width := by rw [← s]
    have eh : m'.height = m.height := by rw [← s]
    have ed : m'.depth = m.depth := by rw [← s]
    have ep : m'.bpp = m.bpp := by rw [← s]
    have ec : m'.bpc = m.bpc := by rw [← s]
    refine ⟨m', e, s, ?_, .inr hre, ?_, ?_⟩
    · obtain ⟨c1, c2, c3, c4⟩ := hm.cons
      have s1 : m'.bps = m.bps := by rw [← s]
      have s2 : m'.plane = m.plane := by rw [← s]
      have s3 : m'.size = m.size := by rw [← s]
      refine ⟨?_, ?_, ?_, by rw [hl, s3, c4]⟩
      · rw [s1, ew, ep, ec]; exact c1
      · rw [s2, ew, ep, ec, eh]; exact c2
      · rw [s3, ew, ep, ec, eh, ed]; exact c3
    · rcases hm.fmt with h | h | h
      · rw [h.2, if_neg (by decide), if_pos rfl]
        rcases hf with hf | hf
        · unfold Reordered at hre; rw [hf] at hre; revert hre
          simp only [IL_RGB, IL_BGR, IL_RGBA, IL_BGRA]; omega
        · rw [hf] at h; exact absurd h.1 (by decide)
      · rw [h.2, if_neg (by decide), if_neg (by decide)]
        rcases hf with hf | hf
        · rw [hf] at h; exact absurd h.1 (by decide)
        · unfold Reordered at hre; rw [hf] at hre; revert hre
          simp only [IL_RGB, IL_BGR, IL_RGBA, IL_BGRA]; omega
      · rw [h.1] at hf; exact absurd hf (by decide)
    · intro x y c hx hy hc
      have hb := hm.bpc
      have hn : 3 ≤ m.bpp := by
        rcases hm.fmt with h | h | h
        · omega
        · omega
        · rw [h.1] at hf; exact absurd hf (by decide)
      have h1 : slot m.format c = c := by
        unfold slot
        rcases hf with hf | hf <;> rw [hf, if_neg (by decide)]
      have h2 : slot m'.format c = swap02 c := by
        unfold slot
        rw [if_pos]
        unfold Reordered at hre
        rcases hf with hf | hf <;> rw [hf] at hre <;> revert hre <;> simp only [IL_RGB, IL_BGR, IL_RGBA, IL_BGRA] <;> omega
      have hc' : swap02 c < m.bpp := by unfold swap02; split <;> [omega; split <;> omega]
      have key := hpx x y (swap02 c) 0 hx hy hc' (by omega)
      have h3 : swap02 (swap02 c) = c := by
        unfold swap02
        by_cases h0 : c = 0
        · subst h0; rfl
        by_cases h2 : c = 2
        · subst h2; rfl
        rw [if_neg h0, if_neg h2, if_neg h0, if_neg h2]
      rw [h3] at key
      unfold comp at key
      rw [ec, hb] at key
      simp only [Nat.mul_one, Nat.add_zero] at key
      rw [h1, h2, key]
  · rw [if_neg hf]
    refine ⟨m, rfl, rfl, hm.cons, .inl rfl, ?_, fun _ _ _ _ _ _ => rfl⟩
    rcases hm.fmt with h | h | h
    · rw [h.2, if_neg (by decide), if_pos rfl]; rcases h.1 with h | h
      · exact absurd (.inl h) hf
      · exact h
    · rw [h.2, if_neg (by decide), if_neg (by decide)]; rcases h.1 with h | h
      · exact absurd (.inr h) hf
      · exact h
    · rw [h.2, if_pos rfl]; exact h.1

theorem temp_spec {junk : Nat → UInt8} {m : Img} (hm : m.Consistent) (h32 : m.size < 2 ^ 32) :
    ∃ t, tempData junk m = .ok t ∧ t.length = m.size ∧ ∀ x y z b, m.In x y z b →
      ({ m with data := t } : Img).px x y z b = m.px x (if m.origin = IL_ORIGIN_LOWER_LEFT then y else m.height - 1 - y) z b := by
  unfold tempData
  by_cases ho : m.origin = IL_ORIGIN_LOWER_LEFT
  · rw [if_neg (by simp [ho])]
    exact ⟨m.data, rfl, hm.2.2.2, fun x y z b _ => by rw [if_pos ho]⟩
  · rw [if_pos ho, Manip.C16_flipped_copy junk m hm h32]
    obtain ⟨m', e, s, _, hp⟩ := Manip.C16_flip m hm h32
    rw [e, bind_ok]
    refine ⟨m'.data, rfl, by rw [s.2, hm.2.2.2], fun x y z b hin => ?_⟩
    obtain ⟨hx, hy, hz, hb⟩ := hin
    rw [if_neg ho]
    have key := hp x (m.height - 1 - y) z b ⟨hx, by omega, hz, hb⟩
    rw [show m.height - 1 - (m.height - 1 - y) = y by omega] at key
    rw [← key]
    unfold Img.px
    simp only []
    rw [s.1]

/-- Saving and loading an uncompressed Targa file: every row comes back, in its place if the origin is the lower left corner,
upside down otherwise. -/
theorem round_trip (big big' : Bool) (junk junk' : Nat → UInt8) (env : SaveEnv) (he : EnvOk env) (m : Img) (hm : Savable m)
    (cur : Loaded) :
    ∃ ops, iSaveTargaInternal big junk false env m none = .ok (some ops) ∧
      (output ops).length = 18 + env.id.length + m.size + 533 ∧
    ∃ m' l, iLoadTargaInternal big' junk' cur (open_ (output ops) (output ops).length) = .ok (true, (m', none), l) ∧ m'.Consistent ∧
      SameKind m m' ∧ m'.origin = (if m.origin = IL_ORIGIN_UPPER_LEFT then IL_ORIGIN_UPPER_LEFT else IL_ORIGIN_LOWER_LEFT) ∧
      ∀ x y c, x < m.width → y < m.height → c < m.bpp →
        m'.px x y 0 (slot m'.format c) = m.px x (if m.origin = IL_ORIGIN_LOWER_LEFT then y else m.height - 1 - y) 0 (slot m.format c) := by
  obtain ⟨m1, e1, s1, c1, k1, f1, p1⟩ := toBgr_spec hm
  have ew : m1.width = m.width := by rw [← s1]
  have eh : m1.height = m.height := by rw [← s1]
  have ed : m1.depth = m.depth := by rw [← s1]
  have ep : m1.bpp = m.bpp := by rw [← s1]
  have ec : m1.bpc = m.bpc := by rw [← s1]
  have eo : m1.origin = m.origin := by rw [← s1]
  have et : m1.type = m.type := by rw [← s1]
  have es : m1.size = m.size := by rw [← s1]
  have hb : m.bpp = 1 ∨ m.bpp = 3 ∨ m.bpp = 4 := by rcases hm.fmt with h | h | h <;> omega
  have hsz : m.size = m.width * m.height * m.bpp := by
    have hp := px_count hm.cons
    rw [hm.d, hm.bpc] at hp
    rw [hp]; grind
  have hle : m.size ≤ m.width * m.height * 4 := by
    rw [hsz]; exact Nat.mul_le_mul_left _ (by omega)
  have hfit := hm.fits
  obtain ⟨t, e2, ht, p2⟩ := temp_spec (junk := junk) c1 (by rw [es]; omega)
  obtain ⟨ty, e3, hty⟩ : ∃ ty, typeOf false m.format = some ty ∧ ((m.bpp = 1 ∧ ty = 3) ∨ ((m.bpp = 3 ∨ m.bpp = 4) ∧ ty = 2)) := by
    rcases hm.fmt with ⟨h | h, hn⟩ | ⟨h | h, hn⟩ | ⟨h, hn⟩ <;> rw [h, hn] <;> exact ⟨_, rfl, by decide⟩
  have hsave : iSaveTargaInternal big junk false env m none = .ok (some ((header big env m1 false ty 0 0 ++ [] ++ [WOp.write t 1 m1.size]) ++
      trailer big env ((header big env m1 false ty 0 0 ++ [] ++ [WOp.write t 1 m1.size]).flatMap WOp.bytes).length)) := by
    unfold iSaveTargaInternal
    rw [e3]
    simp only []
    rw [e1, bind_ok]
    simp only [palOps, pure_eq_ok, bind_ok]
    unfold dataOps
    rw [e2, bind_ok]
    rfl
  have hfront := front_bytes big env he m1 ty t ht
  have htr := trailer_len big env he ((header big env m1 false ty 0 0 ++ [] ++ [WOp.write t 1 m1.size]).flatMap WOp.bytes).length
  generalize (header big env m1 false ty 0 0 ++ [] ++ [WOp.write t 1 m1.size]) = front at hsave hfront htr
  generalize trailer big env (front.flatMap WOp.bytes).length = tr at hsave htr
  have hout : output (front ++ tr) = headBytes (UInt8.ofNat env.id.length) 0 ty 0 0 0 0 0 (BitVec.ofNat 16 m1.width) (BitVec.ofNat 16 m1.height)
      (UInt8.ofNat (m1.bpp * 8)) ((if m1.bpp > 3 then 8 else 0) ||| (if m1.origin = IL_ORIGIN_UPPER_LEFT then 0x20 else 0))
      (env.id ++ (t ++ tr.flatMap WOp.bytes)) := by
    unfold output
    rw [List.flatMap_append, hfront]
    unfold headBytes
    simp
  have hlen : (output (front ++ tr)).length = 18 + env.id.length + m.size + 533 := by
    rw [hout]; unfold headBytes
    simp only [List.length_cons, List.length_append, leBytes_length, htr, ht, es]
    omega
  have hid := he.id
  have hat := at_open (data := output (front ++ tr)) (by omega) (by omega)
  rw [hout] at hat
  rw [← hout] at hat
  have hat' : At (open_ (output (front ++ tr)) (output (front ++ tr)).length) (headBytes (UInt8.ofNat env.id.length) 0 ty 0 0 0 0 0
      (BitVec.ofNat 16 m1.width) (BitVec.ofNat 16 m1.height)
      (UInt8.ofNat (m1.bpp * 8)) ((if m1.bpp > 3 then 8 else 0) ||| (if m1.origin = IL_ORIGIN_UPPER_LEFT then 0x20 else 0))
      (env.id ++ (t ++ tr.flatMap WOp.bytes))) := ⟨hat.1, hat.2.trans hout⟩
  rw [ew, eh, ep, eo] at hat'
  obtain ⟨m', l, e, c, g1, g2, g3, g4, g5, g6, g7, g8, g9⟩ := load_spec (big := big') (junk := junk') (cur := cur) hid hm.w0 hm.h0 hm.w hm.h hty
    (by split <;> split <;> decide) (by rw [ht, es, hsz]) (by omega) hat'
  refine ⟨_, hsave, hlen, m', l, e, c, ⟨g1, g2, by rw [g3, hm.d], g4, by rw [g5, hm.bpc], by rw [g6, hm.type], by rw [g8, ← f1]; exact k1⟩, ?_, ?_⟩
  · rw [g9]
    by_cases ho : m.origin = IL_ORIGIN_UPPER_LEFT
    · rw [if_pos ho, if_pos ho, if_pos]; split <;> decide
    · rw [if_neg ho, if_neg ho, if_neg]; split <;> decide
  · intro x y c' hx hy hc
    have hc' : slot m'.format c' < m.bpp := by
      unfold slot
      split
      · rename_i hf
        have : 3 ≤ m.bpp := by
          rcases hb with h | h | h
          · rw [g8, if_pos h] at hf; exact absurd hf (by decide)
          · omega
          · omega
        unfold swap02
        split
        · omega
        · split <;> omega
      · exact hc
    have q2 := p2 x y 0 (slot m'.format c') ⟨by omega, by omega, by rw [ed, hm.d]; decide, by rw [ep, ec, hm.bpc]; omega⟩
    have ef : m'.format = m1.format := by rw [g8, f1]
    have q1 : ∀ y, y < m.height → m1.px x y 0 (slot m'.format c') = m.px x y 0 (slot m.format c') := fun y hy => by
      rw [ef]; exact p1 x y c' hx hy hc
    rw [eo, eh, q1 _ (by split <;> omega)] at q2
    rw [← q2]
    unfold Img.px
    simp only []
    rw [g1, g2, g4, g5, g7, ep, ec, hm.bpc]
    try rw [ew]
    try rw [eh]

/-- **C39.** Every grey or colour image whose origin is the lower left corner, saved uncompressed as Targa by a host of either
endianness and loaded by a host of either endianness, comes back with the same dimensions, the same kind of pixel, the same
origin, and the same red, green, blue and alpha (or grey) values everywhere.  Missing: images with the origin in the upper left
corner (see below), run-length encoding (see C41), palettes. -/
theorem C39_round_trip_partial (big big' : Bool) (junk junk' : Nat → UInt8) (env : SaveEnv) (he : EnvOk env) (m : Img) (hm : Savable m)
    (ho : m.origin = IL_ORIGIN_LOWER_LEFT) (cur : Loaded) :
    ∃ ops, iSaveTargaInternal big junk false env m none = .ok (some ops) ∧
    ∃ m' pal l, iLoadTargaInternal big' junk' cur (open_ (output ops) (output ops).length) = .ok (true, (m', pal), l) ∧ m'.Consistent ∧
      SameKind m m' ∧ m'.origin = m.origin ∧
      ∀ x y c, x < m.width → y < m.height → c < m.bpp → m'.px x y 0 (slot m'.format c) = m.px x y 0 (slot m.format c) := by
  obtain ⟨ops, e, _, m', l, e', c, k, o, p⟩ := round_trip big big' junk junk' env he m hm cur
  rw [ho, if_neg (by decide)] at o
  refine ⟨ops, e, m', none, l, e', c, k, by rw [o, ho], fun x y c hx hy hc => ?_⟩
  rw [p x y c hx hy hc, if_pos ho]

/-- **C39 is violated for the upper left origin.** Every such image comes back upside down: the rows are written in reverse
order *and* the file says that the first row is the top one. -/
theorem C39_violated_upper_left (big big' : Bool) (junk junk' : Nat → UInt8) (env : SaveEnv) (he : EnvOk env) (m : Img) (hm : Savable m)
    (ho : m.origin = IL_ORIGIN_UPPER_LEFT) (cur : Loaded) :
    ∃ ops, iSaveTargaInternal big junk false env m none = .ok (some ops) ∧
    ∃ m' pal l, iLoadTargaInternal big' junk' cur (open_ (output ops) (output ops).length) = .ok (true, (m', pal), l) ∧ m'.Consistent ∧
      SameKind m m' ∧ m'.origin = m.origin ∧
      ∀ x y c, x < m.width → y < m.height → c < m.bpp →
        m'.px x y 0 (slot m'.format c) = m.px x (m.height - 1 - y) 0 (slot m.format c) := by
  obtain ⟨ops, e, _, m', l, e', c, k, o, p⟩ := round_trip big big' junk junk' env he m hm cur
  rw [ho, if_pos rfl] at o
  refine ⟨ops, e, m', none, l, e', c, k, by rw [o, ho], fun x y c hx hy hc => ?_⟩
  rw [p x y c hx hy hc, ho, if_neg (by decide)]

/-- A 2x2 RGB image. -/
def rgb22 (origin : Nat) : Img :=
  { width := 2, height := 2, depth := 1, bpp := 3, bpc := 1, bps := 6, plane := 12, size := 12, format := IL_RGB,
    type := IL_UNSIGNED_BYTE, origin := origin, data := [1, 2, 3, 4, 5, 6, 7, 8, 9, 10, 11, 12] }

/-- A short text in every field. -/
def env0 : SaveEnv := ⟨[65, 66], [67], [68, 69, 70], [11#16, 17#16, 2026#16, 8#16, 0#16, 0#16]⟩

example (origin : Nat) : Savable (rgb22 origin) ∧ EnvOk env0 := by
  refine ⟨⟨⟨rfl, rfl, rfl, rfl⟩, ?_, ?_, ?_, ?_, rfl, rfl, rfl, .inl ⟨.inl rfl, rfl⟩, ?_⟩, ⟨?_, ?_, ?_, rfl⟩⟩
  · exact (by decide : (0 : Nat) < 2)
  · exact (by decide : (0 : Nat) < 2)
  · exact (by decide : (2 : Nat) < 65536)
  · exact (by decide : (2 : Nat) < 65536)
  · exact (by decide : 2 * 2 * 4 + 2048 ≤ 4294967296)
  all_goals decide

/-- In particular the top left pixel of this image changes. -/
example : (rgb22 IL_ORIGIN_UPPER_LEFT).px 0 (2 - 1 - 0) 0 0 ≠ (rgb22 IL_ORIGIN_UPPER_LEFT).px 0 0 0 0 := by decide

/-! ### Palettes -/

/-- The bytes of an uncompressed file with a palette of `n` entries. -/
theorem front_pal_bytes (big : Bool) (env : SaveEnv) (he : EnvOk env) (m : Img) (type : UInt8) (n : BitVec 16) (p t : List UInt8) (ht : t.length = m.size)
    (psize : Nat) (hp : p.length = psize) :
    (header big env m true type n 24 ++ [WOp.write p 1 psize] ++ [WOp.write t 1 m.size]).flatMap WOp.bytes =
      headBytes (UInt8.ofNat env.id.length) 1 type 0 n 24 0 0 (BitVec.ofNat 16 m.width) (BitVec.ofNat 16 m.height) (UInt8.ofNat (m.bpp * 8))
        ((if m.bpp > 3 then 8 else 0) ||| (if m.origin = IL_ORIGIN_UPPER_LEFT then 0x20 else 0)) (env.id ++ (p ++ t)) := by
  have h1 : List.take (1 * (env.id.length % 256)) env.id = env.id := by
    rw [Nat.mod_eq_of_lt he.id, Nat.one_mul, List.take_length]
  have h2 : List.take (1 * m.size) t = t := by rw [Nat.one_mul, ← ht, List.take_length]
  have h4 : List.take (1 * psize) p = p := by rw [Nat.one_mul, ← hp, List.take_length]
  have h3 : ∀ v, (short big v).bytes = leBytes 2 v.toNat := fun v => by
    unfold short
    rw [write_bytes, saveLittleUShort_eq, List.take_of_length_le (by simp)]
  unfold header headBytes
  simp only [List.append_nil, List.flatMap_append, List.flatMap_cons, List.flatMap_nil, h3, write_bytes, h1, h2, h4, List.append_assoc]
  rfl

theorem load_pal_spec {big : Bool} {junk : Nat → UInt8} {cur : Loaded} {l : R} {id : List UInt8} {desc : UInt8} {w h n : Nat} {p t rest : List UInt8}
    (hid : id.length < 256) (hw0 : 0 < w) (hh0 : 0 < h) (hw : w < 65536) (hh : h < 65536) (hn : n < 32768)
    (hdesc : desc.toNat &&& 0x10 = 0) (hp : p.length = 3 * n) (ht : t.length = w * h) (hfit : w * h * 4 + 512 ≤ 4294967296)
    (a : At l (headBytes (UInt8.ofNat id.length) 1 1 0 (BitVec.ofNat 16 n) 24 0 0 (BitVec.ofNat 16 w) (BitVec.ofNat 16 h) (UInt8.ofNat (1 * 8)) desc
      (id ++ (p ++ (t ++ rest))))) :
    ∃ m l', iLoadTargaInternal big junk cur l = .ok (true, (m, some ⟨p, 3 * n, IL_PAL_BGR24⟩), l') ∧ m.Consistent ∧ m.width = w ∧ m.height = h ∧
      m.depth = 1 ∧ m.bpp = 1 ∧ m.bpc = 1 ∧ m.type = IL_UNSIGNED_BYTE ∧ m.data = t ∧ m.format = IL_COLOUR_INDEX ∧
      m.origin = (if desc.toNat &&& 0x30 = 0x20 then IL_ORIGIN_UPPER_LEFT else IL_ORIGIN_LOWER_LEFT) := by
  obtain ⟨e, a1⟩ := head_spec (big := big) (junk := junk) a
  have tw : (BitVec.ofNat 16 w).toNat = w := by rw [BitVec.toNat_ofNat]; omega
  have th : (BitVec.ofNat 16 h).toNat = h := by rw [BitVec.toNat_ofNat]; omega
  have ti : (UInt8.ofNat id.length).toNat = id.length := by simp [UInt8.toNat_ofNat']; omega
  rw [tw, th, ti] at e
  unfold iLoadTargaInternal
  rw [e, bind_ok]
  simp only []
  unfold iCheckTarga
  simp only []
  rw [if_neg (by omega), if_neg (by decide), if_neg (by omega), if_neg (by decide), if_neg (by decide)]
  simp only []
  rw [if_neg (by decide)]
  have a2 := a1.adv
  have a3 := a2.adv
  have hrid : readId junk id.length (adv l 18) = .ok (true, adv (adv l 18) id.length) := by
    unfold readId
    rw [a1.readAt (dst := alloc junk 255) (off := 0) (size := 1) (number := id.length) (by omega) (by decide) (by simp; omega), bind_ok]
    simp
  have hbt : ilGetBpcType IL_UNSIGNED_BYTE = 1 := rfl
  obtain ⟨m0, em, c, f1, f2, f3, f4, f5, f6, f7, _⟩ := C14_geometry_partial junk w h 1 ((UInt8.ofNat (1 * 8)).toNat / 8) 0 IL_UNSIGNED_BYTE
      none (by rw [hbt]; decide)
      (by rw [hbt, Nat.max_eq_left hw0, Nat.max_eq_left hh0, Nat.max_self, show (UInt8.ofNat (1 * 8)).toNat / 8 = 1 from rfl, Nat.mul_one, Nat.mul_one, Nat.mul_one]; omega)
      (fun _ h => nomatch h)
  rw [hbt] at f5
  rw [Nat.max_eq_left hw0] at f1
  rw [Nat.max_eq_left hh0] at f2
  rw [Nat.max_self] at f3
  rw [show (UInt8.ofNat (1 * 8)).toNat / 8 = 1 from rfl] at f4
  have hs : m0.size = t.length := by rw [c.2.2.1, f1, f2, f4, f5, f3, ht]; simp
  have hshape : ∀ q, palShape ⟨id.length, (1 : UInt8).toNat, (1 : UInt8).toNat, 0, BitVec.ofNat 16 n, (24 : UInt8).toNat, 0, 0, w, h,
      (UInt8.ofNat (1 * 8)).toNat, q⟩ = some (3 * n, IL_PAL_BGR24) := fun q => by
    unfold palShape
    rw [if_neg (by simp only []; decide), if_pos (by simp only []; decide)]
    have hi : (BitVec.ofNat 16 n).toInt = (n : Int) := by
      rw [BitVec.toInt_eq_toNat_cond, BitVec.toNat_ofNat, Nat.mod_eq_of_lt (by omega), if_pos (by omega)]
    simp only []
    rw [hi, show (n : Int) * 3 = ((3 * n : Nat) : Int) by omega]
    congr 2
    unfold ofInt
    omega
  have hrpal : ∀ q, readPal big junk ⟨id.length, (1 : UInt8).toNat, (1 : UInt8).toNat, 0, BitVec.ofNat 16 n, (24 : UInt8).toNat, 0, 0, w, h,
      (UInt8.ofNat (1 * 8)).toNat, q⟩ (3 * n) (adv (adv l 18) id.length) = .ok (true, p, adv (adv (adv l 18) id.length) p.length) := fun q => by
    unfold readPal
    rw [if_pos (by simp only []; decide)]
    rw [a2.readAt (dst := alloc junk (3 * n)) (off := 0) (size := 1) (number := 3 * n) (by omega) (by decide) (by simp; omega), bind_ok]
    have hdrop : (alloc junk (3 * n)).drop (0 + p.length) = [] := List.drop_eq_nil_of_le (by simp; omega)
    rw [hdrop]
    simp
  have hpx : ∀ fmt : Nat, readPixels junk false { m0 with format := fmt } (adv (adv (adv l 18) id.length) p.length) =
      .ok (true, { m0 with format := fmt, data := t }, adv (adv (adv (adv l 18) id.length) p.length) t.length) := fun fmt => by
    unfold readPixels
    rw [if_neg (by decide)]
    show (readAt (adv (adv (adv l 18) id.length) p.length) m0.data 0 1 m0.size >>= _) = _
    rw [a3.readAt (dst := m0.data) (off := 0) (size := 1) (number := m0.size) (by omega) (by decide) (by rw [c.2.2.2]; omega), bind_ok]
    have hdrop : m0.data.drop (0 + t.length) = [] := List.drop_eq_nil_of_le (by rw [c.2.2.2]; omega)
    rw [hdrop]
    simp
  unfold readBody
  rw [if_pos (by simp only []; decide)]
  unfold iReadColMapTga
  simp only []
  rw [hrid, bind_ok]
  simp only [Bool.not_true, Bool.false_eq_true, if_false]
  rw [em, bind_ok]
  simp only []
  rw [hshape]
  simp only []
  rw [hrpal, bind_ok]
  simp only [Bool.not_true, Bool.false_eq_true, if_false]
  rw [show decide ((1 : UInt8).toNat = 9) = false from rfl, hpx, bind_ok]
  exact ⟨_, _, rfl, ⟨c.1, c.2.1, c.2.2.1, hs.symm⟩, f1, f2, f3, f4, f5, f7, rfl, rfl, rfl⟩

/-- **C39 (palettes).** Every colour-indexed image whose origin is the lower left corner and whose palette has at most 32767 entries of
blue, green, red, saved uncompressed as Targa and loaded again, comes back with the same dimensions, origin, indices and palette.
Missing: the upper left origin, run-length encoding, and the other palette layouts, which the saver converts (see C28). -/
theorem C39_palette_partial (big big' : Bool) (junk junk' : Nat → UInt8) (env : SaveEnv) (he : EnvOk env) (m : Img) (hc : m.Consistent)
    (w0 : 0 < m.width) (h0 : 0 < m.height) (hw : m.width < 65536) (hh : m.height < 65536) (hd : m.depth = 1) (hbpp : m.bpp = 1) (hbpc : m.bpc = 1)
    (hfit : m.width * m.height * 4 + 200000 ≤ 4294967296) (hfmt : m.format = IL_COLOUR_INDEX)
    (ho : m.origin = IL_ORIGIN_LOWER_LEFT) (p : Pal) (n : Nat) (hn0 : 0 < n) (hn : n < 32768) (hpt : p.type = IL_PAL_BGR24)
    (hps : p.size = 3 * n) (hpd : p.data.length = p.size) (cur : Loaded) :
    ∃ ops, iSaveTargaInternal big junk false env m (some p) = .ok (some ops) ∧
    ∃ m' l, iLoadTargaInternal big' junk' cur (open_ (output ops) (output ops).length) = .ok (true, (m', some p), l) ∧ m'.Consistent ∧
      m'.width = m.width ∧ m'.height = m.height ∧ m'.depth = m.depth ∧ m'.bpp = m.bpp ∧ m'.bpc = m.bpc ∧ m'.format = m.format ∧
      m'.origin = m.origin ∧ m'.data = m.data := by
  have hid := he.id
  have hsz : m.size = m.width * m.height := by rw [hc.2.2.1, hbpp, hbpc, hd]; simp
  have hdl : m.data.length = m.size := hc.2.2.2
  have hsave : iSaveTargaInternal big junk false env m (some p) = .ok (some ((header big env m true 1 (BitVec.ofNat 16 n) 24 ++ [WOp.write p.data 1 p.size] ++
      [WOp.write m.data 1 m.size]) ++ trailer big env ((header big env m true 1 (BitVec.ofNat 16 n) 24 ++ [WOp.write p.data 1 p.size] ++
      [WOp.write m.data 1 m.size]).flatMap WOp.bytes).length)) := by
    have e1 : toBgr m = .ok (some m) := by
      unfold toBgr; rw [if_neg (by rw [hfmt]; decide)]; rfl
    have e2 : tempData junk m = .ok m.data := by
      unfold tempData; rw [if_neg (by simp [ho])]; rfl
    have e3 : palOps junk (some p) = .ok (some ([WOp.write p.data 1 p.size], true, BitVec.ofNat 16 n, 24)) := by
      unfold palOps
      simp only []
      rw [if_neg (by rw [hpt]; decide), if_pos hpt, if_neg (by omega), hps, Nat.mul_div_cancel_left n (by decide)]
      have : decide (3 * n ≠ 0) = true := by simp; omega
      rw [this]; rfl
    unfold iSaveTargaInternal
    rw [hfmt, show typeOf false IL_COLOUR_INDEX = some 1 from rfl]
    simp only []
    rw [e1, bind_ok]
    simp only []
    rw [e3, bind_ok]
    simp only []
    unfold dataOps
    rw [e2, bind_ok]
    rfl
  have hfront := front_pal_bytes big env he m 1 (BitVec.ofNat 16 n) p.data m.data hdl p.size hpd
  have htr := trailer_len big env he ((header big env m true 1 (BitVec.ofNat 16 n) 24 ++ [WOp.write p.data 1 p.size] ++
      [WOp.write m.data 1 m.size]).flatMap WOp.bytes).length
  generalize (header big env m true 1 (BitVec.ofNat 16 n) 24 ++ [WOp.write p.data 1 p.size] ++ [WOp.write m.data 1 m.size]) = front at hsave hfront htr
  generalize trailer big env (front.flatMap WOp.bytes).length = tr at hsave htr
  rw [hbpp, ho] at hfront
  have hout : output (front ++ tr) = headBytes (UInt8.ofNat env.id.length) 1 1 0 (BitVec.ofNat 16 n) 24 0 0 (BitVec.ofNat 16 m.width)
      (BitVec.ofNat 16 m.height) (UInt8.ofNat (1 * 8)) ((if 1 > 3 then 8 else 0) ||| (if IL_ORIGIN_LOWER_LEFT = IL_ORIGIN_UPPER_LEFT then 0x20 else 0))
      (env.id ++ (p.data ++ (m.data ++ tr.flatMap WOp.bytes))) := by
    unfold output
    rw [List.flatMap_append, hfront]
    unfold headBytes
    simp
  have hlen : (output (front ++ tr)).length = 18 + env.id.length + 3 * n + m.size + 533 := by
    rw [hout]; unfold headBytes
    simp only [List.length_cons, List.length_append, leBytes_length, htr, hdl, hpd, hps]
    omega
  have hat := at_open (data := output (front ++ tr)) (by omega) (by omega)
  have hat' := And.intro hat.1 (hat.2.trans hout)
  obtain ⟨m', l, e, c, g1, g2, g3, g4, g5, g6, g7, g8, g9⟩ := load_pal_spec (big := big') (junk := junk') (cur := cur) hid w0 h0 hw hh hn
    (by decide) (by omega) (by rw [hdl, hsz]) (by omega) ⟨hat'.1, hat'.2⟩
  refine ⟨_, hsave, m', l, ?_, c, g1, g2, by rw [g3, hd], by rw [g4, hbpp], by rw [g5, hbpc], by rw [g8, hfmt], ?_, g7⟩
  · rw [e]
    have : (⟨p.data, 3 * n, IL_PAL_BGR24⟩ : Pal) = p := by rw [← hps, ← hpt]
    rw [this]
  · rw [g9, ho]; decide

example : (⟨[1, 2, 3, 4, 5, 6], 6, IL_PAL_BGR24⟩ : Pal).size = 3 * 2 ∧ IL_COLOUR_INDEX ≠ IL_RGB := by decide

/-- **C35 is violated for Targa.** The size reported for an uncompressed Targa file is one byte less than the file. -/
theorem C35_violated_targa (big : Bool) (junk : Nat → UInt8) (env : SaveEnv) (he : EnvOk env) (m : Img) (hm : Savable m) :
    ∃ ops, iSaveTargaInternal big junk false env m none = .ok (some ops) ∧ (output ops).length = iTargaSize env m + 1 := by
  obtain ⟨ops, e, hl, _⟩ := round_trip big big junk junk env he m hm (m, none)
  refine ⟨ops, e, ?_⟩
  have hid := he.id
  have hfit := hm.fits
  have hsz : m.size = m.width * m.height * m.bpp := by
    have hp := px_count hm.cons
    rw [hm.d, hm.bpc] at hp
    rw [hp]; grind
  have hle : m.size ≤ m.width * m.height * 4 := by
    rw [hsz]; exact Nat.mul_le_mul_left _ (by rcases hm.fmt with h | h | h <;> omega)
  have key : iTargaSize env m = u32 (18 + env.id.length % 256 + m.width * m.height * m.bpp + 532) := by
    unfold iTargaSize
    rcases hm.fmt with ⟨h | h, hn⟩ | ⟨h | h, hn⟩ | ⟨h, hn⟩ <;> rw [h, hn] <;> rfl
  rw [hl, key, ← hsz, Nat.mod_eq_of_lt hid, u32_of_lt (by omega)]

end DevIL.Targa
