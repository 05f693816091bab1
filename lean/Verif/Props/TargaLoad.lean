import Verif.Props.Targa
/-! C77: loading arbitrary bytes as Targa.  C79: incomplete Targa files. -/
set_option autoImplicit false
namespace DevIL.Targa
open DevIL.Lump DevIL.Endian DevIL.Image DevIL.Utility DevIL.Rle

/-! ## The header -/

theorem getb_pos {l : R} (h : Good l) : Holds (getb l) (fun r => Good r.2 ∧ r.2.data = l.data ∧ r.2.size = l.size ∧
    ((l.pos < l.size ∧ r.2.pos = l.pos + 1) ∨ (l.pos = l.size ∧ r.2.pos = l.size - 1 ∧ r.1 = 255))) := by
  have hp := h.pos
  unfold getb
  by_cases hlt : l.pos < l.size
  · obtain ⟨b, _, e⟩ := getc_spec h hlt
    rw [e]
    exact ⟨_, rfl, ⟨h.size, hlt, h.lt, h.ne⟩, rfl, rfl, Or.inl ⟨hlt, rfl⟩⟩
  · rw [getc_end h (by omega)]
    exact ⟨_, rfl, ⟨h.size, Nat.sub_le _ _, h.lt, h.ne⟩, rfl, rfl, Or.inr ⟨by omega, rfl, rfl⟩⟩

theorem short_pos {l : R} {big : Bool} {junk : Nat → UInt8} (h : Good l) :
    Holds (GetLittleUShort big junk l) (fun r => Good r.2 ∧ r.2.data = l.data ∧ r.2.size = l.size ∧
      r.2.pos = min (l.pos + 2) l.size) := by
  obtain ⟨g, e, _, hg⟩ := keeps_read h 2 1
  have hp := h.pos
  have hlt := h.lt
  unfold GetLittleUShort readObj
  rw [e]
  refine ⟨_, rfl, hg, rfl, rfl, ?_⟩
  show l.pos + avail l 2 1 = _
  unfold avail
  rw [u32_of_lt (by decide)]
  omega

/-- Reading the header never faults; a file too short for it yields a pixel size or a descriptor that is refused. -/
theorem head_safe {big : Bool} {junk : Nat → UInt8} {l : R} (hg : Good l) (hp : l.pos = 0) :
    Holds (iGetTgaHead big junk l) (fun r => Good r.2 ∧ r.2.data = l.data ∧ r.1.idLen < 256 ∧ r.1.width < 65536 ∧ r.1.height < 65536 ∧
      (l.size < 18 → r.1.bpp = 255 ∨ r.1.imageDesc = 255)) := by
  unfold iGetTgaHead
  refine (getb_pos hg).bind fun r1 h1 => ?_
  obtain ⟨a1, l1⟩ := r1
  obtain ⟨g1, d1, s1, p1⟩ := h1
  simp only at g1 d1 s1 p1 ⊢
  refine (getb_pos g1).bind fun r2 h2 => ?_
  obtain ⟨a2, l2⟩ := r2
  obtain ⟨g2, d2, s2, p2⟩ := h2
  simp only at g2 d2 s2 p2 ⊢
  refine (getb_pos g2).bind fun r3 h3 => ?_
  obtain ⟨a3, l3⟩ := r3
  obtain ⟨g3, d3, s3, p3⟩ := h3
  simp only at g3 d3 s3 p3 ⊢
  refine (short_pos g3).bind fun r4 h4 => ?_
  obtain ⟨a4, l4⟩ := r4
  obtain ⟨g4, d4, s4, p4⟩ := h4
  simp only at g4 d4 s4 p4 ⊢
  refine (short_pos g4).bind fun r5 h5 => ?_
  obtain ⟨a5, l5⟩ := r5
  obtain ⟨g5, d5, s5, p5⟩ := h5
  simp only at g5 d5 s5 p5 ⊢
  refine (getb_pos g5).bind fun r6 h6 => ?_
  obtain ⟨a6, l6⟩ := r6
  obtain ⟨g6, d6, s6, p6⟩ := h6
  simp only at g6 d6 s6 p6 ⊢
  refine (short_pos g6).bind fun r7 h7 => ?_
  obtain ⟨a7, l7⟩ := r7
  obtain ⟨g7, d7, s7, p7⟩ := h7
  simp only at g7 d7 s7 p7 ⊢
  refine (short_pos g7).bind fun r8 h8 => ?_
  obtain ⟨a8, l8⟩ := r8
  obtain ⟨g8, d8, s8, p8⟩ := h8
  simp only at g8 d8 s8 p8 ⊢
  refine (short_pos g8).bind fun r9 h9 => ?_
  obtain ⟨a9, l9⟩ := r9
  obtain ⟨g9, d9, s9, p9⟩ := h9
  simp only at g9 d9 s9 p9 ⊢
  refine (short_pos g9).bind fun r10 h10 => ?_
  obtain ⟨a10, l10⟩ := r10
  obtain ⟨g10, d10, s10, p10⟩ := h10
  simp only at g10 d10 s10 p10 ⊢
  refine (getb_pos g10).bind fun r11 h11 => ?_
  obtain ⟨a11, l11⟩ := r11
  obtain ⟨g11, d11, s11, p11⟩ := h11
  simp only at g11 d11 s11 p11 ⊢
  refine (getb_pos g11).bind fun r12 h12 => ?_
  obtain ⟨a12, l12⟩ := r12
  obtain ⟨g12, d12, s12, p12⟩ := h12
  simp only at g12 d12 s12 p12 ⊢
  refine Holds.pure ⟨g12, by simp only [*], a1.toNat_lt, a9.isLt, a10.isLt, fun hsz => ?_⟩
  show a11.toNat = 255 ∨ a12.toNat = 255
  have e11 : a11 = 255 → a11.toNat = 255 := fun h => by rw [h]; rfl
  have e12 : a12 = 255 → a12.toNat = 255 := fun h => by rw [h]; rfl
  have hq : l10.pos = l.size ∨ (l10.pos = 16 ∧ l.size = 17) := by
    rw [hp] at p1
    have q6 : l6.pos = l.size - 1 ∨ l6.pos = 8 ∨ (l6.pos = l.size) := by
      clear p7 p8 p9 p10 p11 p12
      omega
    have : l6.pos ≤ l.size := by have := g6.pos; omega
    clear p1 p2 p3 p4 p5 p6 p11 p12
    omega
  rcases hq with hq | ⟨hq, hs⟩
  · left
    rcases p11 with ⟨h, _⟩ | ⟨_, _, h⟩
    · omega
    · exact e11 h
  · right
    rcases p12 with ⟨h, _⟩ | ⟨_, _, h⟩
    · rcases p11 with ⟨_, h'⟩ | ⟨_, h', _⟩ <;> omega
    · exact e12 h

theorem split_byte {l : List UInt8} {n : Nat} (h : n + 1 ≤ l.length) : ∃ b rest, l = b :: rest ∧ n ≤ rest.length := by
  cases l with
  | nil => simp at h
  | cons b rest => exact ⟨b, rest, rfl, by simpa using h⟩

theorem split_short {l : List UInt8} {n : Nat} (h : n + 2 ≤ l.length) :
    ∃ (v : BitVec 16) (rest : List UInt8), l = leBytes 2 v.toNat ++ rest ∧ n ≤ rest.length := by
  match l, h with
  | a :: b :: rest, h =>
    refine ⟨BitVec.ofNat 16 (leVal [a, b]), rest, ?_, by simpa using h⟩
    have hlt := leVal_lt [a, b]
    have e : (BitVec.ofNat 16 (leVal [a, b])).toNat = leVal [a, b] := by
      rw [BitVec.toNat_ofNat, Nat.mod_eq_of_lt (by simpa using hlt)]
    rw [e]
    have := leBytes_leVal [a, b]
    simp only [List.length_cons, List.length_nil, Nat.zero_add] at this
    rw [this]; rfl

/-- The bytes of a header. -/
def headBytes (id cmp type : UInt8) (first len : BitVec 16) (ent : UInt8) (ox oy w h : BitVec 16) (bpp desc : UInt8) (rest : List UInt8) :
    List UInt8 :=
  id :: cmp :: type :: (leBytes 2 first.toNat ++ (leBytes 2 len.toNat ++ (ent :: (leBytes 2 ox.toNat ++ (leBytes 2 oy.toNat ++
    (leBytes 2 w.toNat ++ (leBytes 2 h.toNat ++ (bpp :: desc :: rest))))))))

theorem head_spec {big : Bool} {junk : Nat → UInt8} {l : R} {id cmp type ent bpp desc : UInt8} {first len ox oy w h : BitVec 16}
    {rest : List UInt8} (a0 : At l (headBytes id cmp type first len ent ox oy w h bpp desc rest)) :
    iGetTgaHead big junk l = .ok (⟨id.toNat, cmp.toNat, type.toNat, first, len, ent.toNat, ox, oy, w.toNat, h.toNat, bpp.toNat,
      desc.toNat⟩, adv l 18) ∧ At (adv l 18) rest := by
  unfold headBytes at a0
  have a1 := a0.adv_cons
  have a2 := a1.adv_cons
  have a3 := a2.adv_cons
  have a4 := a3.adv
  have a5 := a4.adv
  have a6 := a5.adv_cons
  have a7 := a6.adv
  have a8 := a7.adv
  have a9 := a8.adv
  have a10 := a9.adv
  have a11 := a10.adv_cons
  have a12 := a11.adv_cons
  simp only [leBytes_length] at a1 a2 a3 a4 a5 a6 a7 a8 a9 a10 a11 a12
  unfold iGetTgaHead
  rw [a0.getb, bind_ok]
  simp only []
  rw [a1.getb, bind_ok]
  simp only []
  rw [a2.getb, bind_ok]
  simp only []
  rw [a3.getLittleUShort, bind_ok]
  simp only []
  rw [a4.getLittleUShort, bind_ok]
  simp only []
  rw [a5.getb, bind_ok]
  simp only []
  rw [a6.getLittleUShort, bind_ok]
  simp only []
  rw [a7.getLittleUShort, bind_ok]
  simp only []
  rw [a8.getLittleUShort, bind_ok]
  simp only []
  rw [a9.getLittleUShort, bind_ok]
  simp only []
  rw [a10.getb, bind_ok]
  simp only []
  rw [a11.getb, bind_ok]
  simp only [adv_adv] at a12 ⊢
  exact ⟨rfl, a12⟩

theorem split_head {file : List UInt8} (h : 18 ≤ file.length) : ∃ id cmp type first len ent ox oy w h bpp desc rest,
    file = headBytes id cmp type first len ent ox oy w h bpp desc rest := by
  obtain ⟨id, f1, e1, h1⟩ := split_byte (n := 17) h
  obtain ⟨cmp, f2, e2, h2⟩ := split_byte (n := 16) h1
  obtain ⟨type, f3, e3, h3⟩ := split_byte (n := 15) h2
  obtain ⟨first, f4, e4, h4⟩ := split_short (n := 13) h3
  obtain ⟨len, f5, e5, h5⟩ := split_short (n := 11) h4
  obtain ⟨ent, f6, e6, h6⟩ := split_byte (n := 10) h5
  obtain ⟨ox, f7, e7, h7⟩ := split_short (n := 8) h6
  obtain ⟨oy, f8, e8, h8⟩ := split_short (n := 6) h7
  obtain ⟨w, f9, e9, h9⟩ := split_short (n := 4) h8
  obtain ⟨hh, f10, e10, h10⟩ := split_short (n := 2) h9
  obtain ⟨bpp, f11, e11, h11⟩ := split_byte (n := 1) h10
  obtain ⟨desc, f12, e12, h12⟩ := split_byte (n := 0) h11
  refine ⟨id, cmp, type, first, len, ent, ox, oy, w, hh, bpp, desc, f12, ?_⟩
  unfold headBytes
  rw [e1, e2, e3, e4, e5, e6, e7, e8, e9, e10, e11, e12]

/-- What the checks guarantee. -/
theorem check_spec {h h' : Head} (e : iCheckTarga h = some h') :
    (h'.bpp = 8 ∨ h'.bpp = 16 ∨ h'.bpp = 24 ∨ h'.bpp = 32) ∧ h'.width = h.width ∧ h'.height = h.height ∧ h'.idLen = h.idLen ∧
    0 < h'.width ∧ 0 < h'.height ∧ h.bpp ≠ 255 ∧ h.imageDesc ≠ 255 := by
  unfold iCheckTarga at e
  split at e
  · exact nomatch e
  split at e
  · exact nomatch e
  split at e
  · exact nomatch e
  split at e
  · exact nomatch e
  rename_i h1 h2 h3 h4
  have hd : h.imageDesc ≠ 255 := by
    intro hd
    rw [hd] at h3
    exact h3 (by decide)
  cases e
  split
  · simp_all; omega
  · refine ⟨by omega, rfl, rfl, rfl, by omega, by omega, by omega, hd⟩

theorem init_safe {junk : Nat → UInt8} {w h bpp fmt : Nat} (hb : bpp ≤ 4) (hw : 0 < w) (hh : 0 < h) (hfit : w * h * 4 + 512 ≤ 4294967296) :
    ∃ m, ilInitImage junk w h 1 bpp fmt IL_UNSIGNED_BYTE none = .ok (some m) ∧ m.Consistent ∧ m.bpc = 1 ∧ m.bpp = bpp ∧
      m.width = w ∧ m.height = h ∧ m.depth = 1 ∧ m.size + 512 ≤ 4294967296 := by
  have hle : w * bpp * 1 * h * 1 ≤ w * h * 4 := by
    have : w * bpp * 1 * h * 1 = w * h * bpp := by grind
    rw [this]
    exact Nat.mul_le_mul_left _ hb
  have ht : ilGetBpcType IL_UNSIGNED_BYTE = 1 := rfl
  obtain ⟨m, e, c, f1, f2, f3, f4, f5, _⟩ := C14_geometry_partial junk w h 1 bpp fmt IL_UNSIGNED_BYTE none (by rw [ht]; decide)
    (by rw [ht, Nat.max_eq_left hw, Nat.max_eq_left hh, Nat.max_self]; omega) (fun _ h => nomatch h)
  rw [ht] at f5
  rw [Nat.max_eq_left hw] at f1
  rw [Nat.max_eq_left hh] at f2
  refine ⟨m, e, c, f5, f4, f1, f2, f3, ?_⟩
  have : m.size = w * bpp * 1 * h * 1 := by rw [c.2.2.1, f1, f2, f4, f5, f3]; rfl
  omega

theorem Consistent_of_data {m : Img} {d : List UInt8} {f o : Nat} (h : m.Consistent) (hd : d.length = m.size) :
    ({ m with data := d, format := f, origin := o } : Img).Consistent := ⟨h.1, h.2.1, h.2.2.1, hd⟩

theorem pixels_safe {junk : Nat → UInt8} {comp : Bool} {m : Img} {l : R} (hm : Fits m) (hg : Good l) :
    Holds (readPixels junk comp m l) (fun r => Good r.2.2 ∧ ∃ d, r.2.1 = { m with data := d } ∧ d.length = m.size) := by
  unfold readPixels
  have hs := hm.size
  refine Holds.ite (fun _ => ?_) (fun _ => ?_)
  · refine Holds.bind (P := fun r : Bool × List UInt8 × R => Good r.2.2 ∧ r.2.1.length = m.size) ?_ fun r hr => ?_
    · unfold iUncompressTgaData
      rw [hm.sizeEq]
      refine (decide_safe' hm hg).bind fun t ht => Holds.pure ⟨ht.2, ht.1⟩
    · exact Holds.pure ⟨hr.1, _, rfl, hr.2⟩
  · refine (holds_readAt (off := 0) (dst := m.data) (size := 1) (number := m.size) hg ?_).bind fun r hr => ?_
    · rw [Nat.one_mul, u32_of_lt (by omega), hm.cons.2.2.2]; omega
    · exact Holds.pure ⟨hr.1, _, rfl, by rw [hr.2.2, hm.cons.2.2.2]⟩
where
  decide_safe' {junk : Nat → UInt8} {m : Img} {l : R} (hm : Fits m) (hg : Good l) :
    Holds (whileF (fun s : D => !s.failed && decide (s.done < m.size)) (tgaStep junk m.bpp m.size) (m.size + 1) ⟨0, m.data, l, false⟩)
      (fun t => t.data.length = m.size ∧ Good t.inp) :=
    (decode_safe hm.bpp0 hm.bpp hm.size m.data l hm.cons.2.2.2 hg).mono fun _ h => ⟨h.1, h.2.1⟩

theorem id_safe {junk : Nat → UInt8} {n : Nat} {l : R} (hn : n < 256) (hg : Good l) :
    Holds (readId junk n l) (fun r => Good r.2) := by
  unfold readId
  refine (holds_readAt (off := 0) (dst := alloc junk 255) (size := 1) (number := n) hg ?_).bind fun r hr => Holds.pure hr.1
  rw [Nat.one_mul, u32_of_lt (by omega), alloc_length]; omega

theorem i16_safe {big : Bool} {junk : Nat → UInt8} {m : Img} (hm : Fits m) (hd1 : m.depth = 1) (hb : m.bpp = 2)
    (hw : 0 < m.width) (hh : 0 < m.height) (hfit : m.width * m.height * 4 + 512 ≤ 4294967296) :
    Holds (i16BitTarga big junk m) (fun r => ∃ m', r = some m' ∧ m'.Consistent) := by
  unfold i16BitTarga
  have hsz : m.data.length = m.width * m.height * 2 := by
    rw [hm.cons.2.2.2, hm.cons.2.2.1, hd1, hb, hm.bpc]; grind
  rw [u32_of_lt (show m.width * m.height < 4294967296 by omega), u32_of_lt (show m.width * m.height * 3 < 4294967296 by omega)]
  refine (Holds.loop (I := fun _ (b : List UInt8) => b.length = m.width * m.height * 3) (by simp) ?_).bind fun d hdl => ?_
  · intro k t hk ht
    unfold shortAt
    have b1 : 2 * k + 1 < m.data.length := by omega
    refine Holds.bind (P := fun _ => True) ?_ fun v _ => ?_
    · refine (Holds.rd (by omega)).bind fun a _ => (Holds.rd b1).bind fun b _ => Holds.pure trivial
    · refine (Holds.wr (by omega)).bind fun b1 h1 => (Holds.wr (by omega)).bind fun b2 h2 => (Holds.wr (by omega)).mono fun b3 h3 => ?_
      omega
  · have ht : ilGetBpcType IL_UNSIGNED_BYTE = 1 := rfl
    have e3 : m.width * 3 * 1 * m.height * 1 = m.width * m.height * 3 := by grind
    obtain ⟨m', e, c, _⟩ := C14_geometry_partial junk m.width m.height 1 3 IL_BGR IL_UNSIGNED_BYTE (some d) (by rw [ht]; decide)
      (by rw [ht, Nat.max_eq_left hw, Nat.max_eq_left hh, Nat.max_self]; omega)
      (by intro s hs; cases hs; rw [ht, Nat.max_eq_left hw, Nat.max_eq_left hh, Nat.max_self]; omega)
    exact ⟨_, e, m', rfl, c⟩

theorem pal16_safe {big : Bool} {junk : Nat → UInt8} {n : Nat} {l : R} (hg : Good l) (pal : List UInt8) (hn : 0 < n → 4 ≤ pal.length) :
    Holds (read16Pal big junk n pal l) (fun r => Good r.2.2) := by
  unfold read16Pal
  refine (Holds.loop (I := fun _ (s : Bool × List UInt8 × R) => Good s.2.2 ∧ s.2.1.length = pal.length) ⟨hg, rfl⟩ ?_).mono fun r hr => hr.1
  rintro k ⟨ok, d, l⟩ hk ⟨hg, hd⟩
  simp only at hg hd ⊢
  have h4 := hn (by omega)
  refine Holds.ite (fun _ => ?_) (fun _ => Holds.pure ⟨hg, hd⟩)
  refine (holds_getBigUShort hg).bind fun r hr => ?_
  refine Holds.ite (fun _ => Holds.pure ⟨hr.1, hd⟩) (fun _ => ?_)
  refine (Holds.wr (by omega)).bind fun b1 h1 => (Holds.wr (by omega)).bind fun b2 h2 => (Holds.wr (by omega)).bind fun b3 h3 =>
    (Holds.wr (by omega)).bind fun b4 h4 => Holds.pure ⟨hr.1, by show b4.length = _; omega⟩

theorem pal_safe {big : Bool} {junk : Nat → UInt8} {h : Head} {psize ptype : Nat} {l : R} (hg : Good l)
    (hp : palShape h = some (psize, ptype)) : Holds (readPal big junk h psize l) (fun r => Good r.2.2) := by
  have hlt : psize < 4294967296 := by
    unfold palShape at hp
    have : ∀ i : Int, ofInt i < 4294967296 := fun i => by unfold ofInt; omega
    split at hp
    · cases hp; exact this _
    · split at hp
      · cases hp; exact this _
      · split at hp
        · cases hp; exact this _
        · exact nomatch hp
  unfold readPal
  refine Holds.ite (fun _ => ?_) (fun _ => ?_)
  · refine (holds_readAt (off := 0) (dst := alloc junk psize) (size := 1) (number := psize) hg ?_).bind fun r hr => Holds.pure hr.1
    rw [Nat.one_mul, u32_of_lt hlt, alloc_length]; omega
  · exact pal16_safe hg _ (by rw [alloc_length]; omega)

/-! ## C77 -/

/-- **C77 (partial).** Loading any non-empty byte string as Targa over any image terminates without touching memory outside the
file, the image, its palette or the local arrays, and leaves an image whose pixel block has the size its dimensions require,
provided the width and height in the file's header have `width * height * 4 + 512 ≤ 2^32`.
Missing, and false: larger dimensions, see `C77_violated_16bit`. -/
theorem C77_safe_partial (big : Bool) (junk : Nat → UInt8) (cur : Loaded) (hcur : cur.1.Consistent) (file : List UInt8)
    (h0 : 0 < file.length) (hlt : file.length < 4294967295)
    (hdim : ∀ pre w h rest, file = pre ++ (leBytes 2 w ++ (leBytes 2 h ++ rest)) → pre.length = 12 → w < 65536 → h < 65536 →
      w * h * 4 + 512 ≤ 4294967296) :
    ∃ ok m pal l, iLoadTargaInternal big junk cur (open_ file file.length) = .ok (ok, (m, pal), l) ∧ m.Consistent := by
  have hg := (at_open h0 hlt).1
  have hpos : (open_ file file.length).pos = 0 := rfl
  unfold iLoadTargaInternal
  obtain ⟨⟨h, l⟩, e, g1, hdata, hid, _, _, hshort⟩ := head_safe (big := big) (junk := junk) hg hpos
  simp only at g1 hid hshort
  rw [e, bind_ok]
  simp only []
  cases hc : iCheckTarga h with
  | none => exact ⟨false, cur.1, cur.2, l, rfl, hcur⟩
  | some h' =>
    obtain ⟨hb, ew, eh, ei, w0, hh0, nb, nd⟩ := check_spec hc
    simp only []
    by_cases ht : h'.imageType = 0
    · rw [if_pos ht]; exact ⟨false, cur.1, cur.2, l, rfl, hcur⟩
    rw [if_neg ht]
    have hfit : h'.width * h'.height * 4 + 512 ≤ 4294967296 := by
      have h18 : 18 ≤ file.length := by
        by_cases hs : file.length < 18
        · rcases hshort hs with h | h
          · exact absurd h nb
          · exact absurd h nd
        · omega
      obtain ⟨id, cmp, type, first, len, ent, ox, oy, w, hh, bpp, desc, rest, ef⟩ := split_head h18
      have hat := at_open h0 hlt
      rw [ef] at hat
      rw [← ef] at hat
      have hat' : At (open_ file file.length) (headBytes id cmp type first len ent ox oy w hh bpp desc rest) := ⟨hg, ef⟩
      have e2 := (head_spec (big := big) (junk := junk) hat').1
      rw [e] at e2
      cases e2
      rw [ew, eh]
      refine hdim (id :: cmp :: type :: (leBytes 2 first.toNat ++ (leBytes 2 len.toNat ++ (ent :: (leBytes 2 ox.toNat ++
        leBytes 2 oy.toNat))))) w.toNat hh.toNat (bpp :: desc :: rest) ?_ ?_ w.isLt hh.isLt
      · rw [ef]; unfold headBytes; simp
      · simp
    have key : Holds (readBody big junk h' cur l) (fun r => r.2.1.1.Consistent) := by
      have hbb : h'.bpp / 8 ≤ 4 ∧ 0 < h'.bpp / 8 := by omega
      have hid' : h'.idLen < 256 := by rw [ei]; exact hid
      unfold readBody
      refine Holds.ite (fun _ => ?_) (fun _ => Holds.ite (fun _ => ?_) (fun _ => ?_))
      · unfold iReadColMapTga
        refine (id_safe hid' g1).bind fun r hr => ?_
        refine Holds.ite (fun _ => Holds.pure hcur) (fun _ => ?_)
        obtain ⟨m, em, c, f1, f2, f3, f4, f5, f6⟩ := init_safe (junk := junk) (fmt := 0) hbb.1 w0 hh0 hfit
        rw [em, bind_ok]
        simp only []
        have hm : Fits { m with format := IL_COLOUR_INDEX } := ⟨⟨c.1, c.2.1, c.2.2.1, c.2.2.2⟩, f1, by show 0 < m.bpp; omega, by show m.bpp ≤ 4; omega, f6⟩
        cases hps : palShape h' with
        | none => exact Holds.pure hm.cons
        | some q =>
          obtain ⟨psize, ptype⟩ := q
          simp only []
          refine (pal_safe hr hps).bind fun r2 hr2 => ?_
          refine Holds.ite (fun _ => Holds.pure hm.cons) (fun _ => ?_)
          refine (pixels_safe hm hr2).bind fun r3 hr3 => ?_
          obtain ⟨_, d, ed, hd⟩ := hr3
          refine Holds.pure ?_
          show r3.2.1.Consistent
          rw [ed]
          exact ⟨c.1, c.2.1, c.2.2.1, hd⟩
      · unfold iReadUnmapTga
        refine (id_safe hid' g1).bind fun r hr => ?_
        refine Holds.ite (fun _ => Holds.pure hcur) (fun _ => ?_)
        obtain ⟨m, em, c, f1, f2, f3, f4, f5, f6⟩ := init_safe (junk := junk) (fmt := 0) hbb.1 w0 hh0 hfit
        rw [em, bind_ok]
        simp only []
        have hm : Fits { m with format := unmapFormat m.bpp } := ⟨⟨c.1, c.2.1, c.2.2.1, c.2.2.2⟩, f1, by show 0 < m.bpp; omega, by show m.bpp ≤ 4; omega, f6⟩
        refine (pixels_safe hm hr).bind fun r3 hr3 => ?_
        obtain ⟨_, d, ed, hd⟩ := hr3
        have hm2 : Fits r3.2.1 := by
          rw [ed]
          exact ⟨⟨c.1, c.2.1, c.2.2.1, hd⟩, f1, hm.bpp0, hm.bpp, f6⟩
        refine Holds.ite (fun _ => Holds.pure hm2.cons) (fun _ => Holds.ite (fun h16 => ?_) (fun _ => Holds.pure hm2.cons))
        have g3 : r3.2.1.width = h'.width := by rw [ed]; exact f3
        have g4 : r3.2.1.height = h'.height := by rw [ed]; exact f4
        refine (i16_safe hm2 (by rw [ed]; exact f5) (by rw [ed]; show m.bpp = 2; omega) (by omega) (by omega)
          (by rw [g3, g4]; exact hfit)).bind fun r4 hr4 => ?_
        obtain ⟨m', em', c'⟩ := hr4
        rw [em']
        exact Holds.pure c'
      · unfold iReadBwTga
        refine (id_safe hid' g1).bind fun r hr => ?_
        refine Holds.ite (fun _ => Holds.pure hcur) (fun _ => ?_)
        obtain ⟨m, em, c, f1, f2, f3, f4, f5, f6⟩ := init_safe (junk := junk) (fmt := IL_LUMINANCE) hbb.1 w0 hh0 hfit
        rw [em, bind_ok]
        simp only []
        have hm : Fits m := ⟨c, f1, by omega, by omega, f6⟩
        refine (pixels_safe hm hr).bind fun r3 hr3 => ?_
        obtain ⟨_, d, ed, hd⟩ := hr3
        refine Holds.pure ?_
        show r3.2.1.Consistent
        rw [ed]
        exact ⟨c.1, c.2.1, c.2.2.1, hd⟩
    obtain ⟨⟨ok, ⟨m, pal⟩, l'⟩, ek, hk⟩ := key
    rw [ek, bind_ok]
    exact ⟨true, _, pal, l', rfl, hk⟩

/-- A file whose header announces a 2x1 image meets the bound. -/
example (pre rest : List UInt8) (w h : Nat)
    (e : [0, 0, 2, 0, 0, 0, 0, 0, 0, 0, 0, 0, 2, 0, 1, 0, 24, 0, 1, 2, 3, 4, 5, 6] = pre ++ (leBytes 2 w ++ (leBytes 2 h ++ rest)))
    (hp : pre.length = 12) (hw : w < 65536) (hh : h < 65536) : w * h * 4 + 512 ≤ 4294967296 := by
  have e1 := congrArg (List.drop 12) e
  rw [List.drop_left' hp] at e1
  have e2 := congrArg (List.take 2) e1
  have e3 := congrArg (List.take 2) (congrArg (List.drop 2) e1)
  rw [List.take_left' (by simp)] at e2
  rw [List.drop_left' (by simp), List.take_left' (by simp)] at e3
  have hw2 : w = 2 := by rw [← leVal_leBytes 2 w hw, ← e2]; decide
  have hh2 : h = 1 := by rw [← leVal_leBytes 2 h hh, ← e3]; decide
  subst hw2; subst hh2; decide

/-- An image to load over. -/
def cur0 : Loaded := (grey22, none)

/-- A 22-byte file: type 2, 33025x65026, 16 bits per pixel. -/
def bomb : List UInt8 := [0, 0, 2, 0, 0, 0, 0, 0, 0, 0, 0, 0, 0x01, 0x81, 0x02, 0xFE, 16, 0, 1, 2, 3, 4]

theorem i16_oob {big : Bool} {junk : Nat → UInt8} {m : Img} {x : Nat} (h1 : m.data.length = 2 * x) (h2 : x < u32 (m.width * m.height))
    (h3 : 3 * x ≤ u32 (m.width * m.height * 3)) : i16BitTarga big junk m = .error .oobRead := by
  unfold i16BitTarga
  have key : ∀ k t, k < x → t.length = u32 (m.width * m.height * 3) → ∃ t', (do
    let v ← shortAt big m.data k
    let d ← wr t (3 * k) (UInt8.ofNat ((v &&& 0x001F#16) <<< 3).toNat)
    let d ← wr d (3 * k + 1) (UInt8.ofNat ((v &&& 0x03E0#16) >>> 2).toNat)
    wr d (3 * k + 2) (UInt8.ofNat ((v &&& 0x7C00#16) >>> 7).toNat) : C (List UInt8)) = .ok t' ∧ t'.length = u32 (m.width * m.height * 3) := by
    intro k t hk ht
    show Holds _ (fun t' : List UInt8 => t'.length = u32 (m.width * m.height * 3))
    refine Holds.bind (P := fun _ => True) ?_ fun v _ => ?_
    · unfold shortAt
      refine (Holds.rd (by omega)).bind fun a _ => (Holds.rd (by omega)).bind fun b _ => Holds.pure trivial
    · refine (Holds.wr (by omega)).bind fun b1 h1 => (Holds.wr (by omega)).bind fun b2 h2 => (Holds.wr (by omega)).mono fun b3 h3 => ?_
      omega
  obtain ⟨t, et, ht⟩ := loopN_inv (fun _ (t : List UInt8) => t.length = u32 (m.width * m.height * 3)) (n := x)
    (s := alloc junk (u32 (m.width * m.height * 3))) (by simp) key
  rw [loopN_error h2 et]
  · rfl
  · unfold shortAt
    rw [rd_of_ge (by omega)]
    rfl

/-- **C77 is violated for large dimensions.** Loading this 22-byte file reads past the end of the pixel block: the number of bytes
of the image wraps around to 4, but all 2147483650 pixels are converted. -/
theorem C77_violated_16bit (junk : Nat → UInt8) (cur : Loaded) :
    iLoadTargaInternal false junk cur (open_ bomb 22) = .error .oobRead := by
  have hat : At (open_ bomb 22) (headBytes 0 0 2 0 0 0 0 0 33025 65026 16 0 [1, 2, 3, 4]) := ⟨⟨rfl, by decide, by decide, by decide⟩, rfl⟩
  obtain ⟨e, ha⟩ := head_spec (big := false) (junk := junk) hat
  unfold iLoadTargaInternal
  rw [e, bind_ok]
  simp only []
  have hchk : iCheckTarga ⟨(0 : UInt8).toNat, (0 : UInt8).toNat, (2 : UInt8).toNat, 0, 0, (0 : UInt8).toNat, 0, 0, (33025 : BitVec 16).toNat,
      (65026 : BitVec 16).toNat, (16 : UInt8).toNat, (0 : UInt8).toNat⟩ = some ⟨0, 0, 2, 0, 0, 0, 0, 0, 33025, 65026, 16, 0⟩ := by decide
  rw [hchk]
  simp only []
  rw [if_neg (by decide)]
  unfold readBody
  rw [if_neg (by decide), if_pos (by decide)]
  unfold iReadUnmapTga
  have hid : readId junk 0 (adv (open_ bomb 22) 18) = .ok (true, adv (open_ bomb 22) 18) := by
    unfold readId
    rw [At.readAt (bs := []) ha rfl (by decide) (by simp)]
    rfl
  rw [hid, bind_ok]
  simp only [Bool.not_true, Bool.false_eq_true, if_false]
  obtain ⟨m, hm⟩ : ∃ m : Img, m = { geometry 33025 65026 1 2 0 IL_UNSIGNED_BYTE [] with data := alloc junk 4 } := ⟨_, rfl⟩
  have hinit : ilInitImage junk 33025 65026 1 (16 / 8) 0 IL_UNSIGNED_BYTE none = .ok (some m) := by
    rw [hm]; rfl
  rw [hinit, bind_ok]
  simp only []
  have hms : m.size = 4 := by rw [hm]; rfl
  have hmd : m.data = alloc junk 4 := by rw [hm]
  have hpx : readPixels junk (decide (2 = 10)) { m with format := unmapFormat m.bpp } (adv (open_ bomb 22) 18) =
      .ok (true, { m with format := unmapFormat m.bpp, data := [1, 2, 3, 4] }, adv (open_ bomb 22) 22) := by
    unfold readPixels
    rw [if_neg (by decide)]
    show (readAt (adv (open_ bomb 22) 18) m.data 0 1 m.size >>= _) = _
    rw [hms, hmd, At.readAt (bs := [1, 2, 3, 4]) (rest := []) ha rfl (by decide) (by simp), bind_ok]
    show Except.ok (decide (4 = 4), { m with format := unmapFormat m.bpp, size := 4, data := [1, 2, 3, 4] }, _) = _
    rw [hm]
    rfl
  rw [hpx, bind_ok]
  simp only [Bool.not_true, Bool.false_eq_true, if_false, if_true]
  rw [i16_oob (x := 2) rfl]
  · rfl
  · rw [hm]; show 2 < u32 (33025 * 65026); decide
  · rw [hm]; show 3 * 2 ≤ u32 (33025 * 65026 * 3); decide

/-! ## C79 -/

/-- A 2x1 colour image of which all six pixel bytes are missing. -/
def cut : List UInt8 := [0, 0, 2, 0, 0, 0, 0, 0, 0, 0, 0, 0, 2, 0, 1, 0, 24, 0]

set_option maxRecDepth 20000 in
/-- **C79 is violated (1).** A Targa file that ends after its header is reported as loaded; the pixels of the image are whatever
the memory held. -/
theorem C79_violated_truncated :
    (iLoadTargaInternal false (fun _ => 9) cur0 (open_ cut 18)).map (fun r => (r.1, r.2.1.1.width, r.2.1.1.height, r.2.1.1.bpp, r.2.1.1.data)) =
      .ok (true, 2, 1, 3, [9, 9, 9, 9, 9, 9]) := by
  rfl

set_option maxRecDepth 20000 in
/-- **C79 is violated (2).** A run-length Targa file that ends in the middle of its data is reported as loaded; after the end, the
last byte is read again and again. -/
theorem C79_violated_rle :
    (iLoadTargaInternal false (fun _ => 9) cur0 (open_ [0, 0, 11, 0, 0, 0, 0, 0, 0, 0, 0, 0, 4, 0, 1, 0, 8, 0, 0, 7] 20)).map
      (fun r => (r.1, r.2.1.1.data)) = .ok (true, [7, 7, 7, 7]) := by
  rfl

end DevIL.Targa
