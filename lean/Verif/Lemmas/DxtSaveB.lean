import Verif.Lemmas.DxtSave
import Verif.Spec.DxtSave
import Verif.Props.ConvImage
import Verif.Props.Dxt
/-! Lemmas about the DXT compressor: from the picture to the bytes of its blocks. -/
set_option autoImplicit false
namespace DevIL.DxtSave
open DevIL.Image DevIL.Lump DevIL.Dxt DevIL.Conv DevIL.ConvImage DevIL.DxtSpec

/-- A picture of unsigned bytes with colours, of any format but colour index, whose sizes as RGBA and as DXT data fit 32 bits. -/
structure Picture (m : Img) : Prop where
  plain : ConvImage.Plain m
  type : m.type = IL_UNSIGNED_BYTE
  format : m.format ≠ IL_ALPHA
  fits : m.width * m.height * m.depth * 4 < 4294967296
  blocks : bytes 16 m.width m.height m.depth < 4294967296

/-- The value of a channel of a stored pixel. -/
def raw (m : Img) (ch : Chan) (x y z : Nat) : Nat :=
  match place m.format ch with
  | some o => ((m.px x y z o).getD 0).toNat
  | none => 255

theorem Picture.bpc {m : Img} (h : Picture m) : m.bpc = 1 := by
  rw [h.plain.bpc, h.type]
  rfl

/-- The six formats. -/
theorem Picture.cases {m : Img} (h : Picture m) : ∃ r g b, layout m.format = some (m.bpp, r, g, b) ∧ place m.format .red = some r ∧
    place m.format .green = some g ∧ place m.format .blue = some b ∧ r < m.bpp ∧ g < m.bpp ∧ b < m.bpp := by
  have hf := h.plain.format
  have hb := h.plain.bpp
  have ha := h.format
  simp only [formats, List.mem_cons, List.not_mem_nil, or_false] at hf
  rcases hf with e | e | e | e | e | e | e <;> rw [e] at hb ha ⊢ <;> first
    | exact absurd rfl ha
    | (rw [hb]; exact ⟨_, _, _, rfl, rfl, rfl, rfl, by decide, by decide, by decide⟩)

theorem Picture.size {m : Img} (h : Picture m) : m.size = pixels m * m.bpp ∧ pixels m * 4 < 4294967296 ∧ 0 < m.bpp := by
  refine ⟨?_, ?_, by rw [h.plain.bpp]; exact width_pos _⟩
  · rw [h.plain.cons.2.2.1, h.bpc]
    unfold pixels
    grind
  · have := h.fits
    unfold pixels
    rw [show m.depth * m.height * m.width = m.width * m.height * m.depth by grind]
    exact this

theorem idx_lt {m : Img} {x y z : Nat} (hx : x < m.width) (hy : y < m.height) (hz : z < m.depth) : (z * m.height + y) * m.width + x < pixels m := by
  have h1 : z * m.height + y < m.depth * m.height := by
    have := Nat.mul_le_mul_right m.height (show z + 1 ≤ m.depth by omega)
    rw [Nat.succ_mul] at this
    omega
  have := Nat.mul_le_mul_right m.width (show z * m.height + y + 1 ≤ m.depth * m.height by omega)
  rw [Nat.succ_mul] at this
  unfold pixels
  omega

theorem px_at {m : Img} (h : Picture m) (x y z o : Nat) : m.px x y z o = m.data[((z * m.height + y) * m.width + x) * m.bpp + o]? := by
  unfold Img.px
  rw [h.bpc]
  simp only [Nat.mul_one]

theorem in_data {m : Img} (h : Picture m) {j o : Nat} (hj : j < pixels m) (ho : o < m.bpp) : j * m.bpp + o < m.data.length := by
  rw [h.plain.cons.2.2.2, h.size.1]
  have := Nat.mul_le_mul_right m.bpp (show j + 1 ≤ pixels m by omega)
  rw [Nat.succ_mul] at this
  omega

/-- The 16-bit values. -/
theorem to565 (junk : Nat → Nat) {m : Img} (h : Picture m) :
    ∃ d, CompressTo565 junk m = .ok d ∧ ∀ x y z, x < m.width → y < m.height → z < m.depth →
      d[(z * m.height + y) * m.width + x]? = some (As16Bit (raw m .red x y z) (raw m .green x y z) (raw m .blue x y z)) := by
  obtain ⟨r, g, b, hl, hr, hg, hb, lr, lg, lb⟩ := h.cases
  obtain ⟨hs, hf, h0⟩ := h.size
  have e1 : (m.size + (m.bpp - 1)) / m.bpp = pixels m := by
    rw [hs, Nat.add_comm, Nat.add_mul_div_right _ _ h0, Nat.div_eq_of_lt (by omega), Nat.zero_add]
  have e2 : u32 (m.width * m.height * 2 * m.depth) / 2 = pixels m := by
    rw [show m.width * m.height * 2 * m.depth = pixels m * 2 by unfold pixels; grind, u32_of_lt (by omega)]
    omega
  refine ⟨(List.range (pixels m)).map (fun j => As16Bit (m.data.getD (j * m.bpp + r) 0).toNat (m.data.getD (j * m.bpp + g) 0).toNat (m.data.getD (j * m.bpp + b) 0).toNat), ?_, ?_⟩
  · unfold CompressTo565
    rw [hl, e2]
    dsimp only
    rw [e1, loopN_congr (g := fun j d => wr d j (As16Bit (m.data.getD (j * m.bpp + r) 0).toNat (m.data.getD (j * m.bpp + g) 0).toNat (m.data.getD (j * m.bpp + b) 0).toNat)),
      loopN_fill _ (by rw [alloc_length])]
    · rw [List.drop_of_length_le (by rw [alloc_length]), List.append_nil]
    · intro j t hj
      rw [rd_of_lt (in_data h hj lr), bind_ok, rd_of_lt (in_data h hj lg), bind_ok, rd_of_lt (in_data h hj lb), bind_ok]
      simp only [List.getD_eq_getElem?_getD, List.getElem?_eq_getElem (in_data h hj lr), List.getElem?_eq_getElem (in_data h hj lg),
        List.getElem?_eq_getElem (in_data h hj lb), Option.getD_some]
  · intro x y z hx hy hz
    rw [List.getElem?_map, List.getElem?_range (idx_lt hx hy hz)]
    simp only [Option.map_some, raw, hr, hg, hb, px_at h, List.getD_eq_getElem?_getD]

/-- The alphas. -/
theorem toAlpha (junk : Nat → UInt8) {m : Img} (h : Picture m) :
    ∃ d, ilGetAlpha junk m IL_UNSIGNED_BYTE = .ok (some d) ∧ ∀ x y z, x < m.width → y < m.height → z < m.depth →
      d[(z * m.height + y) * m.width + x]? = some (UInt8.ofNat (raw m .alpha x y z)) := by
  obtain ⟨hs, hf, h0⟩ := h.size
  rw [← h.type]
  cases ho : place m.format .alpha with
  | none =>
    refine ⟨_, C73_opaque h.plain ho, fun x y z hx hy hz => ?_⟩
    rw [h.bpc, Nat.mul_one, List.getElem?_replicate, if_pos (idx_lt hx hy hz)]
    unfold raw
    rw [ho]
    rfl
  | some o =>
    obtain ⟨d, e, _, hp⟩ := C73_get_partial (junk := junk) h.plain ho (by rw [h.type]; decide)
    refine ⟨d, e, fun x y z hx hy hz => ?_⟩
    have := hp x y z 0 hx hy hz (by rw [h.bpc]; decide)
    rw [h.bpc, Nat.mul_one, Nat.add_zero] at this
    rw [this]
    have hlo : o < m.bpp := by rw [h.plain.bpp]; exact Conv.place_lt h.plain.format ho
    unfold raw Channels.comp
    rw [ho, h.bpc, Nat.mul_one, Nat.add_zero]
    dsimp only
    rw [px_at h, List.getElem?_eq_getElem (in_data h (idx_lt hx hy hz) hlo), Option.getD_some, UInt8.ofNat_toNat]

/-- The 16-bit values of a block. -/
def cblk (m : Img) (z y x : Nat) : List Nat := (List.range 16).map fun k =>
  let u := bcol m.width m.height (4 * x) (4 * y) (k / 4) (k % 4)
  let v := brow m.height (4 * y) (k / 4)
  As16Bit (raw m .red u v z) (raw m .green u v z) (raw m .blue u v z)

/-- The alphas of a block. -/
def ablk (m : Img) (z y x : Nat) : List UInt8 := (List.range 16).map fun k =>
  UInt8.ofNat (raw m .alpha (bcol m.width m.height (4 * x) (4 * y) (k / 4) (k % 4)) (brow m.height (4 * y) (k / 4)) z)

theorem block_is {β : Type} {m : Img} {d : List β} {F : Nat → Nat → Nat → β} (hd : ∀ x y z, x < m.width → y < m.height → z < m.depth →
    d[(z * m.height + y) * m.width + x]? = some (F x y z)) {z y x : Nat} (hz : z < m.depth) (hy : y < (m.height + 3) / 4) (hx : x < (m.width + 3) / 4) :
    GetBlock d (z * (m.width * m.height)) m.width m.height (4 * x) (4 * y) = .ok ((List.range 16).map fun k =>
      F (bcol m.width m.height (4 * x) (4 * y) (k / 4) (k % 4)) (brow m.height (4 * y) (k / 4)) z) := by
  have hw0 : 0 < m.width := by omega
  obtain ⟨blk, e, l, hb⟩ := getBlock_spec (data := d) (base := z * (m.width * m.height)) (w := m.width) (h := m.height) (xp := 4 * x) (yp := 4 * y)
    (by omega) (by omega) (P := fun i => F (i % m.width) (i / m.width) z) (fun i hi => by
      have h1 : i / m.width < m.height := Nat.div_lt_of_lt_mul hi
      have h2 := hd (i % m.width) (i / m.width) z (Nat.mod_lt _ hw0) h1 hz
      rw [← h2]
      congr 1
      have := Nat.div_add_mod i m.width
      calc z * (m.width * m.height) + i = z * (m.width * m.height) + (m.width * (i / m.width) + i % m.width) := by rw [this]
        _ = _ := by grind)
  rw [e]
  congr 1
  refine List.ext_getElem? fun k => ?_
  by_cases hk : k < 16
  · have h1 := hb (k / 4) (k % 4) (by omega) (by omega)
    rw [Nat.div_add_mod] at h1
    have hc : bcol m.width m.height (4 * x) (4 * y) (k / 4) (k % 4) < m.width := by unfold bcol; split <;> omega
    rw [h1, List.getElem?_map, List.getElem?_range hk]
    simp only [Option.map_some]
    rw [Nat.add_comm, Nat.add_mul_mod_self_right, Nat.mod_eq_of_lt hc, Nat.add_mul_div_right _ _ hw0, Nat.div_eq_of_lt hc, Nat.zero_add]
  · rw [List.getElem?_eq_none (by omega), List.getElem?_eq_none (by simp; omega)]

theorem both_is (junk : Nat → Nat) (junk8 : Nat → UInt8) {m : Img} (h : Picture m) :
    ∃ d al, CompressTo565 junk m = .ok d ∧ ilGetAlpha junk8 m IL_UNSIGNED_BYTE = .ok (some al) ∧
      ∀ z y x, z < m.depth → y < (m.height + 3) / 4 → x < (m.width + 3) / 4 →
        both d al m z (4 * y) (4 * x) = .ok (ablk m z y x, cblk m z y x) := by
  obtain ⟨d, e1, h1⟩ := to565 junk h
  obtain ⟨al, e2, h2⟩ := toAlpha junk8 h
  refine ⟨d, al, e1, e2, fun z y x hz hy hx => ?_⟩
  unfold both
  rw [block_is (F := fun x y z => UInt8.ofNat (raw m .alpha x y z)) h2 hz hy hx, bind_ok,
    block_is (F := fun x y z => As16Bit (raw m .red x y z) (raw m .green x y z) (raw m .blue x y z)) h1 hz hy hx]
  rfl

/-- What is written for a block. -/
def enc (fmt : Nat) (big : Bool) (blk : List Nat) (al : List UInt8) : List WOp :=
  if fmt = IL_DXT1 then ops1 big blk al else if fmt = IL_DXT3 then ops3 big blk al else ops5 big blk al

theorem colourOps_plain (big : Bool) (e : Nat × Nat) (bits : Nat) : (∀ op ∈ colourOps big e bits, Plain op) ∧
    output (colourOps big e bits) = leBytes 2 (e.1 % 65536) ++ leBytes 2 (e.2 % 65536) ++ leBytes 4 (bits % 4294967296) := by
  unfold colourOps Bmp.short Bmp.int
  rw [saveLittleUShort_eq, saveLittleUShort_eq, saveLittleUInt_eq]
  refine ⟨fun op hop => ?_, ?_⟩
  · simp only [List.mem_cons, List.not_mem_nil, or_false] at hop
    rcases hop with h | h | h <;> subst h <;> simp [Lump.Plain]
  · simp [output, WOp.bytes, leBytes]

theorem alphaOps_plain (blk : List UInt8) : (∀ op ∈ alphaOps blk, Plain op) ∧
    output (alphaOps blk) = (ChooseAlphaEndpoints blk).1 :: (ChooseAlphaEndpoints blk).2 ::
      GenAlphaBitMask (ChooseAlphaEndpoints blk).1.toNat (ChooseAlphaEndpoints blk).2.toNat blk := by
  refine ⟨fun op hop => ?_, ?_⟩
  · unfold alphaOps at hop
    simp only [List.mem_cons, List.not_mem_nil, or_false] at hop
    rcases hop with h | h | h <;> subst h <;> simp [Lump.Plain, GenAlphaBitMask]
  · simp [output, WOp.bytes, alphaOps, GenAlphaBitMask]

theorem enc_plain (fmt : Nat) (big : Bool) (blk : List Nat) (al : List UInt8) : (∀ op ∈ enc fmt big blk al, Plain op) ∧
    (output (enc fmt big blk al)).length = bsize fmt := by
  unfold enc bsize
  have out : ∀ a b : List WOp, output (a ++ b) = output a ++ output b := fun a b => List.flatMap_append
  split
  · unfold ops1
    dsimp only
    refine ⟨(colourOps_plain _ _ _).1, ?_⟩
    rw [(colourOps_plain _ _ _).2]
    simp
  · split
    · unfold ops3 opsC
      dsimp only
      refine ⟨fun op hop => ?_, ?_⟩
      · rw [List.mem_append] at hop
        rcases hop with h | h
        · rw [List.mem_map] at h
          obtain ⟨_, _, rfl⟩ := h
          trivial
        · exact (colourOps_plain _ _ _).1 op h
      · rw [out, (colourOps_plain _ _ _).2]
        simp [output, WOp.bytes, List.range, List.range.loop]
    · unfold ops5 opsC
      dsimp only
      refine ⟨fun op hop => ?_, ?_⟩
      · rw [List.mem_append] at hop
        rcases hop with h | h
        · exact (alphaOps_plain _).1 op h
        · exact (colourOps_plain _ _ _).1 op h
      · rw [out, (colourOps_plain _ _ _).2, (alphaOps_plain _).2]
        simp [GenAlphaBitMask]

theorem total (m : Img) (n : Nat) : m.depth * ((m.height + 3) / 4) * ((m.width + 3) / 4) * n = bytes n m.width m.height m.depth := by
  unfold bytes
  grind

theorem compress_spec (big : Bool) (k : Mem) {m : Img} (h : Picture m) {fmt : Nat} (hf : fmt = IL_DXT1 ∨ fmt = IL_DXT3 ∨ fmt = IL_DXT5) :
    ∃ ops, Compress big k m fmt = .ok (some (ops, bytes (bsize fmt) m.width m.height m.depth)) ∧ (∀ op ∈ ops, Plain op) ∧
      (output ops).length = bytes (bsize fmt) m.width m.height m.depth ∧
      ∀ z y x i, z < m.depth → y < m.height → x < m.width → i < bsize fmt →
        (output ops)[boff fmt m.width m.height z y x + i]? = (output (enc fmt big (cblk m z (y / 4) (x / 4)) (ablk m z (y / 4) (x / 4))))[i]? := by
  obtain ⟨d, al, e1, e2, hb⟩ := both_is k.words k.bytes h
  obtain ⟨ops, eo, hp, hl, hi⟩ := eachBlk_spec (m := m) (f := fun z y x => do let (a, b) ← both d al m z y x; pure (enc fmt big b a))
    (g := fun z y x => enc fmt big (cblk m z y x) (ablk m z y x)) (n := bsize fmt) (fun z y x hz hy hx => by
      rw [hb z y x hz hy hx]
      exact ⟨rfl, enc_plain _ _ _ _⟩)
  rw [total] at hl
  have hc : count m (bsize fmt) = bytes (bsize fmt) m.width m.height m.depth := by
    unfold count
    rw [total, u32_of_lt]
    have h1 := h.blocks
    refine Nat.lt_of_le_of_lt ?_ h1
    unfold bytes
    exact Nat.mul_le_mul_left _ (by unfold bsize; split <;> decide)
  refine ⟨ops, ?_, hp, hl, fun z y x i hz hy hx hii => ?_⟩
  · unfold Compress
    have n1 : fmt ≠ IL_3DC := by rcases hf with e | e | e <;> rw [e] <;> decide
    have n2 : fmt ≠ IL_ATI1N := by rcases hf with e | e | e <;> rw [e] <;> decide
    have n3 : fmt ≠ IL_RXGB := by rcases hf with e | e | e <;> rw [e] <;> decide
    rw [if_neg n1, if_neg n2, if_neg n3, e1, bind_ok, e2, bind_ok]
    dsimp only
    rw [← hc]
    rcases hf with e | e | e
    · subst e
      rw [if_pos (.inl rfl)]
      have : (fun z y x => do let (a, b) ← both d al m z y x; pure (ops1 big b a)) = (fun z y x => do let (a, b) ← both d al m z y x; pure (enc IL_DXT1 big b a)) := rfl
      rw [this, eo]
      rfl
    · subst e
      rw [if_neg (by decide), if_pos rfl]
      have : (fun z y x => do let (a, b) ← both d al m z y x; pure (ops3 big b a)) = (fun z y x => do let (a, b) ← both d al m z y x; pure (enc IL_DXT3 big b a)) := rfl
      rw [this, eo]
      rfl
    · subst e
      rw [if_neg (by decide), if_neg (by decide), if_pos rfl]
      have : (fun z y x => do let (a, b) ← both d al m z y x; pure (ops5 big b a)) = (fun z y x => do let (a, b) ← both d al m z y x; pure (enc IL_DXT5 big b a)) := rfl
      rw [this, eo]
      rfl
  · exact hi z (y / 4) (x / 4) i hz (by omega) (by omega) hii

/-- The picture with the rows from the top down. -/
theorem upright (junk : Nat → UInt8) {m : Img} (h : Picture m) :
    ∃ d, (if m.origin ≠ IL_ORIGIN_UPPER_LEFT then Manip.iGetFlipped junk m else pure m.data) = .ok d ∧ Picture { m with data := d } ∧
      ∀ ch x y z, x < m.width → y < m.height → z < m.depth → raw { m with data := d } ch x y z = value m ch x y z := by
  have pic : ∀ d : List UInt8, d.length = m.data.length → Picture { m with data := d } := by
    intro d hd
    have c := h.plain.cons
    exact ⟨⟨⟨c.1, c.2.1, c.2.2.1, by rw [← c.2.2.2]; exact hd⟩, h.plain.fits, h.plain.w0, h.plain.h0, h.plain.d0, h.plain.type, h.plain.bpc,
      h.plain.format, h.plain.bpp⟩, h.type, h.format, h.fits, h.blocks⟩
  by_cases ho : m.origin = IL_ORIGIN_UPPER_LEFT
  · refine ⟨m.data, by rw [if_neg (fun hn => hn ho)]; rfl, pic _ rfl, fun ch x y z _ _ _ => ?_⟩
    unfold raw value top
    rw [if_pos ho]
    rfl
  · rw [if_pos ho, Manip.C16_flipped_copy junk m h.plain.cons h.plain.fits]
    obtain ⟨m', e, s, _, hp⟩ := Manip.C16_flip m h.plain.cons h.plain.fits
    rw [e]
    refine ⟨m'.data, rfl, pic _ s.2, fun ch x y z hx hy hz => ?_⟩
    unfold raw value top
    rw [if_neg ho]
    show (match place m.format ch with | some o => _ | none => _) = _
    cases hq : place m.format ch with
    | none => rfl
    | some o =>
      dsimp only
      have hlo : o < m.bpp * m.bpc := by
        rw [h.bpc, Nat.mul_one, h.plain.bpp]
        exact Conv.place_lt h.plain.format hq
      have := hp x (m.height - 1 - y) z o ⟨hx, by omega, hz, hlo⟩
      rw [show m.height - 1 - (m.height - 1 - y) = y by omega] at this
      rw [← this]
      unfold Img.px
      rw [s.1]

end DevIL.DxtSave
