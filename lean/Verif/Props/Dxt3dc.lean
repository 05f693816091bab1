import Verif.Lemmas.Dxt3dc
import Verif.Props.DxtSave
/-! Property C156: compressing pictures to 3Dc data. -/
set_option autoImplicit false
namespace DevIL.DxtSave
open DevIL.Image DevIL.Lump DevIL.Dxt DevIL.Conv DevIL.ConvImage DevIL.DxtSpec

/-- **C156 (part): safety.** A picture with colours whose width and height are multiples of 4 is compressed to 3Dc without touching memory outside of the
picture; 16 bytes are written for each block.  Missing: all other pictures, see the violations. -/
theorem C156_safe_partial (big : Bool) (k : Mem) {m : Img} (h : Picture m) (hn : m.format ≠ IL_LUMINANCE) (hna : m.format ≠ IL_LUMINANCE_ALPHA)
    (hw : m.width % 4 = 0) (hh : m.height % 4 = 0) :
    ∃ ops, Compress big k m IL_3DC = .ok (some (ops, dxtcSize m IL_3DC)) ∧ (output ops).length = dxtcSize m IL_3DC := by
  obtain ⟨d, ed, ld⟩ := to88_ok k.bytes h hn hna
  have al : ∀ b : List UInt8, (∀ op ∈ alphaOps b, Lump.Plain op) ∧ (output (alphaOps b)).length = 8 := fun b =>
    ⟨(alphaOps_plain b).1, by rw [(alphaOps_plain b).2]; simp [GenAlphaBitMask]⟩
  have hblk : ∀ z y x, z < m.depth → y < (m.height + 3) / 4 → x < (m.width + 3) / 4 → ∃ a b,
      Get3DcBlock d (z * (m.width * m.height * 2)) m.width m.height (4 * x) (4 * y) 0 = .ok a ∧
      Get3DcBlock d (z * (m.width * m.height * 2)) m.width m.height (4 * x) (4 * y) 1 = .ok b := by
    intro z y x hz hy hx
    have hb : z * (m.width * m.height * 2) + 2 * (m.width * m.height) ≤ d.length := by
      rw [ld]
      have := Nat.mul_le_mul_right (m.width * m.height * 2) (show z + 1 ≤ m.depth by omega)
      rw [Nat.succ_mul] at this
      omega
    obtain ⟨a, ha⟩ := get3dc_ok (d := d) (xp := 4 * x) (yp := 4 * y) (ch := 0) (by omega) (by omega) (by decide) hb
    obtain ⟨b, hb'⟩ := get3dc_ok (d := d) (xp := 4 * x) (yp := 4 * y) (ch := 1) (by omega) (by omega) (by decide) hb
    exact ⟨a, b, ha, hb'⟩
  let val : C (List UInt8) → List UInt8 := fun c => match c with | .ok a => a | .error _ => []
  obtain ⟨ops, eo, _, hl, _⟩ := eachBlk_spec (m := m) (f := fun z y x => do
      let a ← Get3DcBlock d (z * (m.width * m.height * 2)) m.width m.height x y 0
      let b ← Get3DcBlock d (z * (m.width * m.height * 2)) m.width m.height x y 1
      pure (alphaOps a ++ alphaOps b))
    (g := fun z y x => alphaOps (val (Get3DcBlock d (z * (m.width * m.height * 2)) m.width m.height (4 * x) (4 * y) 0)) ++
      alphaOps (val (Get3DcBlock d (z * (m.width * m.height * 2)) m.width m.height (4 * x) (4 * y) 1))) (n := 16) (fun z y x hz hy hx => by
      obtain ⟨a, b, ea, eb⟩ := hblk z y x hz hy hx
      refine ⟨by rw [ea, eb]; rfl, fun op hop => ?_, ?_⟩
      · rw [List.mem_append] at hop
        rcases hop with ho | ho
        · exact (al _).1 op ho
        · exact (al _).1 op ho
      · rw [output_append, List.length_append, (al _).2, (al _).2])
  rw [total] at hl
  have hbl := h.blocks
  have hs : dxtcSize m IL_3DC = bytes 16 m.width m.height m.depth := by
    have h0 : (m.width + 3) / 4 * ((m.height + 3) / 4) * m.depth * 16 < 4294967296 := hbl
    unfold dxtcSize
    rw [u32_of_lt (by omega), if_neg (by decide), if_pos (by decide), u32_of_lt h0]
    rfl
  refine ⟨ops, ?_, by rw [hl, hs]⟩
  unfold Compress
  rw [if_pos rfl, ed, bind_ok, eo, bind_ok, hs]
  unfold count
  rw [total, u32_of_lt hbl]
  rfl

/-- A picture of 4x4 pixels. -/
def tile : Img := ⟨4, 4, 1, 3, 1, 12, 48, 48, IL_BGR, IL_UNSIGNED_BYTE, IL_ORIGIN_LOWER_LEFT, (List.range 48).map UInt8.ofNat⟩

example (big : Bool) (k : Mem) : ∃ ops, Compress big k tile IL_3DC = .ok (some (ops, 16)) ∧ (output ops).length = 16 := by
  have h : Picture tile := ⟨⟨by decide, by decide, by decide, by decide, by decide, by decide, by decide, by decide, by decide⟩, rfl, by decide, by decide, by decide⟩
  exact C156_safe_partial big k h (by decide) (by decide) rfl rfl

/-- **C156 is violated: heights that are not multiples of 4.** Every such picture with colours is read past its end. -/
theorem C156_violated_rows (big : Bool) (k : Mem) {m : Img} (h : Picture m) (hn : m.format ≠ IL_LUMINANCE) (hna : m.format ≠ IL_LUMINANCE_ALPHA)
    (hh : m.height % 4 ≠ 0) : Compress big k m IL_3DC = .error .oobRead := by
  obtain ⟨d, ed, ld⟩ := to88_ok k.bytes h hn hna
  have hd0 := h.plain.d0
  have hw0 := h.plain.w0
  have hh0 := h.plain.h0
  unfold Compress
  rw [if_pos rfl, ed, bind_ok]
  rw [each_fails (z := m.depth - 1) (y := (m.height - 1) / 4) (x := 0) (fun z y x => ?_) (by omega) (by omega) (by omega) ?_]
  · rfl
  · rw [get3dc_fails]
    · rfl
    · rw [ld]
      have h1 : m.depth * (m.width * m.height * 2) = (m.depth - 1) * (m.width * m.height * 2) + m.width * m.height * 2 := by
        rw [← Nat.succ_mul]
        congr 1
        omega
      have h2 : m.height * m.width ≤ (4 * ((m.height - 1) / 4) + 3) * m.width := Nat.mul_le_mul_right _ (by omega)
      rw [Nat.add_mul] at h2
      rw [h1, Nat.mul_comm m.width m.height]
      omega
  · exact (get3dc_rdOnly _ _ _ _ _ _ _).bind (fun a => (get3dc_rdOnly _ _ _ _ _ _ _).bind (fun b => .inr ⟨_, rfl⟩))

example (big : Bool) (k : Mem) : Compress big k photo.img IL_3DC = .error .oobRead :=
  C156_violated_rows big k photo_picture (by decide) (by decide) (by decide)

/-- **C156 is violated: luminance with alpha.** Every such picture is written past the end of a buffer. -/
theorem C156_violated_luminance_alpha (big : Bool) (k : Mem) {m : Img} (h : Picture m) (hf : m.format = IL_LUMINANCE_ALPHA) :
    Compress big k m IL_3DC = .error .oobWrite := by
  obtain ⟨hs, hlt, h0⟩ := h.size
  have hb : m.bpp = 2 := by rw [h.plain.bpp, hf]; rfl
  have hp : 0 < pixels m := by
    unfold pixels
    exact Nat.mul_pos (Nat.mul_pos h.plain.d0 h.plain.h0) h.plain.w0
  have e2 : u32 (m.width * m.height * 2 * m.depth) = pixels m * 2 := by
    rw [show m.width * m.height * 2 * m.depth = pixels m * 2 by unfold pixels; grind, u32_of_lt (by omega)]
  have hw : ∀ (d : List UInt8) i (v : UInt8), d.length ≤ i → wr d i v = .error .oobWrite := by
    intro d i v hi
    unfold wr
    rw [if_neg (by omega)]
  unfold Compress CompressTo88
  rw [if_pos rfl, if_pos (.inr hf), e2]
  rw [loop_fails (f := .oobWrite) (fun _ (d : List UInt8) => d.length = pixels m * 2) (m := pixels m) (by simp [alloc]) (fun i t hi ht => ?_)
    (by rw [hs, hb]; omega) (fun t ht => ?_)]
  · rfl
  · by_cases hl : 2 * i + 1 < t.length
    · refine .inr (Holds.bind (Holds.wr hl) (fun t1 h1 => Holds.mono (Holds.wr (by omega)) (fun t2 h2 => by omega)))
    · rw [hw _ _ _ (by omega)]
      exact .inl rfl
  · rw [hw _ _ _ (by omega)]
    rfl

example (big : Bool) (k : Mem) : Compress big k ⟨1, 1, 1, 2, 1, 2, 2, 2, IL_LUMINANCE_ALPHA, IL_UNSIGNED_BYTE, IL_ORIGIN_UPPER_LEFT, [9, 15]⟩ IL_3DC = .error .oobWrite :=
  C156_violated_luminance_alpha big k
    ⟨⟨by decide, by decide, by decide, by decide, by decide, by decide, by decide, by decide, by decide⟩, rfl, by decide, by decide, by decide⟩ rfl

/-- **C156 is violated: luminance.** All values of a luminance picture are lost: the buffer that is compressed holds zeros. -/
theorem C156_violated_luminance (k : Mem) {m : Img} (h : Picture m) (hf : m.format = IL_LUMINANCE) :
    CompressTo88 k.bytes m = .ok (List.replicate (m.width * m.height * 2 * m.depth) 0) := by
  obtain ⟨hs, hlt, h0⟩ := h.size
  have hb : m.bpp = 1 := by rw [h.plain.bpp, hf]; rfl
  have e2 : m.width * m.height * 2 * m.depth = pixels m * 2 := by unfold pixels; grind
  unfold CompressTo88
  rw [if_pos (.inl hf), e2, u32_of_lt (by omega), hs, hb, Nat.mul_one]
  obtain ⟨d, e, hl, hd⟩ := Holds.loop (f := fun i d => do
      let d ← wr d (2 * i + 1) (0 : UInt8)
      wr d (2 * i) 0) (fun i (d : List UInt8) => d.length = pixels m * 2 ∧ ∀ j, j < 2 * i → d[j]? = some 0) (n := pixels m)
    (s := alloc k.bytes (pixels m * 2)) ⟨by simp [alloc], fun j hj => by omega⟩ (fun i t hi ht => by
      refine Holds.bind (Holds.wr (by omega)) (fun t1 h1 => Holds.mono (Holds.wr (by omega)) (fun t2 h2 => ⟨by omega, fun j hj => ?_⟩))
      rw [h2.2, h1.2, List.getElem?_set, List.getElem?_set]
      split
      · rw [if_pos (by rw [List.length_set]; omega)]
      · split
        · rw [if_pos (by omega)]
        · exact ht.2 j (by omega))
  rw [e]
  congr 1
  refine List.ext_getElem? fun j => ?_
  rw [List.getElem?_replicate]
  split
  · exact hd j (by omega)
  · rw [List.getElem?_eq_none (by omega)]

end DevIL.DxtSave
