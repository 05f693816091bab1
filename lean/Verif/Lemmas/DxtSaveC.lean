import Verif.Lemmas.DxtSaveB
import Verif.Props.SaveL
/-! Lemmas about the DXT compressor: what the decoder makes of a block it wrote. -/
set_option autoImplicit false
namespace DevIL.DxtSave
open DevIL.Image DevIL.Lump DevIL.Dxt DevIL.Conv DevIL.ConvImage DevIL.DxtSpec

/-! ### The compressed surface -/

theorem bytes_pos {n w h d : Nat} (hn : 0 < n) (hw : 0 < w) (hh : 0 < h) (hd : 0 < d) : 0 < bytes n w h d := by
  unfold bytes
  exact Nat.mul_pos (Nat.mul_pos (Nat.mul_pos (by omega) (by omega)) hd) hn

theorem bytes_le (fmt w h d : Nat) : bytes (bsize fmt) w h d ≤ bytes 16 w h d := by
  unfold bytes
  exact Nat.mul_le_mul_left _ (by unfold bsize; split <;> decide)

theorem bsize_pos (fmt : Nat) : 0 < bsize fmt := by unfold bsize; split <;> decide

theorem size_eq {m : Img} (h : Picture m) {fmt : Nat} (hf : fmt = IL_DXT1 ∨ fmt = IL_DXT3 ∨ fmt = IL_DXT5) :
    dxtcSize m fmt = bytes (bsize fmt) m.width m.height m.depth := by
  have hb := h.blocks
  have hle := bytes_le fmt m.width m.height m.depth
  unfold dxtcSize
  have h0 : (m.width + 3) / 4 * ((m.height + 3) / 4) * m.depth * 16 < 4294967296 := hb
  rw [u32_of_lt (by omega)]
  rcases hf with e | e | e <;> subst e
  · rw [if_pos (.inl rfl), u32_of_lt (by omega)]; rfl
  · rw [if_neg (by decide), if_pos (.inl rfl), u32_of_lt h0]; rfl
  · rw [if_neg (by decide), if_pos (.inr (.inl rfl)), u32_of_lt h0]; rfl

/-- What `ilGetDXTCData` writes to a buffer of any size but 0. -/
theorem getData (big : Bool) (k : Mem) {s : Surface} (h : Picture s.img) {fmt : Nat} (hf : fmt = IL_DXT1 ∨ fmt = IL_DXT3 ∨ fmt = IL_DXT5)
    (hc : ¬ (fmt = s.fmt ∧ s.comp ≠ [])) {buf : List UInt8} (h0 : 0 < buf.length) (hlt : buf.length < 4294967296) :
    ∃ (out : List UInt8) (m : Img), ilGetDXTCData big k s buf fmt = .ok (some (bytes (bsize fmt) s.img.width s.img.height s.img.depth, out.take buf.length ++ buf.drop out.length)) ∧
      out.length = bytes (bsize fmt) s.img.width s.img.height s.img.depth ∧ m.width = s.img.width ∧ m.height = s.img.height ∧
      (∀ ch x y z, x < s.img.width → y < s.img.height → z < s.img.depth → raw m ch x y z = value s.img ch x y z) ∧
      ∀ z y x i, z < s.img.depth → y < s.img.height → x < s.img.width → i < bsize fmt →
        out[boff fmt s.img.width s.img.height z y x + i]? = (output (enc fmt big (cblk m z (y / 4) (x / 4)) (ablk m z (y / 4) (x / 4))))[i]? := by
  obtain ⟨d, ed, hm, hr⟩ := upright k.bytes h
  obtain ⟨ops, eo, hp, hl, hi⟩ := compress_spec big k hm hf
  have hbl := h.blocks
  have hle := bytes_le fmt s.img.width s.img.height s.img.depth
  obtain ⟨w, ew, hw, _⟩ := C74_memory_is_file_prefix buf h0 hlt ops hp (SaveL.plain_small (by
    have e : (output ops).length = bytes (bsize fmt) s.img.width s.img.height s.img.depth := hl
    omega))
  rw [file_output ops hp] at hw
  dsimp only at hw
  refine ⟨output ops, { s.img with data := d }, ?_, hl, rfl, rfl, hr, hi⟩
  unfold ilGetDXTCData
  rw [if_neg hc, ed, bind_ok, eo, bind_ok]
  dsimp only
  rw [ew, bind_ok, hw]
  rfl

theorem stored (big : Bool) (k : Mem) {s : Surface} (h : Picture s.img) {fmt : Nat} (hf : fmt = IL_DXT1 ∨ fmt = IL_DXT3 ∨ fmt = IL_DXT5) :
    ∃ (t : Surface) (m : Img), ilSurfaceToDxtcData big k s fmt = .ok (some (true, t)) ∧ t.img = s.img ∧ t.fmt = fmt ∧
      t.comp.length = bytes (bsize fmt) s.img.width s.img.height s.img.depth ∧ m.width = s.img.width ∧ m.height = s.img.height ∧
      (∀ ch x y z, x < s.img.width → y < s.img.height → z < s.img.depth → raw m ch x y z = value s.img ch x y z) ∧
      ∀ z y x i, z < s.img.depth → y < s.img.height → x < s.img.width → i < bsize fmt →
        at_ t.comp (boff fmt s.img.width s.img.height z y x) i =
          ((output (enc fmt big (cblk m z (y / 4) (x / 4)) (ablk m z (y / 4) (x / 4)))).getD i 0).toNat := by
  have hbl := h.blocks
  have hle := bytes_le fmt s.img.width s.img.height s.img.depth
  have hpos := bytes_pos (bsize_pos fmt) h.plain.w0 h.plain.h0 h.plain.d0
  have hs : ∃ s' : Surface, (if s.comp ≠ [] then ⟨s.img, IL_DXT_NO_COMP, []⟩ else s) = s' ∧ s'.img = s.img ∧ s'.comp = [] := by
    split
    · exact ⟨_, rfl, rfl, rfl⟩
    · rename_i hn; exact ⟨_, rfl, rfl, Classical.byContradiction fun h => hn h⟩
  obtain ⟨s', es, ei, ec⟩ := hs
  obtain ⟨out, m, eg, hl, hw, hh, hr, hi⟩ := getData big k (s := s') (by rw [ei]; exact h) hf (fun hh => hh.2 ec)
    (buf := alloc k.bytes (dxtcSize s.img fmt)) (by rw [alloc_length, size_eq h hf]; exact hpos) (by rw [alloc_length, size_eq h hf]; omega)
  rw [ei] at hl hw hh hr hi eg
  rw [alloc_length, size_eq h hf, List.take_of_length_le (by omega), List.drop_of_length_le (by rw [alloc_length]; omega), List.append_nil] at eg
  refine ⟨⟨s.img, fmt, out⟩, m, ?_, rfl, rfl, hl, hw, hh, hr, fun z y x i hz hy hx hii => ?_⟩
  · unfold ilSurfaceToDxtcData
    dsimp only
    rw [es, size_eq h hf, if_neg (by omega), eg]
    rfl
  · show (out.getD (_ + i) 0).toNat = _
    rw [List.getD_eq_getElem?_getD, hi z y x i hz hy hx hii, List.getD_eq_getElem?_getD]

/-! ### Alpha of DXT5 -/

theorem pack0 : ∀ a b c : Fin 8, (UInt8.ofNat (a.val ||| b.val <<< 3 ||| (c.val &&& 3) <<< 6)).toNat = a.val + 8 * b.val + 64 * (c.val % 4) := by
  decide +kernel
theorem pack1 : ∀ c d e f : Fin 8, (UInt8.ofNat ((c.val &&& 4) >>> 2 ||| d.val <<< 1 ||| e.val <<< 4 ||| (f.val &&& 1) <<< 7)).toNat =
    c.val / 4 + 2 * d.val + 16 * e.val + 128 * (f.val % 2) := by decide +kernel
theorem pack2 : ∀ f g h : Fin 8, (UInt8.ofNat ((f.val &&& 6) >>> 1 ||| g.val <<< 2 ||| h.val <<< 5)).toNat = f.val / 2 + 4 * g.val + 32 * h.val := by
  decide +kernel

theorem alphas_lt {a b : Nat} (ha : a < 256) (hb : b < 256) : ∀ j, (alphas a b).getD j 0 < 256 := by
  intro j
  unfold alphas
  by_cases hj : j < 8
  · obtain rfl | rfl | rfl | rfl | rfl | rfl | rfl | rfl : j = 0 ∨ j = 1 ∨ j = 2 ∨ j = 3 ∨ j = 4 ∨ j = 5 ∨ j = 6 ∨ j = 7 := by omega
    all_goals
      split
      all_goals
        simp only [List.getD_cons_zero, List.getD_cons_succ]
        omega
  · rw [List.getD_eq_getElem?_getD, List.getElem?_eq_none (by split <;> simp <;> omega)]
    decide

theorem alphaMask_spec {a b : Nat} (ha : a < 256) (hb : b < 256) (v : UInt8) : alphaMask a b v < 8 ∧
    ∀ j, j < 8 → dist v.toNat ((alphas a b).getD (alphaMask a b v) 0) ≤ dist v.toNat ((alphas a b).getD j 0) := by
  have h := closest_spec (n := 8) (d := fun j => v.toNat - (alphas a b).getD j 0 + ((alphas a b).getD j 0 - v.toNat)) (by decide) (fun j _ => by
    have := alphas_lt ha hb j
    have := UInt8.toNat_lt v
    omega)
  exact ⟨h.1, h.2.1⟩

theorem unpack {M : Nat → Nat} (hM : ∀ k, M k < 8) (o : Nat) {k : Nat} (hk : k < 8) :
    (M o + 8 * M (o + 1) + 64 * (M (o + 2) % 4) + 256 * (M (o + 2) / 4 + 2 * M (o + 3) + 16 * M (o + 4) + 128 * (M (o + 5) % 2)) +
      65536 * (M (o + 5) / 2 + 4 * M (o + 6) + 32 * M (o + 7))) / 8 ^ k % 8 = M (o + k) := by
  have e : (M o + 8 * M (o + 1) + 64 * (M (o + 2) % 4) + 256 * (M (o + 2) / 4 + 2 * M (o + 3) + 16 * M (o + 4) + 128 * (M (o + 5) % 2)) +
      65536 * (M (o + 5) / 2 + 4 * M (o + 6) + 32 * M (o + 7))) = M o + 8 * M (o + 1) + 64 * M (o + 2) + 512 * M (o + 3) + 4096 * M (o + 4) +
      32768 * M (o + 5) + 262144 * M (o + 6) + 2097152 * M (o + 7) := by omega
  rw [e]
  have m0 := hM o
  have m1 := hM (o + 1)
  have m2 := hM (o + 2)
  have m3 := hM (o + 3)
  have m4 := hM (o + 4)
  have m5 := hM (o + 5)
  have m6 := hM (o + 6)
  have m7 := hM (o + 7)
  clear e hM
  obtain rfl | rfl | rfl | rfl | rfl | rfl | rfl | rfl : k = 0 ∨ k = 1 ∨ k = 2 ∨ k = 3 ∨ k = 4 ∨ k = 5 ∨ k = 6 ∨ k = 7 := by omega
  all_goals
    simp only [Nat.reducePow, Nat.add_zero]
    omega

theorem p0 {a b c : Nat} (ha : a < 8) (hb : b < 8) (hc : c < 8) :
    (UInt8.ofNat (a ||| b <<< 3 ||| (c &&& 3) <<< 6)).toNat = a + 8 * b + 64 * (c % 4) := pack0 ⟨a, ha⟩ ⟨b, hb⟩ ⟨c, hc⟩
theorem p1 {c d e f : Nat} (hc : c < 8) (hd : d < 8) (he : e < 8) (hf : f < 8) :
    (UInt8.ofNat ((c &&& 4) >>> 2 ||| d <<< 1 ||| e <<< 4 ||| (f &&& 1) <<< 7)).toNat = c / 4 + 2 * d + 16 * e + 128 * (f % 2) :=
  pack1 ⟨c, hc⟩ ⟨d, hd⟩ ⟨e, he⟩ ⟨f, hf⟩
theorem p2 {f g h : Nat} (hf : f < 8) (hg : g < 8) (hh : h < 8) :
    (UInt8.ofNat ((f &&& 6) >>> 1 ||| g <<< 2 ||| h <<< 5)).toNat = f / 2 + 4 * g + 32 * h := pack2 ⟨f, hf⟩ ⟨g, hg⟩ ⟨h, hh⟩

theorem codesM {β : Nat → Nat} {M : Nat → Nat} (hM : ∀ k, M k < 8)
    (b0 : β 2 = (UInt8.ofNat (M 0 ||| M 1 <<< 3 ||| (M 2 &&& 3) <<< 6)).toNat)
    (b1 : β 3 = (UInt8.ofNat ((M 2 &&& 4) >>> 2 ||| M 3 <<< 1 ||| M 4 <<< 4 ||| (M 5 &&& 1) <<< 7)).toNat)
    (b2 : β 4 = (UInt8.ofNat ((M 5 &&& 6) >>> 1 ||| M 6 <<< 2 ||| M 7 <<< 5)).toNat)
    (b3 : β 5 = (UInt8.ofNat (M 8 ||| M 9 <<< 3 ||| (M 10 &&& 3) <<< 6)).toNat)
    (b4 : β 6 = (UInt8.ofNat ((M 10 &&& 4) >>> 2 ||| M 11 <<< 1 ||| M 12 <<< 4 ||| (M 13 &&& 1) <<< 7)).toNat)
    (b5 : β 7 = (UInt8.ofNat ((M 13 &&& 6) >>> 1 ||| M 14 <<< 2 ||| M 15 <<< 5)).toNat) {j i : Nat} (hj : j < 4) (hi : i < 4) :
    code5 β j i = M (4 * j + i) := by
  rw [p0 (hM _) (hM _) (hM _)] at b0 b3
  rw [p1 (hM _) (hM _) (hM _) (hM _)] at b1 b4
  rw [p2 (hM _) (hM _) (hM _)] at b2 b5
  have u0 := unpack hM 0 (k := 4 * (j % 2) + i) (by omega)
  have u8 := unpack hM 8 (k := 4 * (j % 2) + i) (by omega)
  unfold code5
  by_cases hj2 : j < 2
  · rw [show 2 + 3 * (j / 2) = 2 by omega, show 4 * j + i = 0 + (4 * (j % 2) + i) by omega, ← u0]
    unfold w24
    rw [b0, b1, b2]
  · rw [show 2 + 3 * (j / 2) = 5 by omega, show 4 * j + i = 8 + (4 * (j % 2) + i) by omega, ← u8]
    unfold w24
    rw [b3, b4, b5]

theorem codes5 {β : Nat → Nat} {a b : Nat} (ha : a < 256) (hb : b < 256) {blk : List UInt8}
    (hβ : ∀ i, i < 6 → β (2 + i) = ((GenAlphaBitMask a b blk).getD i 0).toNat) {j i : Nat} (hj : j < 4) (hi : i < 4) :
    code5 β j i = alphaMask a b (blk.getD (4 * j + i) 0) :=
  codesM (M := fun k => alphaMask a b (blk.getD k 0)) (fun k => (alphaMask_spec ha hb _).1)
    (hβ 0 (by decide)) (hβ 1 (by decide)) (hβ 2 (by decide)) (hβ 3 (by decide)) (hβ 4 (by decide)) (hβ 5 (by decide)) hj hi

end DevIL.DxtSave
