import Verif.Lemmas.DxtSaveD
/-! Lemmas about the DXT compressor: pictures after compression and decompression. -/
set_option autoImplicit false
namespace DevIL.DxtSave
open DevIL.Image DevIL.Lump DevIL.Dxt DevIL.Conv DevIL.ConvImage DevIL.DxtSpec

theorem value_lt (m : Img) (ch : Chan) (x y z : Nat) : value m ch x y z < 256 := by
  unfold value
  split
  · exact UInt8.toNat_lt _
  · decide

/-- What is in a block. -/
theorem blockOf {s m : Img} (hw : m.width = s.width) (hh : m.height = s.height) {z : Nat} (hz : z < s.depth)
    (hr : ∀ ch x y z, x < s.width → y < s.height → z < s.depth → raw m ch x y z = value s ch x y z) {x y : Nat} (hx : x < s.width) (hy : y < s.height) :
    (∀ k, k < 16 → ∃ x' y', x' < s.width ∧ y' < s.height ∧ SameBlock x y x' y' ∧
      (cblk m z (y / 4) (x / 4)).getD k 0 = As16Bit (value s .red x' y' z) (value s .green x' y' z) (value s .blue x' y' z) ∧
      (ablk m z (y / 4) (x / 4)).getD k 0 = UInt8.ofNat (value s .alpha x' y' z)) ∧
    (cblk m z (y / 4) (x / 4)).getD (4 * (y % 4) + x % 4) 0 = As16Bit (value s .red x y z) (value s .green x y z) (value s .blue x y z) ∧
    (ablk m z (y / 4) (x / 4)).getD (4 * (y % 4) + x % 4) 0 = UInt8.ofNat (value s .alpha x y z) := by
  have hc : ∀ j i, i < 4 → bcol m.width m.height (4 * (x / 4)) (4 * (y / 4)) j i < s.width ∧
      x / 4 = bcol m.width m.height (4 * (x / 4)) (4 * (y / 4)) j i / 4 := by
    intro j i hi
    unfold bcol
    rw [hw, hh]
    split <;> omega
  have hb : ∀ j, j < 4 → brow m.height (4 * (y / 4)) j < s.height ∧ y / 4 = brow m.height (4 * (y / 4)) j / 4 := by
    intro j hj
    unfold brow
    rw [hh]
    omega
  have key : ∀ k, k < 16 → (cblk m z (y / 4) (x / 4)).getD k 0 =
      As16Bit (value s .red (bcol m.width m.height (4 * (x / 4)) (4 * (y / 4)) (k / 4) (k % 4)) (brow m.height (4 * (y / 4)) (k / 4)) z)
        (value s .green (bcol m.width m.height (4 * (x / 4)) (4 * (y / 4)) (k / 4) (k % 4)) (brow m.height (4 * (y / 4)) (k / 4)) z)
        (value s .blue (bcol m.width m.height (4 * (x / 4)) (4 * (y / 4)) (k / 4) (k % 4)) (brow m.height (4 * (y / 4)) (k / 4)) z) ∧
      (ablk m z (y / 4) (x / 4)).getD k 0 = UInt8.ofNat (value s .alpha (bcol m.width m.height (4 * (x / 4)) (4 * (y / 4)) (k / 4) (k % 4))
        (brow m.height (4 * (y / 4)) (k / 4)) z) := by
    intro k hk
    have h1 := (hc (k / 4) (k % 4) (by omega)).1
    have h2 := (hb (k / 4) (by omega)).1
    unfold cblk ablk
    rw [List.getD_eq_getElem?_getD, List.getD_eq_getElem?_getD, List.getElem?_map, List.getElem?_map, List.getElem?_range hk]
    simp only [Option.map_some, Option.getD_some, hr _ _ _ _ h1 h2 hz, and_self]
  refine ⟨fun k hk => ?_, ?_⟩
  · obtain ⟨c1, c2⟩ := hc (k / 4) (k % 4) (by omega)
    obtain ⟨r1, r2⟩ := hb (k / 4) (by omega)
    exact ⟨_, _, c1, r1, ⟨c2, r2⟩, (key k hk).1, (key k hk).2⟩
  · have h := key (4 * (y % 4) + x % 4) (by omega)
    have e1 : bcol m.width m.height (4 * (x / 4)) (4 * (y / 4)) ((4 * (y % 4) + x % 4) / 4) ((4 * (y % 4) + x % 4) % 4) = x := by
      unfold bcol
      rw [hw, hh, if_pos (by omega)]
      omega
    have e2 : brow m.height (4 * (y / 4)) ((4 * (y % 4) + x % 4) / 4) = y := by
      unfold brow
      rw [hh]
      omega
    rw [e1, e2] at h
    exact h

/-- The place of a channel in a decoded picture. -/
theorem value_shown {s : Surface} {q : Img} (h : Shown s q) {ch : Chan} {c : Nat} (hc : place IL_RGBA ch = some c) (x y z : Nat) :
    value q ch x y z = ((q.px x y z c).getD 0).toNat := by
  unfold value top
  rw [h.format, hc, if_pos h.origin]

/-- Compression and decompression. -/
theorem there_and_back (big : Bool) (k : Mem) (junk : Nat → UInt8) {s : Surface} (h : Picture s.img) {fmt : Nat}
    (hf : fmt = IL_DXT1 ∨ fmt = IL_DXT3 ∨ fmt = IL_DXT5) :
    ∃ (t : Surface) (q : Img), ilSurfaceToDxtcData big k s fmt = .ok (some (true, t)) ∧ ilDxtcDataToSurface junk t = .ok (true, { t with img := q }) ∧
      t.img = s.img ∧ Shown s q ∧ ∀ x y z, s.In x y z → ∃ (β : Nat → Nat) (blk : List Nat) (al : List UInt8),
        (∀ ch c, place IL_RGBA ch = some c → c < 4 → value q ch x y z = dec fmt β (y % 4) (x % 4) c % 256) ∧
        (∀ i, β i < 256) ∧ (∀ i, i < bsize fmt → β i = ((output (enc fmt big blk al)).getD i 0).toNat) ∧ (∀ i, blk.getD i 0 < 65536) ∧
        (∀ k, k < 16 → ∃ x' y', s.In x' y' z ∧ SameBlock x y x' y' ∧
          blk.getD k 0 = As16Bit (value s.img .red x' y' z) (value s.img .green x' y' z) (value s.img .blue x' y' z) ∧
          al.getD k 0 = UInt8.ofNat (value s.img .alpha x' y' z)) ∧
        blk.getD (4 * (y % 4) + x % 4) 0 = As16Bit (value s.img .red x y z) (value s.img .green x y z) (value s.img .blue x y z) ∧
        al.getD (4 * (y % 4) + x % 4) 0 = UInt8.ofNat (value s.img .alpha x y z) ∧
        blk.getD 0 0 = As16Bit (value s.img .red (4 * (x / 4)) (4 * (y / 4)) z) (value s.img .green (4 * (x / 4)) (4 * (y / 4)) z)
          (value s.img .blue (4 * (x / 4)) (4 * (y / 4)) z) := by
  obtain ⟨t, m, et, ei, ef, hl, hw, hh, hr, hb⟩ := stored big k h hf
  obtain ⟨q, eq, hq, hp⟩ := surface junk (s := t) ⟨by rw [ei]; exact h.plain.w0, by rw [ei]; exact h.plain.h0, by rw [ei]; exact h.plain.d0,
    by rw [ei]; exact h.fits, by rw [ei]; exact .inr h.plain.cons.2.2.2, by rw [ei, ef, hl]⟩ (by rw [ef]; exact hf)
  have hq' : Shown s q := ⟨hq.consistent, by rw [hq.width, ei], by rw [hq.height, ei], by rw [hq.depth, ei], hq.bpp, hq.bpc, hq.format, hq.type, hq.origin⟩
  refine ⟨t, q, et, eq, ei, hq', fun x y z hin => ?_⟩
  obtain ⟨hx, hy, hz⟩ := hin
  obtain ⟨b1, b2, b3⟩ := blockOf hw hh hz hr hx hy
  refine ⟨at_ t.comp (boff fmt s.img.width s.img.height z y x), cblk m z (y / 4) (x / 4), ablk m z (y / 4) (x / 4), fun ch c hc hc4 => ?_, fun i => ?_,
    fun i hi => hb z y x i hz hy hx hi, fun i => ?_, fun k hk => ?_, b2, b3, ?_⟩
  · rw [value_shown hq' hc, hp x y z c (by unfold Surface.In; rw [ei]; exact ⟨hx, hy, hz⟩) hc4, ef, ei]
    rfl
  · exact UInt8.toNat_lt _
  · by_cases hi : i < 16
    · obtain ⟨x', y', _, _, _, e, _⟩ := b1 i hi
      rw [e]
      exact (as16 (value_lt _ _ _ _ _) (value_lt _ _ _ _ _) (value_lt _ _ _ _ _)).2
    · rw [List.getD_eq_getElem?_getD, List.getElem?_eq_none (by unfold cblk; simp; omega)]
      decide
  · obtain ⟨x', y', h1, h2, h3, h4, h5⟩ := b1 k hk
    exact ⟨x', y', ⟨h1, h2, hz⟩, h3, h4, h5⟩
  · have c := (blockOf hw hh hz hr (x := 4 * (x / 4)) (y := 4 * (y / 4)) (by omega) (by omega)).2.1
    rw [show 4 * (y / 4) / 4 = y / 4 by omega, show 4 * (x / 4) / 4 = x / 4 by omega, show 4 * (4 * (y / 4) % 4) + 4 * (x / 4) % 4 = 0 by omega] at c
    exact c

/-! ### Distances -/

theorem ofNat_toNat {v : Nat} (h : v < 256) : (UInt8.ofNat v).toNat = v := by
  rw [UInt8.toNat_ofNat', Nat.mod_eq_of_lt h]

/-- The alphas of a block with limits `a ≤ b`. -/
theorem near_alpha {a b v : Nat} (hab : a ≤ b) (hb : b < 256) (h1 : a ≤ v) (h2 : v ≤ b) :
    10 * dist ((alphas a b).getD (alphaMask a b (UInt8.ofNat v)) 0) v ≤ b - a + 4 ∧
    (v = a ∨ v = b ∨ v = 0 ∨ v = 255 → (alphas a b).getD (alphaMask a b (UInt8.ofNat v)) 0 = v) := by
  obtain ⟨_, h⟩ := alphaMask_spec (a := a) (b := b) (by omega) hb (UInt8.ofNat v)
  rw [ofNat_toNat (by omega)] at h
  generalize (alphas a b).getD (alphaMask a b (UInt8.ofNat v)) 0 = w at h
  have e : alphas a b = [a, b, (4 * a + b + 2) / 5, (3 * a + 2 * b + 2) / 5, (2 * a + 3 * b + 2) / 5, (a + 4 * b + 2) / 5, 0, 255] := by
    unfold alphas
    rw [if_neg (by omega)]
  rw [e] at h
  unfold dist at h ⊢
  have k0 := h 0 (by decide)
  have k1 := h 1 (by decide)
  have k2 := h 2 (by decide)
  have k3 := h 3 (by decide)
  have k4 := h 4 (by decide)
  have k5 := h 5 (by decide)
  have k6 := h 6 (by decide)
  have k7 := h 7 (by decide)
  simp only [List.getD_cons_zero, List.getD_cons_succ] at k0 k1 k2 k3 k4 k5 k6 k7
  constructor
  · clear h e k6 k7
    omega
  · intro hv
    clear h e k2 k3 k4 k5
    omega

theorem near_red : ∀ v : Fin 256, dist (scaled 31 v.val * 8 + scaled 31 v.val / 4) v.val ≤ 4 ∧ scaled 31 v.val * 8 + scaled 31 v.val / 4 < 256 := by
  decide +kernel
theorem near_green : ∀ v : Fin 256, dist (scaled 63 v.val <<< 2 ||| scaled 63 v.val >>> 3) v.val ≤ 6 ∧
    scaled 63 v.val <<< 2 ||| scaled 63 v.val >>> 3 < 256 := by
  decide +kernel
theorem near_blue : ∀ (v : Fin 256) (k : Fin 8), dist (scaled 31 v.val <<< 3 ||| k.val) v.val ≤ 10 ∧ scaled 31 v.val <<< 3 ||| k.val < 256 := by
  decide +kernel

/-- A colour, from its 16-bit value, as read from DXT1 data. -/
theorem colour1 {r g b : Nat} (hr : r < 256) (hg : g < 256) (hb : b < 256) :
    dist ((readColor (As16Bit r g b)).nth 0) r ≤ 4 ∧ dist ((readColor (As16Bit r g b)).nth 1) g ≤ 6 ∧ dist ((readColor (As16Bit r g b)).nth 2) b ≤ 10 ∧
    ∀ c, c < 3 → (readColor (As16Bit r g b)).nth c < 256 := by
  have h1 := (mul5 hr).2
  have h2 := (mul6 hg).2
  have h3 := (mul5 hb).2
  have e := (as16 hr hg hb).1
  have e1 : As16Bit r g b / 2048 % 32 = scaled 31 r := by omega
  have e2 : As16Bit r g b / 32 % 64 = scaled 63 g := by omega
  have e3 : As16Bit r g b % 32 = scaled 31 b := by omega
  have hc : readColor (As16Bit r g b) = ⟨scaled 31 r * 8 + scaled 31 r / 4, scaled 63 g <<< 2 ||| scaled 63 g >>> 3, scaled 31 b <<< 3 ||| scaled 31 r / 4, 255⟩ := by
    unfold readColor
    simp only [(low (As16Bit r g b) 0).1, (low (As16Bit r g b) 0).2.1, (low (As16Bit r g b) 0).2.2.1, e1, e2, e3, up5 h1]
    rw [show scaled 31 r >>> 2 = scaled 31 r / 4 from Nat.shiftRight_eq_div_pow _ _]
  rw [hc]
  have k1 := near_red ⟨r, hr⟩
  have k2 := near_green ⟨g, hg⟩
  have k3 := near_blue ⟨b, hb⟩ ⟨scaled 31 r / 4, by omega⟩
  refine ⟨k1.1, k2.1, k3.1, fun c hc => ?_⟩
  obtain rfl | rfl | rfl : c = 0 ∨ c = 1 ∨ c = 2 := by omega
  · exact k1.2
  · exact k2.2
  · exact k3.2

/-- The same as read from DXT3 and DXT5 data. -/
theorem colourC {r g b : Nat} (hr : r < 256) (hg : g < 256) (hb : b < 256) :
    dist ((readBytes (As16Bit r g b % 256) (As16Bit r g b / 256)).nth 0) r ≤ 4 ∧ dist ((readBytes (As16Bit r g b % 256) (As16Bit r g b / 256)).nth 1) g ≤ 6 ∧
    dist ((readBytes (As16Bit r g b % 256) (As16Bit r g b / 256)).nth 2) b ≤ 4 ∧
    ∀ c, c < 3 → (readBytes (As16Bit r g b % 256) (As16Bit r g b / 256)).nth c < 256 := by
  have h1 := (mul5 hr).2
  have h2 := (mul6 hg).2
  have h3 := (mul5 hb).2
  have e := (as16 hr hg hb).1
  have hc : readBytes (As16Bit r g b % 256) (As16Bit r g b / 256) = ⟨scaled 31 r * 8 + scaled 31 r / 4, scaled 63 g <<< 2 ||| scaled 63 g >>> 3,
      scaled 31 b * 8 + scaled 31 b / 4, 255⟩ := by
    have key : ∀ (a b : Fin 8), a.val ||| b.val * 2 ^ 3 = a.val + 8 * b.val := by decide
    have e1 : As16Bit r g b / 256 / 8 % 32 = scaled 31 r := by omega
    have e3 : As16Bit r g b % 256 % 32 = scaled 31 b := by omega
    have hg' : (As16Bit r g b % 256 &&& 0xE0) >>> 5 ||| (As16Bit r g b / 256 &&& 7) <<< 3 = scaled 63 g := by
      rw [(low (As16Bit r g b % 256) 0).2.2.2.1, (low (As16Bit r g b / 256) 3).2.2.2.2.2]
      refine Eq.trans (key ⟨As16Bit r g b % 256 / 32 % 8, Nat.mod_lt _ (by decide)⟩ ⟨As16Bit r g b / 256 % 8, Nat.mod_lt _ (by decide)⟩) ?_
      dsimp only
      omega
    unfold readBytes
    simp only [hg', (low (As16Bit r g b % 256) 0).1, (low (As16Bit r g b / 256) 0).2.2.2.2.1, e1, e3, up5 h1, up5 h3]
  rw [hc]
  have k1 := near_red ⟨r, hr⟩
  have k2 := near_green ⟨g, hg⟩
  have k3 := near_red ⟨b, hb⟩
  refine ⟨k1.1, k2.1, k3.1, fun c hc => ?_⟩
  obtain rfl | rfl | rfl : c = 0 ∨ c = 1 ∨ c = 2 := by omega
  · exact k1.2
  · exact k2.2
  · exact k3.2

end DevIL.DxtSave
