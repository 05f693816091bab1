import Verif.Lemmas.DxtFlip
import Verif.Props.Dxt
/-! C95: flipping compressed data. -/
set_option autoImplicit false
namespace DevIL.Dxt
open DevIL.Image DevIL.DxtSpec

/-- Two halves of twelve bits. -/
theorem halfcode {x y i j : Nat} (hx : x < 4096) (hj : j < 2) (hi : i < 4) :
    (x + 4096 * y) / 8 ^ (4 * j + i) % 8 = (if j = 0 then x else y) / 8 ^ i % 8 := by
  obtain rfl | rfl : j = 0 ∨ j = 1 := by omega
  all_goals obtain rfl | rfl | rfl | rfl : i = 0 ∨ i = 1 ∨ i = 2 ∨ i = 3 := by omega
  all_goals
    simp only [Nat.reducePow, Nat.reduceMul, Nat.reduceAdd, Nat.reduceEqDiff, if_true, if_false]
    omega

theorem three_bytes (a b c : Nat) : a + 256 * b + 65536 * c = (a + 256 * (b % 16)) + 4096 * (b / 16 + 16 * c) := by omega
theorem three_halves (a b c : Nat) : half a b c 0 + 256 * half a b c 1 + 65536 * half a b c 2 = (b / 16 + 16 * c) + 4096 * (a + 256 * (b % 16)) := by
  unfold half
  simp only [Nat.reduceEqDiff, if_true, if_false]
  omega

/-- The values of a flipped block. -/
theorem dec_fb {fmt : Nat} {β β' : Nat → Nat} (hβ : ∀ i, β i < 256) (h : ∀ k, k < bsize fmt → β' k = fb fmt β k) {j i : Nat} (hj : j < 4)
    (hi : i < 4) (c : Nat) : dec fmt β' j i c = dec fmt β (3 - j) i c := by
  unfold dec
  by_cases h1 : fmt = IL_DXT1
  · have hb : bsize fmt = 8 := by unfold bsize; rw [if_pos h1]
    rw [hb] at h
    have hf : ∀ k, k < 8 → β' k = fbC β 0 k := fun k hk => by rw [h k hk]; unfold fb; rw [if_pos h1]
    rw [if_pos h1, if_pos h1]
    have hs : sel β' 4 j i = sel β 4 (3 - j) i := by
      unfold sel
      rw [hf _ (by omega)]
      obtain rfl | rfl | rfl | rfl : j = 0 ∨ j = 1 ∨ j = 2 ∨ j = 3 := by omega
      all_goals rfl
    have hc : cols1 β' = cols1 β := by
      unfold cols1 w16
      rw [hf 0 (by omega), hf (0 + 1) (by omega), hf 2 (by omega), hf (2 + 1) (by omega)]
      rfl
    rw [hs, hc]
  · have hb : bsize fmt = 16 := by unfold bsize; rw [if_neg h1]
    rw [hb] at h
    have hC : ∀ k, 8 ≤ k → k < 16 → β' k = fbC β 8 k := fun k h8 hk => by rw [h k hk]; unfold fb; rw [if_neg h1, if_neg (by omega)]
    rw [if_neg h1, if_neg h1]
    have hs : sel β' 12 j i = sel β 12 (3 - j) i := by
      unfold sel
      rw [hC _ (by omega) (by omega)]
      obtain rfl | rfl | rfl | rfl : j = 0 ∨ j = 1 ∨ j = 2 ∨ j = 3 := by omega
      all_goals rfl
    have hc : colsC β' = colsC β := by
      unfold colsC
      rw [hC 8 (by omega) (by omega), hC 9 (by omega) (by omega), hC 10 (by omega) (by omega), hC 11 (by omega) (by omega)]
      rfl
    rw [hs, hc]
    by_cases h3 : fmt = IL_DXT3
    · rw [if_pos h3, if_pos h3]
      have ha : al3 β' j i = al3 β (3 - j) i := by
        unfold al3
        rw [h _ (by omega)]
        unfold fb
        rw [if_neg h1, if_pos (by omega), if_pos h3]
        obtain rfl | rfl | rfl | rfl : j = 0 ∨ j = 1 ∨ j = 2 ∨ j = 3 := by omega
        all_goals obtain rfl | rfl | rfl | rfl : i = 0 ∨ i = 1 ∨ i = 2 ∨ i = 3 := by omega
        all_goals rfl
      rw [ha]
    · rw [if_neg h3, if_neg h3]
      have hf : ∀ k, k < 8 → β' k = fb5 β k := fun k hk => by rw [h k (by omega)]; unfold fb; rw [if_neg h1, if_pos hk, if_neg h3]
      have ha : al5 β' j i = al5 β (3 - j) i := by
        unfold al5
        rw [hf 0 (by omega), hf 1 (by omega)]
        have hcode : code5 β' j i = code5 β (3 - j) i := by
          have h2 := hβ 2
          have h3 := hβ 3
          have h4 := hβ 4
          have h5 := hβ 5
          have h6 := hβ 6
          have h7 := hβ 7
          have q2 : β' 2 = half (β 5) (β 6) (β 7) 0 := hf 2 (by omega)
          have q3 : β' 3 = half (β 5) (β 6) (β 7) 1 := hf 3 (by omega)
          have q4 : β' 4 = half (β 5) (β 6) (β 7) 2 := hf 4 (by omega)
          have q5 : β' 5 = half (β 2) (β 3) (β 4) 0 := hf 5 (by omega)
          have q6 : β' 6 = half (β 2) (β 3) (β 4) 1 := hf 6 (by omega)
          have q7 : β' 7 = half (β 2) (β 3) (β 4) 2 := hf 7 (by omega)
          have wl : w24 β' 2 = (β 6 / 16 + 16 * β 7) + 4096 * (β 5 + 256 * (β 6 % 16)) := by
            rw [← three_halves, ← q2, ← q3, ← q4]; rfl
          have wh : w24 β' 5 = (β 3 / 16 + 16 * β 4) + 4096 * (β 2 + 256 * (β 3 % 16)) := by
            rw [← three_halves, ← q5, ← q6, ← q7]; rfl
          have vl : w24 β 2 = (β 2 + 256 * (β 3 % 16)) + 4096 * (β 3 / 16 + 16 * β 4) := three_bytes _ _ _
          have vh : w24 β 5 = (β 5 + 256 * (β 6 % 16)) + 4096 * (β 6 / 16 + 16 * β 7) := three_bytes _ _ _
          unfold code5
          obtain rfl | rfl | rfl | rfl : j = 0 ∨ j = 1 ∨ j = 2 ∨ j = 3 := by omega
          all_goals
            simp only [Nat.reduceSub, Nat.reduceDiv, Nat.reduceMul, Nat.reduceAdd, Nat.mul_zero, Nat.add_zero]
            simp only [wl, wh, vl, vh]
            rw [halfcode (by omega) (by omega) hi, halfcode (by omega) (by omega) hi]
            rfl
        rw [hcode]
        rfl
      rw [ha]

theorem fbC_fbC (β : Nat → Nat) (o k : Nat) : fbC (fbC β o) o k = β k := by
  unfold fbC
  by_cases k4 : k = o + 4
  · subst k4; simp
  by_cases k5 : k = o + 5
  · subst k5; simp
  by_cases k6 : k = o + 6
  · subst k6; simp
  by_cases k7 : k = o + 7
  · subst k7; simp
  simp [k4, k5, k6, k7]

theorem half_half {a b c : Nat} (ha : a < 256) (hb : b < 256) (hc : c < 256) :
    half (half a b c 0) (half a b c 1) (half a b c 2) 0 = a ∧ half (half a b c 0) (half a b c 1) (half a b c 2) 1 = b ∧
      half (half a b c 0) (half a b c 1) (half a b c 2) 2 = c := by
  unfold half
  simp only [Nat.reduceEqDiff, if_true, if_false]
  refine ⟨?_, ?_, ?_⟩ <;> omega

theorem fb_fb {fmt : Nat} {β : Nat → Nat} (hβ : ∀ i, β i < 256) {k : Nat} (hk : k < bsize fmt) : fb fmt (fb fmt β) k = β k := by
  by_cases h1 : fmt = IL_DXT1
  · have : fb fmt = fun β k => fbC β 0 k := by funext β k; unfold fb; rw [if_pos h1]
    rw [this]
    exact fbC_fbC β 0 k
  · have hb : bsize fmt = 16 := by unfold bsize; rw [if_neg h1]
    rw [hb] at hk
    by_cases h8 : k < 8
    · by_cases h3 : fmt = IL_DXT3
      · have : ∀ β k, k < 8 → fb fmt β k = fb3 β k := fun β k hk => by unfold fb; rw [if_neg h1, if_pos hk, if_pos h3]
        rw [this _ _ h8]
        unfold fb3
        rw [if_pos h8]
        obtain rfl | rfl | rfl | rfl | rfl | rfl | rfl | rfl : k = 0 ∨ k = 1 ∨ k = 2 ∨ k = 3 ∨ k = 4 ∨ k = 5 ∨ k = 6 ∨ k = 7 := by omega
        all_goals exact this β _ (by decide)
      · have : ∀ β k, k < 8 → fb fmt β k = fb5 β k := fun β k hk => by unfold fb; rw [if_neg h1, if_pos hk, if_neg h3]
        rw [this _ _ h8]
        have e : ∀ i, i < 8 → fb fmt β i = fb5 β i := fun i hi => this β i hi
        obtain ⟨a0, a1, a2⟩ := half_half (hβ 2) (hβ 3) (hβ 4)
        obtain ⟨b0, b1, b2⟩ := half_half (hβ 5) (hβ 6) (hβ 7)
        unfold fb5
        rw [e 2 (by omega), e 3 (by omega), e 4 (by omega), e 5 (by omega), e 6 (by omega), e 7 (by omega), e k h8]
        obtain rfl | rfl | rfl | rfl | rfl | rfl | rfl | rfl : k = 0 ∨ k = 1 ∨ k = 2 ∨ k = 3 ∨ k = 4 ∨ k = 5 ∨ k = 6 ∨ k = 7 := by omega
        · rfl
        · rfl
        · exact a0
        · exact a1
        · exact a2
        · exact b0
        · exact b1
        · exact b2
    · have : ∀ β k, 8 ≤ k → fb fmt β k = fbC β 8 k := fun β k hk => by unfold fb; rw [if_neg h1, if_neg (by omega)]
      rw [this _ _ (by omega), ← fbC_fbC β 8 k]
      unfold fbC
      rw [this _ _ (by omega), this _ _ (by omega), this _ _ (by omega), this _ _ (by omega), this _ k (by omega)]
      rfl

/-- What flipping does to the bytes of the blocks. -/
theorem flipped (junk : Nat → UInt8) {s : Surface} (hs : Complete s (bsize s.fmt)) (hfmt : s.fmt = IL_DXT1 ∨ s.fmt = IL_DXT3 ∨ s.fmt = IL_DXT5) :
    ∃ comp, ilFlipSurfaceDxtcData junk s = .ok { s with comp := comp } ∧ comp.length = s.comp.length ∧
      (∀ z r x k, z < s.img.depth → r < (s.img.height + 3) / 4 → x < (s.img.width + 3) / 4 → k < bsize s.fmt →
        at_ comp (((z * ((s.img.height + 3) / 4) + r) * ((s.img.width + 3) / 4) + x) * bsize s.fmt) k =
          fb s.fmt (at_ s.comp (((z * ((s.img.height + 3) / 4) + ((s.img.height + 3) / 4 - 1 - r)) * ((s.img.width + 3) / 4) + x) *
            bsize s.fmt)) k) ∧
      ∀ m, bytes (bsize s.fmt) s.img.width s.img.height s.img.depth ≤ m → m < comp.length → at_ comp 0 m = at_ s.comp 0 m := by
  have hw := hs.width
  have hh := hs.height
  have hd := hs.depth
  have hb := bsize_pos s.fmt
  have hx : 0 < (s.img.width + 3) / 4 := by omega
  have hy : 0 < (s.img.height + 3) / 4 := by omega
  have hne : s.comp ≠ [] := by
    intro e
    have h1 := hs.comp
    have h2 : 0 < bytes (bsize s.fmt) s.img.width s.img.height s.img.depth := Nat.mul_pos (Nat.mul_pos (Nat.mul_pos hx hy) hd) hb
    rw [e, List.length_nil] at h1
    omega
  have hlen : s.img.depth * ((s.img.height + 3) / 4) * ((s.img.width + 3) / 4 * bsize s.fmt) ≤ s.comp.length := by
    have := hs.comp
    unfold bytes at this
    rw [show s.img.depth * ((s.img.height + 3) / 4) * ((s.img.width + 3) / 4 * bsize s.fmt) =
      (s.img.width + 3) / 4 * ((s.img.height + 3) / 4) * s.img.depth * bsize s.fmt by grind]
    exact this
  obtain ⟨comp, e, l, sp⟩ := flipAll_spec junk (fmt := s.fmt) (comp := s.comp) hx hy hlen
  have hl : 0 < (s.img.width + 3) / 4 * bsize s.fmt := Nat.mul_pos hx hb
  refine ⟨comp, ?_, l, fun z r x k hz hr hxk hk => ?_, fun m hm hm' => ?_⟩
  · unfold ilFlipSurfaceDxtcData
    rw [if_neg hne, if_neg (fun h => h hfmt)]
    dsimp only
    rw [e]
    rfl
  · have hq : x * bsize s.fmt + k < (s.img.width + 3) / 4 * bsize s.fmt := idx_lt hxk hk
    have hz' := idx_lt (k := (s.img.height + 3) / 4) hz hr
    have e1 : ((z * ((s.img.height + 3) / 4) + r) * ((s.img.width + 3) / 4) + x) * bsize s.fmt + k =
        (z * ((s.img.height + 3) / 4) + r) * ((s.img.width + 3) / 4 * bsize s.fmt) + (x * bsize s.fmt + k) := by grind
    have hm := idx_lt (k := (s.img.width + 3) / 4 * bsize s.fmt) hz' hq
    rw [at_zero, e1, sp _ (by omega), idx_div hq, idx_div hr, if_pos hz, idx_mod hr, idx_mod hq]
    unfold rowFb
    rw [idx_div hk, idx_mod hk]
    congr 2
    grind
  · rw [sp m (by omega), if_neg]
    intro h
    have h2 : m / ((s.img.width + 3) / 4 * bsize s.fmt) < s.img.depth * ((s.img.height + 3) / 4) := (Nat.div_lt_iff_lt_mul hy).mp h
    have h3 := (Nat.div_lt_iff_lt_mul hl).mp h2
    unfold bytes at hm
    rw [show s.img.depth * ((s.img.height + 3) / 4) * ((s.img.width + 3) / 4 * bsize s.fmt) =
      (s.img.width + 3) / 4 * ((s.img.height + 3) / 4) * s.img.depth * bsize s.fmt by grind] at h3
    omega

theorem list_at {a b : List UInt8} (hl : a.length = b.length) (h : ∀ m, m < a.length → at_ a 0 m = at_ b 0 m) : a = b := by
  refine List.ext_getElem hl fun i h1 h2 => ?_
  have := h i h1
  unfold at_ at this
  rw [Nat.zero_add, List.getD_eq_getElem?_getD, List.getD_eq_getElem?_getD, List.getElem?_eq_getElem h1, List.getElem?_eq_getElem h2] at this
  exact UInt8.toNat_inj.mp this

/-- **C95 (partial).** For DXT1, DXT3 and DXT5 data of an image whose height is a multiple of four, flipping the compressed data
(`ilFlipSurfaceDxtcData`) and decoding gives exactly the image that decoding gives, with its rows in the opposite order.  Missing: other
heights (`C95_violated`). -/
theorem C95_flip_partial (junk : Nat → UInt8) (s : Surface) (hf : s.fmt = IL_DXT1 ∨ s.fmt = IL_DXT3 ∨ s.fmt = IL_DXT5)
    (hs : Complete s (if s.fmt = IL_DXT1 then 8 else 16)) (h4 : s.img.height % 4 = 0) :
    ∃ s' q q', ilFlipSurfaceDxtcData junk s = .ok s' ∧ ilDxtcDataToSurface junk s = .ok (true, { s with img := q }) ∧
      ilDxtcDataToSurface junk s' = .ok (true, { s' with img := q' }) ∧ Shown s q ∧ Shown s q' ∧
      ∀ x y z c, s.In x y z → c < 4 → q'.px x y z c = q.px x (s.img.height - 1 - y) z c := by
  have hs' : Complete s (bsize s.fmt) := hs
  obtain ⟨comp, e, l, hat, _⟩ := flipped junk hs' hf
  obtain ⟨q, e1, hq, p1⟩ := surface junk hs' hf
  obtain ⟨q', e2, hq', p2⟩ := surface junk (s := { s with comp := comp })
    ⟨hs.width, hs.height, hs.depth, hs.fits, hs.data, by show _ ≤ comp.length; rw [l]; exact hs'.comp⟩ hf
  refine ⟨{ s with comp := comp }, q, q', e, e1, e2, hq, ⟨hq'.consistent, hq'.width, hq'.height, hq'.depth, hq'.bpp, hq'.bpc, hq'.format,
    hq'.type, hq'.origin⟩, fun x y z c hin hc => ?_⟩
  obtain ⟨hx, hy, hz⟩ := hin
  rw [p2 x y z c ⟨hx, hy, hz⟩ hc, p1 x _ z c ⟨hx, by omega, hz⟩ hc]
  congr 2
  have hr : y / 4 < (s.img.height + 3) / 4 := by omega
  have hxb : x / 4 < (s.img.width + 3) / 4 := by omega
  have := dec_fb (fmt := s.fmt) (β := at_ s.comp (((z * ((s.img.height + 3) / 4) + ((s.img.height + 3) / 4 - 1 - y / 4)) *
    ((s.img.width + 3) / 4) + x / 4) * bsize s.fmt)) (β' := at_ comp (boff s.fmt s.img.width s.img.height z y x)) (at_lt _ _)
    (fun k hk => hat z (y / 4) (x / 4) k hz hr hxb hk) (j := y % 4) (i := x % 4) (Nat.mod_lt _ (by decide)) (Nat.mod_lt _ (by decide)) c
  refine Eq.trans this ?_
  unfold boff
  rw [show (s.img.height - 1 - y) / 4 = (s.img.height + 3) / 4 - 1 - y / 4 by omega, show (s.img.height - 1 - y) % 4 = 3 - y % 4 by omega]

/-- **C95: twice.** Flipping the compressed data twice gives the data back, for every size of the image. -/
theorem C95_flip_twice (junk : Nat → UInt8) (s : Surface) (hf : s.fmt = IL_DXT1 ∨ s.fmt = IL_DXT3 ∨ s.fmt = IL_DXT5)
    (hs : Complete s (if s.fmt = IL_DXT1 then 8 else 16)) :
    ∃ s', ilFlipSurfaceDxtcData junk s = .ok s' ∧ ilFlipSurfaceDxtcData junk s' = .ok s := by
  have hs' : Complete s (bsize s.fmt) := hs
  obtain ⟨comp, e, l, hat, hout⟩ := flipped junk hs' hf
  obtain ⟨comp2, e2, l2, hat2, hout2⟩ := flipped junk (s := { s with comp := comp })
    ⟨hs.width, hs.height, hs.depth, hs.fits, hs.data, by show _ ≤ comp.length; rw [l]; exact hs'.comp⟩ hf
  refine ⟨{ s with comp := comp }, e, ?_⟩
  rw [e2]
  congr 1
  have : comp2 = s.comp := by
    refine list_at (l2.trans l) fun m hm => ?_
    by_cases hb : m < bytes (bsize s.fmt) s.img.width s.img.height s.img.depth
    · have hlen : bytes (bsize s.fmt) s.img.width s.img.height s.img.depth =
          s.img.depth * ((s.img.height + 3) / 4) * ((s.img.width + 3) / 4) * bsize s.fmt := by unfold bytes; grind
      obtain ⟨z, r, x, k, hz, hr, hx, hk, rfl⟩ := pos_surj hb hlen
      unfold pos
      have a1 := hat2 z r x k hz hr hx hk
      dsimp only at a1
      rw [← at_zero, a1]
      have hcong : fb s.fmt (at_ comp (((z * ((s.img.height + 3) / 4) + ((s.img.height + 3) / 4 - 1 - r)) * ((s.img.width + 3) / 4) + x) *
          bsize s.fmt)) k = fb s.fmt (fb s.fmt (at_ s.comp (((z * ((s.img.height + 3) / 4) + r) * ((s.img.width + 3) / 4) + x) *
          bsize s.fmt))) k := by
        refine fb_congr (fun i hi => ?_) hk
        have a2 := hat z ((s.img.height + 3) / 4 - 1 - r) x i hz (by omega) hx hi
        rw [show (s.img.height + 3) / 4 - 1 - ((s.img.height + 3) / 4 - 1 - r) = r by omega] at a2
        exact a2
      rw [hcong, fb_fb (at_lt _ _) hk, at_zero]
    · rw [hout2 m (by simpa using hb) hm]
      rw [l2] at hm
      exact hout m (by omega) hm
  rw [this]

/-! ### Concrete cases -/

/-- Two by two blocks in each of two slices. -/
def tall (fmt n : Nat) : Surface := ⟨⟨5, 8, 2, 0, 0, 0, 0, 0, 0, 0, IL_ORIGIN_LOWER_LEFT, []⟩, fmt, (List.range n).map fun i => UInt8.ofNat (37 * i + 5)⟩

set_option maxRecDepth 20000 in
example : Complete (tall IL_DXT5 128) (if (tall IL_DXT5 128).fmt = IL_DXT1 then 8 else 16) ∧ (tall IL_DXT5 128).img.height % 4 = 0 :=
  ⟨⟨by decide, by decide, by decide, by decide, .inl rfl, by decide⟩, by decide⟩
example : Complete (sample IL_DXT3 32) (if (sample IL_DXT3 32).fmt = IL_DXT1 then 8 else 16) := ⟨by decide, by decide, by decide, by decide, .inl rfl, by decide⟩

/-- An image of two pixels, one above the other: white and black. -/
def pair (comp : List UInt8) : Surface := ⟨⟨1, 2, 1, 0, 0, 0, 0, 0, 0, 0, IL_ORIGIN_LOWER_LEFT, []⟩, IL_DXT1, comp⟩

set_option maxRecDepth 20000 in
/-- **C95 is violated** for heights that are not multiples of four: the rows of a block that are not part of the image are flipped into it.  Here
the lower pixel of an image of height 2 is black, but after flipping the compressed data the upper pixel is not. -/
theorem C95_violated : ∃ s : Surface, Complete s 8 ∧ s.fmt = IL_DXT1 ∧ s.img.height = 2 ∧ ∀ junk, ∃ s' q q',
    ilFlipSurfaceDxtcData junk s = .ok s' ∧ ilDxtcDataToSurface junk s = .ok (true, { s with img := q }) ∧
    ilDxtcDataToSurface junk s' = .ok (true, { s' with img := q' }) ∧ q.px 0 1 0 0 = some 0 ∧ q'.px 0 0 0 0 = some 255 := by
  have hc : Complete (pair [255, 255, 0, 0, 0, 1, 0, 0]) 8 := ⟨by decide, by decide, by decide, by decide, .inl rfl, by decide⟩
  have hc' : Complete (pair [255, 255, 0, 0, 0, 0, 1, 0]) 8 := ⟨by decide, by decide, by decide, by decide, .inl rfl, by decide⟩
  refine ⟨_, hc, rfl, rfl, fun junk => ?_⟩
  obtain ⟨q, e, _, hp⟩ := surface junk hc (.inl rfl)
  obtain ⟨q', e', _, hp'⟩ := surface junk hc' (.inl rfl)
  refine ⟨pair [255, 255, 0, 0, 0, 0, 1, 0], q, q', rfl, e, e', ?_, ?_⟩
  · rw [hp 0 1 0 0 ⟨by decide, by decide, by decide⟩ (by decide)]; rfl
  · rw [hp' 0 0 0 0 ⟨by decide, by decide, by decide⟩ (by decide)]; rfl

end DevIL.Dxt
