import Verif.Lemmas.Tone
import Verif.Props.Colour
/-! Properties C138 (contrast), C139 (gamma), C140 (noise), C141 (equalizing). -/
set_option autoImplicit false
namespace DevIL.Colour
open Utility

/-! ### C138 -/

/-- **C138.** `iluContrast` on an image with components of one byte changes every component `v` to `(1 - a) 127 + a v`, limited to 0 to 255, where `a` is the contrast and `f v` stands for the
value computed with floating-point numbers, if that is always an `int`; and changes nothing else.  Missing, because false: components of more than one byte (`C138_violated_short`). -/
theorem C138_contrast_partial (mix : UInt8 → UInt8 → C Int) (f : UInt8 → Int) (hf : ∀ v, mix 127 v = .ok (f v)) (junk : Nat → UInt8) (m : Img) (hm : m.Whole)
    (_hb : m.bpc = 1) :
    ∃ m', iluContrast mix junk m = .ok (some m') ∧ m.SameShape m' ∧ m'.origin = m.origin ∧
      ∀ x y z b, m.In x y z b → ∃ v w, m.px x y z b = some v ∧ m'.px x y z b = some w ∧ (w.toNat : Int) = max 0 (min 255 (f v)) := by
  obtain ⟨g, e, hs, hl⟩ := new_image junk hm
  have hd := hm.cons.2.2.2
  refine ⟨{ m with data := m.data.map fun v => clamp (f v) }, ?_, ⟨rfl, by simp⟩, rfl, fun x y z b hin => ?_⟩
  · unfold iluContrast
    simp only [e, bind_ok]
    rw [loopN_fill (fun _ => (127 : UInt8)) (by omega), bind_ok]
    rw [hs, List.drop_eq_nil_of_le (by omega), List.append_nil, List.map_const', List.length_range, ← hd, mix_loop hf]
    rfl
  · have hlt : ((z * m.height + y) * m.width + x) * (m.bpp * m.bpc) + b < m.data.length := by
      obtain ⟨hx, hy, hz, hb'⟩ := hin
      rw [hm.len]
      exact idx_lt (idx_lt (idx_lt hz hy) hx) hb'
    refine ⟨_, _, List.getElem?_eq_getElem hlt, ?_, C137_limit_partial _⟩
    unfold Img.px
    rw [List.getElem?_map, List.getElem?_eq_getElem hlt]
    rfl

/-- **C138.** With the contrast 1 the image stays as it is: the arithmetic is exact there. -/
theorem C138_one_partial (junk : Nat → UInt8) (m : Img) (hm : m.Whole) (hb : m.bpc = 1) : iluContrast (fun _ v => .ok v.toNat) junk m = .ok (some m) := by
  obtain ⟨m', e, s, o, p⟩ := C138_contrast_partial (fun _ v => .ok v.toNat) (fun v => v.toNat) (fun _ => rfl) junk m hm hb
  rw [e]
  have hd : m'.data = m.data := by
    refine Img.data_ext hm.cons s fun x y z b hin => ?_
    obtain ⟨v, w, h1, h2, h3⟩ := p x y z b hin
    rw [h1, h2]
    have := v.toNat_lt
    congr 1
    apply UInt8.toNat_inj.mp
    omega
  have : m' = m := by rw [s.1, hd, o]
  rw [this]

/-- **C138 violated.** With 16 bits per component and contrast 2 (for which the arithmetic is exact) 255 stays 255, and the brighter 256 becomes 0. -/
theorem C138_violated_short :
    (iluContrast (fun x v => .ok ((1 - 2) * (x.toNat : Int) + 2 * v.toNat)) (fun _ => 0) (sample IL_LUMINANCE IL_UNSIGNED_SHORT 1 2 2 [255, 0, 0, 1])).map
      (Option.map Img.data) = .ok (some [255, 0, 0, 0]) := by decide +kernel

example : (iluContrast (fun x v => .ok ((1 - 2) * (x.toNat : Int) + 2 * v.toNat)) (fun _ => 0) (sample IL_RGB IL_UNSIGNED_BYTE 3 1 1 [20, 127, 240])).map
      (Option.map Img.data) = .ok (some [0, 127, 255]) := by decide +kernel

/-! ### C139 -/

/-- `(float)pow(i / 255.0, 1.0)` times 255 is `i` again, for all 256 values. -/
theorem table1_exact : ∀ i : Fin 256, times (table1 i.val) 255 = i.val := by decide +kernel

/-- **C139.** `iluGammaCorrect` maps every byte of an image with components of one byte through a table; with gamma 1 the image stays as it is.  The table for gamma 1 is computed as
the code computes it, with `double`s and `float`s.  Missing, because false: 16 and 32 bits per component (`C139_violated_short`, `C139_violated_white`). -/
theorem C139_one_partial (m : Img) (p : Pal) (hm : m.Whole) (hb : m.bpc = 1) (hf : m.format ≠ IL_COLOUR_INDEX) : iluGammaCorrect table1 m p = .ok (m, p) := by
  unfold iluGammaCorrect
  rw [if_neg hf, if_pos hb, ← hm.cons.2.2.2, byteLoop m.data (fun v => UInt8.ofNat (times (table1 v.toNat) 255)), bind_ok]
  have : (fun v : UInt8 => UInt8.ofNat (times (table1 v.toNat) 255)) = id := by
    funext v
    rw [table1_exact ⟨v.toNat, v.toNat_lt⟩]
    simp
  rw [this, List.map_id, hm.cons.2.2.2]; rfl

/-- **C139.** A colour-indexed image: the palette stays as well. -/
theorem C139_palette_one_partial (m : Img) (p : Pal) (hl : p.data.length = p.size) (hf : m.format = IL_COLOUR_INDEX) :
    iluGammaCorrect table1 m p = .ok (m, p) := by
  unfold iluGammaCorrect
  rw [if_pos hf, ← hl, byteLoop p.data (fun v => UInt8.ofNat (times (table1 v.toNat) 255)), bind_ok]
  have : (fun v : UInt8 => UInt8.ofNat (times (table1 v.toNat) 255)) = id := by
    funext v
    rw [table1_exact ⟨v.toNat, v.toNat_lt⟩]
    simp
  rw [this, List.map_id, hl]; rfl

/-- **C139.** Whatever gamma is: every byte is looked up in the table, which has one entry for each value, so equal components stay equal; nothing else changes. -/
theorem C139_table_partial (table : Nat → Nat × Nat) (m : Img) (p : Pal) (hm : m.Whole) (hb : m.bpc = 1) (hf : m.format ≠ IL_COLOUR_INDEX) :
    ∃ m', iluGammaCorrect table m p = .ok (m', p) ∧ m.SameShape m' ∧ m'.origin = m.origin ∧
      ∀ x y z b, m'.px x y z b = (m.px x y z b).map fun v => UInt8.ofNat (times (table v.toNat) 255) := by
  refine ⟨{ m with data := m.data.map fun v => UInt8.ofNat (times (table v.toNat) 255) }, ?_, ⟨rfl, by simp⟩, rfl, fun x y z b => ?_⟩
  · unfold iluGammaCorrect
    rw [if_neg hf, if_pos hb, ← hm.cons.2.2.2, byteLoop m.data (fun v => UInt8.ofNat (times (table v.toNat) 255)), bind_ok]
    rfl
  · unfold Img.px
    exact List.getElem?_map ..

/-- **C139.** Black stays black and white stays white, for every gamma: `pow(0, y)` is 0 for a positive `y` and `pow(1, y)` is 1. -/
theorem C139_ends_partial : times (0, 1) 255 = 0 ∧ times (1, 1) 255 = 255 := by decide +kernel

/-- **C139 violated.** With gamma 1 and 16 bits per component, 0x0102 becomes 0x0101. -/
theorem C139_violated_short :
    (iluGammaCorrect table1 (sample IL_LUMINANCE IL_UNSIGNED_SHORT 1 2 1 [2, 1]) ⟨[], 0, IL_PAL_NONE⟩).map (fun q => q.1.data) = .ok [1, 1] := by decide +kernel

/-- **C139 violated.** Whatever gamma is, a component of 32 bits whose highest byte is 255 becomes a `float` that is no unsigned 32-bit number, and to convert it is undefined: any image
that begins with such a component, as white does. -/
theorem C139_violated_white (table : Nat → Nat × Nat) (h1 : table 255 = (1, 1)) (m : Img) (p : Pal) (a b c : UInt8) (t : List UInt8) (hd : m.data = a :: b :: c :: 255 :: t)
    (hs : m.size = m.data.length) (hb : m.bpc = 4) (hf : m.format ≠ IL_COLOUR_INDEX) :
    iluGammaCorrect table m p = .error .overflow := by
  unfold iluGammaCorrect
  have ha := a.toNat_lt
  have hb' := b.toNat_lt
  have hc := c.toNat_lt
  rw [if_neg hf, if_neg (by omega), if_neg (by omega), if_pos hb]
  rw [loopN_error (k := 0) (t := m.data) (e := .overflow) (by rw [hs, hd]; simp) (loopN_zero ..) ?_]
  · rfl
  · have : getN 4 (0 * 4) m.data = .ok (a.toNat + b.toNat * 256 + c.toNat * 65536 + 255 * 16777216) := by
      rw [hd]
      unfold getN
      simp only [loopN_succ, loopN_zero, rd, bind_ok]
      simp [bind_ok, pure, Except.pure]
    rw [this, bind_ok, show (a.toNat + b.toNat * 256 + c.toNat * 65536 + 255 * 16777216) / 2 ^ 24 = 255 by omega, h1]
    have : times32 (1, 1) = .error .overflow := by decide +kernel
    rw [this]
    rfl

example : (iluGammaCorrect (fun i => (i * i, 65025)) (sample IL_RGB IL_UNSIGNED_BYTE 3 1 1 [0, 128, 255]) ⟨[], 0, IL_PAL_NONE⟩).map (fun q => q.1.data) =
    .ok [0, 64, 255] := by decide +kernel
example : iluGammaCorrect (fun _ => (1, 1)) (sample IL_LUMINANCE IL_UNSIGNED_INT 1 4 1 [255, 255, 255, 255]) ⟨[], 0, IL_PAL_NONE⟩ = .error .overflow := by decide +kernel

/-! ### C140 -/

/-- Component `c` of the pixel at `x, y, z`, as a number. -/
def value (m : Img) (x y z c : Nat) : Nat :=
  leNum ((m.data.drop ((((z * m.height + y) * m.width + x) * m.bpp + c) * m.bpc)).take m.bpc)

theorem value_eq (m : Img) (x y z c : Nat) (hc : c < m.bpp) :
    value m x y z c = leNum (chunk m.bpc c (chunk (m.bpp * m.bpc) ((z * m.height + y) * m.width + x) m.data)) := by
  unfold value
  congr 1
  unfold chunk
  have := Nat.mul_le_mul_right m.bpc (show c + 1 ≤ m.bpp from hc)
  rw [Nat.add_mul, Nat.one_mul] at this
  rw [List.drop_take, List.take_take, List.drop_drop, Nat.min_eq_left (by omega), Nat.add_mul, Nat.mul_assoc]

/-- **C140.** `iluNoisify` on an image with components of one or two bytes: to all components of a pixel the same number is added, which is at least `-factor` and less than
`factor`, and the results are limited to what the component can hold; the pixels outside the region, if there is one, stay.  `factor` is the tolerance times 127 or 32767.  Missing,
because false: 32 bits per component (`C140_violated_int`, `C140_violated_division`). -/
theorem C140_noise_partial (m : Img) (factor : Nat) (rand : Nat → Nat) (mask : Option (List UInt8)) (hm : m.Whole) (hk : m.bpc = 1 ∨ m.bpc = 2) (hf0 : 0 < factor)
    (hf : factor ≤ 32767) (hmask : ∀ r, mask = some r → r.length = m.width * m.height * m.depth) :
    ∃ m', iluNoisify m factor rand mask = .ok m' ∧ m.SameShape m' ∧ m'.origin = m.origin ∧
      ∀ x y z, x < m.width → y < m.height → z < m.depth →
        ((∃ r, mask = some r ∧ r[(z * m.height + y) * m.width + x]? = some 0) ∧ ∀ b, b < m.bpp * m.bpc → m'.px x y z b = m.px x y z b) ∨
        ((∀ r, mask = some r → r[(z * m.height + y) * m.width + x]? ≠ some 0) ∧ ∃ val : Int, -(factor : Int) ≤ val ∧ val < factor ∧
          ∀ c, c < m.bpp → (value m' x y z c : Int) = max 0 (min (256 ^ m.bpc - 1) (value m x y z c + val))) := by
  have hl := hm.len
  obtain ⟨s, e, l, r⟩ := noiseLoop_spec (k := m.bpc) (N := m.depth * m.height * m.width) (bpp := m.bpp) rand mask hk hm.bpp0 hl hf0 (by omega)
    (fun r h => by rw [hmask r h]; exact Nat.le_of_eq (by grind))
  refine ⟨{ m with data := s.1 }, ?_, ⟨rfl, l⟩, rfl, fun x y z hx hy hz => ?_⟩
  · unfold iluNoisify
    rw [if_pos (by omega), if_neg (by omega), ← hm.cons.2.2.2, hl,
      show m.depth * m.height * m.width * (m.bpp * m.bpc) / m.bpc = m.depth * m.height * m.width * m.bpp by
        rw [← Nat.mul_assoc, Nat.mul_div_cancel _ hm.bpc0], e]
    rfl
  · rcases r _ (idx_lt (idx_lt hz hy) hx) with ⟨h, q⟩ | ⟨h, val, h1, h2, q⟩
    · refine Or.inl ⟨h, fun b hb => ?_⟩
      have := congrArg (fun l : List UInt8 => l[b]?) q
      simp only [chunk_get hb] at this
      exact this
    · refine Or.inr ⟨h, val, h1, h2, fun c hc => ?_⟩
      have := q c hc
      rw [← value_eq m x y z c hc] at this
      rw [value_eq { m with data := s.1 } x y z c hc]
      exact this

/-- **C140.** A tolerance so small that `factor` is 0 changes nothing. -/
theorem C140_none (m : Img) (rand : Nat → Nat) (mask : Option (List UInt8)) : iluNoisify m 0 rand mask = .ok m := by
  unfold iluNoisify
  split <;> rfl

/-- **C140 violated.** 32 bits per component: the component 0x80000000, to which 0 is to be added, becomes 0. -/
theorem C140_violated_int :
    (iluNoisify (sample IL_LUMINANCE IL_UNSIGNED_INT 1 4 1 [0, 0, 0, 128]) 5 (fun _ => 5) none).map Img.data = .ok [0, 0, 0, 0] := by decide +kernel

/-- **C140 violated.** 32 bits per component and the tolerance 1, for which `factor` is 2147483648: a division by 0. -/
theorem C140_violated_division (rand : Nat → Nat) :
    iluNoisify (sample IL_LUMINANCE IL_UNSIGNED_INT 1 4 1 [0, 0, 0, 128]) 2147483648 rand none = .error .overflow := by
  rfl

example : (iluNoisify (sample IL_RGB IL_UNSIGNED_BYTE 3 1 2 [1, 100, 250, 9, 9, 9]) 10 (fun i => 12 * i + 1) none).map Img.data = .ok [0, 91, 241, 12, 12, 12] := by decide +kernel
example : (iluNoisify (sample IL_RGB IL_UNSIGNED_SHORT 3 2 2 [1, 0, 250, 0, 255, 255, 9, 9, 9, 9, 9, 9]) 10 (fun _ => 19) (some [1, 0])).map Img.data =
    .ok [10, 0, 3, 1, 255, 255, 9, 9, 9, 9, 9, 9] := by decide +kernel

/-! ### C141 -/

theorem count_pixels {m : Img} (hm : m.Whole) : u32 (u32 (m.width * m.height) * m.depth) = m.depth * m.height * m.width ∧ 0 < m.depth * m.height * m.width ∧
    m.depth * m.height * m.width < 2 ^ 32 := by
  have f := hm.fit
  have k := hm.k0
  have h1 : m.depth * m.height * m.width < 2 ^ 32 := Nat.lt_of_le_of_lt (Nat.le_mul_of_pos_right _ k) f
  have h2 : m.width * m.height * m.depth = m.depth * m.height * m.width := by grind
  have h3 : m.width * m.height ≤ m.width * m.height * m.depth := Nat.le_mul_of_pos_right _ hm.d0
  rw [u32_of_lt (show m.width * m.height < _ by omega), h2, u32_of_lt h1]
  exact ⟨rfl, Nat.mul_pos (Nat.mul_pos hm.d0 hm.h0) hm.w0, h1⟩

theorem equalize_spec (mul : UInt8 → Nat → Nat → Nat) (lum : List UInt8) (m : Img) (p : Pal) (hm : m.Whole) (hb : m.bpc = 1) (hf : m.format ≠ IL_COLOUR_INDEX)
    (hl : lum.length = m.depth * m.height * m.width) (h0 : ∀ v ∈ lum, v ≠ 0) :
    ∃ d, iluEqualize mul lum m p = .ok (some ({ m with data := d }, p)) ∧ d.length = m.data.length ∧
      ∀ x y z, x < m.width → y < m.height → z < m.depth → ∃ old, lum[(z * m.height + y) * m.width + x]? = some old ∧
        ∀ b, b < m.bpp → ({ m with data := d } : Img).px x y z b =
          if b < (if 3 ≤ m.bpp then 3 else 1) then (m.px x y z b).map (stretched mul (m.depth * m.height * m.width) lum old) else m.px x y z b := by
  obtain ⟨en, hn0, hn⟩ := count_pixels hm
  obtain ⟨h1, h2⟩ := pixels hm hb
  unfold iluEqualize
  rw [if_neg (by omega), if_neg hf]
  dsimp only
  rw [en]
  generalize hN : m.depth * m.height * m.width = n at *
  obtain ⟨h, eh, lh, hh⟩ := histogram_spec (n := n) (lum := lum) (by omega) hn
  obtain ⟨s, es, ls, hs⟩ := sumHist_spec hn0 hn lh hh
  obtain ⟨d, e, l, r⟩ := chunks (k := m.bpp) (n := n) id
    (fun i c c' => ∃ old, lum[i]? = some old ∧ ∀ b, b < m.bpp → c'[b]? = if b < (if 3 ≤ m.bpp then 3 else 1) then c[b]?.map (stretched mul n lum old) else c[b]?)
    (fun i d => equalOne mul s lum m.bpp i (i * m.bpp) d) m.data h2 (by
      intro i t A c B hi ht hA hc
      have hold : lum[i]? = some (lum[i]'(by omega)) := List.getElem?_eq_getElem (by omega)
      obtain ⟨c', e, l, r⟩ := equalOne_spec (mul := mul) (A := A) (B := B) hs hold (h0 _ (List.getElem_mem _)) hc hm.bpp0
      refine ⟨A ++ (c' ++ B), c', ?_, rfl, l, _, hold, r⟩
      rw [show t = A ++ (c ++ B) from ht, ← hA, e])
  refine ⟨d, by rw [eh, bind_ok, es, bind_ok, e, bind_ok]; rfl, by rw [h2]; exact l, fun x y z hx hy hz => ?_⟩
  have hp := idx_lt (idx_lt hz hy) hx
  obtain ⟨old, ho, q⟩ := r _ (by rw [← hN]; exact hp)
  refine ⟨old, ho, fun b hb' => ?_⟩
  have := q b hb'
  simp only [id] at this
  rw [chunk_get hb', chunk_get hb'] at this
  unfold Img.px
  simp only [hb, Nat.mul_one]
  exact this

/-- **C141.** `iluEqualize` on an image of bytes that is not colour-indexed, with fewer than 2^24 pixels, none of which has the luminance 0: with `N` pixels, of which `D` are darker than a
pixel of luminance `L`, the brightness of this pixel becomes `256 D / N`: each of its colour components `v` is multiplied by `(256 D / N) / L` and limited to 255; `mul v new old` stands for
`v * (new / old)` with floating-point numbers.  Alpha stays.  Missing, because false: black pixels (`C141_violated_black`), more pixels (`C141_violated_large`), palettes
(`C141_violated_palette`). -/
theorem C141_equalize_partial (mul : UInt8 → Nat → Nat → Nat) (lum : List UInt8) (m : Img) (p : Pal) (hm : m.Whole) (hb : m.bpc = 1) (hf : m.format ≠ IL_COLOUR_INDEX)
    (hl : lum.length = m.depth * m.height * m.width) (hn : lum.length < 2 ^ 24) (h0 : ∀ v ∈ lum, v ≠ 0) :
    ∃ m', iluEqualize mul lum m p = .ok (some (m', p)) ∧ m.SameShape m' ∧ m'.origin = m.origin ∧
      ∀ x y z, x < m.width → y < m.height → z < m.depth → ∃ old, lum[(z * m.height + y) * m.width + x]? = some old ∧
        ∀ b, b < m.bpp → m'.px x y z b =
          if b < (if 3 ≤ m.bpp then 3 else 1) then
            (m.px x y z b).map fun v => UInt8.ofNat (min 255 (mul v (256 * lum.countP (· < old) / lum.length) old.toNat))
          else m.px x y z b := by
  obtain ⟨d, e, l, r⟩ := equalize_spec mul lum m p hm hb hf hl h0
  refine ⟨_, e, ⟨rfl, l⟩, rfl, fun x y z hx hy hz => ?_⟩
  obtain ⟨old, ho, q⟩ := r x y z hx hy hz
  refine ⟨old, ho, fun b hb' => ?_⟩
  have hst : stretched mul (m.depth * m.height * m.width) lum old =
      fun v => UInt8.ofNat (min 255 (mul v (256 * lum.countP (· < old) / lum.length) old.toNat)) := by
    funext v
    unfold stretched darker
    rw [← hl, List.take_length]
    have : lum.countP (fun u => decide (u.toNat < old.toNat)) = lum.countP (fun u => decide (u < old)) := rfl
    rw [this]
    have := List.countP_le_length (p := fun u => decide (u < old)) (l := lum)
    rw [u32_of_lt (by omega), Nat.mul_comm]
  rw [← hst]
  exact q b hb'

/-- **C141 violated.** Any image that is not colour-indexed and has a black pixel: a number that is not a number is converted to an integer, which is undefined. -/
theorem C141_violated_black (mul : UInt8 → Nat → Nat → Nat) (lum : List UInt8) (m : Img) (p : Pal) (hm : m.Whole) (hb : m.bpc = 1) (hf : m.format ≠ IL_COLOUR_INDEX)
    (hl : lum.length = m.depth * m.height * m.width) (h0 : (0 : UInt8) ∈ lum) : iluEqualize mul lum m p = .error .overflow := by
  obtain ⟨en, hn0, hn⟩ := count_pixels hm
  obtain ⟨h1, h2⟩ := pixels hm hb
  unfold iluEqualize
  rw [if_neg (by omega), if_neg hf]
  dsimp only
  rw [en]
  generalize hN : m.depth * m.height * m.width = n at *
  obtain ⟨h, eh, lh, hh⟩ := histogram_spec (n := n) (lum := lum) (by omega) hn
  obtain ⟨s, es, ls, hs⟩ := sumHist_spec hn0 hn lh hh
  rw [eh, bind_ok, es, bind_ok]
  -- the first black pixel
  obtain ⟨i, hi, hz, hbef⟩ : ∃ i, i < n ∧ lum[i]? = some 0 ∧ ∀ j, j < i → lum[j]? ≠ some 0 := by
    refine ⟨lum.findIdx (· == 0), ?_, ?_, fun j hj h => ?_⟩
    · rw [← hl]; exact List.findIdx_lt_length_of_exists ⟨0, h0, rfl⟩
    · have hlt := List.findIdx_lt_length_of_exists (p := (· == 0)) (xs := lum) ⟨0, h0, rfl⟩
      rw [List.getElem?_eq_getElem hlt]
      congr 1
      exact eq_of_beq (List.findIdx_getElem (w := hlt))
    · have hlt := List.findIdx_lt_length_of_exists (p := (· == 0)) (xs := lum) ⟨0, h0, rfl⟩
      have := List.not_of_lt_findIdx hj
      rw [List.getElem?_eq_getElem (by omega)] at h
      rw [Option.some.inj h] at this
      exact absurd this (by decide)
  obtain ⟨t, et, lt⟩ := loopN_inv (n := i) (s := m.data) (f := fun i d => equalOne mul s lum m.bpp i (i * m.bpp) d)
    (fun _ d => d.length = n * m.bpp) h2 (by
      intro k t hk hlt
      have hold : lum[k]? = some (lum[k]'(by omega)) := List.getElem?_eq_getElem (by omega)
      have hle := Nat.mul_le_mul_right m.bpp (show k + 1 ≤ n by omega)
      rw [Nat.add_mul, Nat.one_mul] at hle
      have hA : (t.take (k * m.bpp)).length = k * m.bpp := by rw [List.length_take]; omega
      have hd : t = t.take (k * m.bpp) ++ (chunk m.bpp k t ++ t.drop (k * m.bpp + m.bpp)) := by
        have h1 := List.take_append_drop (k * m.bpp) t
        have h2 := List.take_append_drop m.bpp (t.drop (k * m.bpp))
        rw [List.drop_drop] at h2
        unfold chunk
        rw [h2, h1]
      obtain ⟨c', e, l, -⟩ := equalOne_spec (mul := mul) (A := t.take (k * m.bpp)) (B := t.drop (k * m.bpp + m.bpp)) hs hold
        (fun h => hbef k hk (by rw [hold, h])) (chunk_len (p := k) hlt (by omega)) hm.bpp0
      refine ⟨t.take (k * m.bpp) ++ (c' ++ t.drop (k * m.bpp + m.bpp)), ?_, ?_⟩
      · rw [hA, ← hd] at e
        exact e
      · simp only [List.length_append, l, hA, List.length_drop]
        omega)
  rw [loopN_error hi et ?_]
  · rfl
  · have hle := Nat.mul_le_mul_right m.bpp (show i + 1 ≤ n by omega)
    rw [Nat.add_mul, Nat.one_mul] at hle
    have := hm.bpp0
    unfold equalOne
    rw [rd_eq_ok.mpr hz, bind_ok, rd_eq_ok.mpr (hs (UInt8.toNat 0) (by decide)), bind_ok, rd_of_lt (show i * m.bpp < t.length by omega), bind_ok]
    rfl

/-- **C141 violated.** Whenever 2^24 pixels are darker than a pixel, that is, in an image of more than 16 million pixels, the pixel becomes black: the number of darker pixels times 256 is reduced
modulo 2^32. -/
theorem C141_violated_large (mul : UInt8 → Nat → Nat → Nat) (hmul : ∀ v old, mul v 0 old = 0) (lum : List UInt8) (m : Img) (p : Pal) (hm : m.Whole) (hb : m.bpc = 1)
    (hf : m.format ≠ IL_COLOUR_INDEX) (hl : lum.length = m.depth * m.height * m.width) (h0 : ∀ v ∈ lum, v ≠ 0) (x y z : Nat) (hx : x < m.width) (hy : y < m.height)
    (hz : z < m.depth) (old : UInt8) (ho : lum[(z * m.height + y) * m.width + x]? = some old) (hD : lum.countP (· < old) = 2 ^ 24) :
    ∃ m', iluEqualize mul lum m p = .ok (some (m', p)) ∧ m'.px x y z 0 = some 0 := by
  obtain ⟨d, e, l, r⟩ := equalize_spec mul lum m p hm hb hf hl h0
  refine ⟨_, e, ?_⟩
  obtain ⟨old', ho', q⟩ := r x y z hx hy hz
  rw [ho] at ho'
  cases ho'
  rw [q 0 hm.bpp0, if_pos (by split <;> omega)]
  have hst : ∀ v, stretched mul (m.depth * m.height * m.width) lum old v = 0 := by
    intro v
    unfold stretched darker
    rw [← hl, List.take_length]
    have : lum.countP (fun u => decide (u.toNat < old.toNat)) = lum.countP (fun u => decide (u < old)) := rfl
    rw [this, hD]
    rw [show u32 (2 ^ 24 * 256) = 0 by decide, Nat.zero_div, hmul]
    rfl
  have hlt : ((z * m.height + y) * m.width + x) * (m.bpp * m.bpc) + 0 < m.data.length := by
    rw [hm.len]
    exact idx_lt (idx_lt (idx_lt hz hy) hx) hm.k0
  unfold Img.px
  rw [List.getElem?_eq_getElem hlt, Option.map_some, hst]

theorem large_example (n : Nat) (hn : n + 1 < 2 ^ 32) : ∃ (lum : List UInt8) (m : Img), m.Whole ∧ m.bpc = 1 ∧ m.format ≠ IL_COLOUR_INDEX ∧
    lum.length = m.depth * m.height * m.width ∧ (∀ v ∈ lum, v ≠ 0) ∧ 0 < m.width ∧ 0 < m.height ∧ 0 < m.depth ∧
    lum[(0 * m.height + 0) * m.width + 0]? = some 200 ∧ lum.countP (· < 200) = n := by
  refine ⟨200 :: List.replicate n 100, sample IL_LUMINANCE IL_UNSIGNED_BYTE 1 1 (n + 1) (200 :: List.replicate n 100),
    sample_whole (by omega) (by decide) (by decide) rfl rfl ?_ (by omega), rfl, ?_, ?_, ?_, ?_, Nat.one_pos, Nat.one_pos, ?_, ?_⟩
  · simp
  · show IL_LUMINANCE ≠ IL_COLOUR_INDEX
    decide
  · rw [List.length_cons, List.length_replicate]
    show _ = 1 * 1 * (n + 1)
    omega
  · intro v hv
    rcases List.mem_cons.mp hv with h | h
    · rw [h]; decide
    · rw [List.eq_of_mem_replicate h]; decide
  · exact Nat.succ_pos _
  · simp
  · rw [List.countP_cons, List.countP_replicate]
    simp

/-- The hypotheses of `C141_violated_large` can be met: an image of 2^24 + 1 grey pixels, of which one is brighter than the others. -/
example : ∃ (lum : List UInt8) (m : Img), m.Whole ∧ m.bpc = 1 ∧ m.format ≠ IL_COLOUR_INDEX ∧ lum.length = m.depth * m.height * m.width ∧ (∀ v ∈ lum, v ≠ 0) ∧
    0 < m.width ∧ 0 < m.height ∧ 0 < m.depth ∧ lum[(0 * m.height + 0) * m.width + 0]? = some 200 ∧ lum.countP (· < 200) = 2 ^ 24 :=
  large_example (2 ^ 24) (by decide)

/-- **C141 violated.** Palettes: the entries are taken at the distance of one byte, so that the grey entries 10, 20 and 40 of a palette of three components do not become the greys 0, 85 and 170:
the bytes 3 and 4 become 255 and 85, and all later ones stay.  This with the exact `v * new / old`. -/
theorem C141_violated_palette :
    (iluEqualize (fun v new old => v.toNat * new / old) [10, 20, 40] (sample IL_COLOUR_INDEX IL_UNSIGNED_BYTE 1 1 3 [0, 1, 2])
      ⟨[10, 10, 10, 20, 20, 20, 40, 40, 40], 9, IL_PAL_RGB24⟩).map (Option.map fun q => q.2.data) = .ok (some [0, 0, 0, 255, 85, 20, 40, 40, 40]) := by decide +kernel

/-- **C141 violated.** Palettes: an image with fewer pixels than its palette has entries is read past its end. -/
theorem C141_violated_read :
    iluEqualize (fun v new old => v.toNat * new / old) [10] (sample IL_COLOUR_INDEX IL_UNSIGNED_BYTE 1 1 1 [0])
      ⟨[10, 10, 10, 20, 20, 20], 6, IL_PAL_RGB24⟩ = .error .oobRead := by decide +kernel

/-- **C141.** Components of more than one byte are refused. -/
theorem C141_refused (mul : UInt8 → Nat → Nat → Nat) (lum : List UInt8) (m : Img) (p : Pal) (h : 1 < m.bpc) : iluEqualize mul lum m p = .ok none := by
  unfold iluEqualize
  rw [if_pos h]; rfl

example : (iluEqualize (fun v new old => v.toNat * new / old) [10, 20] (sample IL_RGB IL_UNSIGNED_BYTE 3 1 2 [10, 10, 10, 10, 20, 30]) ⟨[], 0, IL_PAL_NONE⟩).map
    (Option.map fun q => q.1.data) = .ok (some [0, 0, 0, 64, 128, 192]) := by decide +kernel

end DevIL.Colour
