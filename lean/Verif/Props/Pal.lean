import Verif.Lemmas.Pal
import Verif.Props.Channels
/-! Palettes: C29 (layout conversion), C30 (colour-indexed images to colours), C31 (grey to colour index), C76 (to grey and
alpha). -/
set_option autoImplicit false
namespace DevIL.Palette
open Utility

/-! ## Specification vocabulary -/

/-- The six palette layouts. -/
def IsPal (t : Nat) : Prop := t ∈ [IL_PAL_RGB24, IL_PAL_RGB32, IL_PAL_RGBA32, IL_PAL_BGR24, IL_PAL_BGR32, IL_PAL_BGRA32]

instance (t : Nat) : Decidable (IsPal t) := by unfold IsPal; infer_instance

/-- Bytes per entry. -/
def stride (t : Nat) : Nat := if t = IL_PAL_RGB24 ∨ t = IL_PAL_BGR24 then 3 else 4

/-- The byte of an entry that holds red; blue is in the byte `2 - redAt`. -/
def redAt (t : Nat) : Nat := if t = IL_PAL_RGB24 ∨ t = IL_PAL_RGB32 ∨ t = IL_PAL_RGBA32 then 0 else 2

/-- The layouts whose fourth byte is alpha. -/
def hasAlpha (t : Nat) : Bool := t = IL_PAL_RGBA32 ∨ t = IL_PAL_BGRA32

def red (p : Pal) (i : Nat) : Option UInt8 := p.data[i * stride p.type + redAt p.type]?
def green (p : Pal) (i : Nat) : Option UInt8 := p.data[i * stride p.type + 1]?
def blue (p : Pal) (i : Nat) : Option UInt8 := p.data[i * stride p.type + (2 - redAt p.type)]?

/-- The alpha of an entry: opaque in a layout without alpha. -/
def alpha (p : Pal) (i : Nat) : Option UInt8 := if hasAlpha p.type then p.data[i * stride p.type + 3]? else some 255

/-- A palette of `n` entries. -/
structure Has (p : Pal) (n : Nat) : Prop where
  type : IsPal p.type
  size : p.size = n * stride p.type
  len : p.data.length = p.size

/-! ## C29 -/

theorem redAt_swap (t d : Nat) : (redAt t = redAt d ∧ (if (decide (redAt t ≠ redAt d)) then 2 else 0) = 0) ∨
    (redAt t = 2 - redAt d ∧ (if (decide (redAt t ≠ redAt d)) then 2 else 0) = 2) := by
  unfold redAt; split <;> split <;> simp

/-- What every arm of the conversion yields. -/
theorem finish {p : Pal} {n : Nat} {dest : Nat} {b : List UInt8} {swap : Bool} {four : Fourth} (hp : Has p n)
    (hsw : swap = decide (redAt p.type ≠ redAt dest)) (hb : b.length = n * stride dest)
    (hf : stride dest = 4 → (four = .opaque_ ∧ hasAlpha p.type = false) ∨ (four = .copy ∧ hasAlpha p.type = true))
    (hd : ∀ j, j < n → Done p.data (stride p.type) (stride dest) swap four j b) :
    let q : Pal := ⟨b, n * stride dest, dest⟩
    q.data.length = q.size ∧ ∀ i, i < n → red q i = red p i ∧ green q i = green p i ∧ blue q i = blue p i ∧
      (stride dest = 4 → q.data[i * 4 + 3]? = alpha p i) := by
  refine ⟨hb, fun i hi => ?_⟩
  obtain ⟨d0, d1, d2, d3, d4⟩ := hd i hi
  have hr : ∀ t, redAt t = 0 ∨ redAt t = 2 := by intro t; unfold redAt; split <;> simp
  unfold red green blue
  simp only []
  refine ⟨?_, d1, ?_, ?_⟩
  · rcases hr p.type with e | e <;> rcases hr dest with f | f <;> rw [e, f] at hsw ⊢ <;> subst hsw
    · simpa using d0
    · simpa using d2
    · simpa using d0
    · simpa using d2
  · rcases hr p.type with e | e <;> rcases hr dest with f | f <;> rw [e, f] at hsw ⊢ <;> subst hsw
    · simpa using d2
    · simpa using d0
    · simpa using d2
    · simpa using d0
  · intro ha
    rw [ha] at d3 d4
    unfold alpha
    rcases hf ha with ⟨e, f⟩ | ⟨e, f⟩
    · rw [f, d3 e]; simp
    · rw [f, d4 e]; simp

theorem done_same {p : Pal} {n : Nat} (t : Nat) (hp : Has p n) (four : Fourth) (hf : four ≠ .opaque_) :
    ∀ j, j < n → Done p.data (stride t) (stride t) false four j p.data :=
  fun _ _ => ⟨rfl, rfl, rfl, fun h => absurd h hf, fun _ => rfl⟩

/-- **C29.**  Converting a palette between any two of the six layouts keeps the number of entries and every entry's red,
green and blue; a layout with alpha receives the alpha of the entry, which is opaque if the source has none (and the same byte is stored in the unused fourth byte
of the layouts without alpha).
Missing (and false): palettes of more than 2^24/12 entries, and sizes that are no multiple of the entry size. -/
theorem C29_convert_partial (junk : Nat → UInt8) (p : Pal) (n dest : Nat) (hp : Has p n) (hd : IsPal dest)
    (hn : n * 12 < 16777216) :
    ∃ q, iConvertPal junk p dest = .ok (some q) ∧ q.type = dest ∧ Has q n ∧
      ∀ i, i < n → red q i = red p i ∧ green q i = green p i ∧ blue q i = blue p i ∧
        (hasAlpha dest = true → alpha q i = alpha p i) ∧ (stride dest = 4 → q.data[i * 4 + 3]? = alpha p i) := by
  suffices h : ∃ b swap four, iConvertPal junk p dest = .ok (some ⟨b, n * stride dest, dest⟩) ∧
      swap = decide (redAt p.type ≠ redAt dest) ∧ b.length = n * stride dest ∧
      (stride dest = 4 → (four = Fourth.opaque_ ∧ hasAlpha p.type = false) ∨ (four = Fourth.copy ∧ hasAlpha p.type = true)) ∧
      ∀ j, j < n → Done p.data (stride p.type) (stride dest) swap four j b by
    obtain ⟨b, swap, four, e, h1, h2, h3, h4⟩ := h
    obtain ⟨f1, f2⟩ := finish hp h1 h2 h3 h4
    refine ⟨_, e, rfl, ⟨hd, rfl, h2⟩, fun i hi => ?_⟩
    obtain ⟨g1, g2, g3, g4⟩ := f2 i hi
    refine ⟨g1, g2, g3, fun ha => ?_, g4⟩
    have h4 : stride dest = 4 := by
      unfold hasAlpha at ha
      simp only [decide_eq_true_eq] at ha
      rcases ha with e | e <;> rw [e] <;> decide
    rw [← g4 h4]
    unfold alpha
    simp only [ha, if_true, h4]
  have hl := hp.len
  have hs := hp.size
  have key : ∀ (s d : Nat) (swap : Bool) (four : Fourth), s = stride p.type → d = stride dest → 3 ≤ s → 3 ≤ d →
      (four ≠ .no → 4 ≤ d) → (four = .copy → 4 ≤ s) →
      ∃ b, entries p s d swap four (alloc junk (n * d)) = .ok b ∧ b.length = n * stride dest ∧
        ∀ j, j < n → Done p.data (stride p.type) (stride dest) swap four j b := by
    intro s d swap four e1 e2 h1 h2 h3 h4
    subst e1 e2
    obtain ⟨b, e, h⟩ := entries_holds (p := p) (dst := alloc junk (n * stride dest)) (swap := swap) (four := four) h1 h2 h3 h4 hs hl
      (alloc_length _ _)
    exact ⟨b, e, h.1, h.2⟩
  have ht := hp.type
  unfold IsPal at ht hd
  simp only [List.mem_cons, List.not_mem_nil, or_false] at ht hd
  unfold iConvertPal
  rcases ht with ht | ht | ht | ht | ht | ht <;> rcases hd with hd | hd | hd | hd | hd | hd <;>
    simp only [ht, hd, stride, IL_PAL_RGB24, IL_PAL_RGB32, IL_PAL_RGBA32, IL_PAL_BGR24, IL_PAL_BGR32, IL_PAL_BGRA32, true_or, or_true, if_true, Nat.reduceEqDiff, false_or, or_false, if_false, reduceCtorEq,
      true_and, false_and, and_true, and_false, not_true, not_false_eq_true, ne_eq, decide_true, decide_false] at hs key ⊢
  all_goals first
    | -- copies
      (rw [memcpy_all hl]
       simp only [bind_ok, pure_eq_ok]
       rw [hs]
       refine ⟨_, false, .copy, rfl, ?_, by rw [hl, hs], ?_, fun j hj => ⟨rfl, rfl, rfl, (fun h => nomatch h), fun _ => rfl⟩⟩
       · decide
       · decide)
    | -- 24 -> 24 swapped
      (rw [hs]
       obtain ⟨b, e, h1, h2⟩ := key 3 3 true .no rfl rfl (by decide) (by decide) (by decide) (by decide)
       rw [e]
       exact ⟨b, true, .no, rfl, by decide, h1, by decide, h2⟩)
    | -- 32 -> 24
      (rw [hs, threeQuarters_small hn]
       first
       | (obtain ⟨b, e, h1, h2⟩ := key 4 3 true .no rfl rfl (by decide) (by decide) (by decide) (by decide)
          rw [e]
          exact ⟨b, true, .no, rfl, by decide, h1, by decide, h2⟩)
       | (obtain ⟨b, e, h1, h2⟩ := key 4 3 false .no rfl rfl (by decide) (by decide) (by decide) (by decide)
          rw [e]
          exact ⟨b, false, .no, rfl, by decide, h1, by decide, h2⟩))
    | -- 24 -> 32
      (have hu : u32 (n * 3 * 4) / 3 = n * 4 := by rw [u32_of_lt (by omega)]; omega
       rw [hs, hu]
       first
       | (obtain ⟨b, e, h1, h2⟩ := key 3 4 true .opaque_ rfl rfl (by decide) (by decide) (by decide) (by decide)
          rw [e]
          exact ⟨b, true, .opaque_, rfl, by decide, h1, by decide, h2⟩)
       | (obtain ⟨b, e, h1, h2⟩ := key 3 4 false .opaque_ rfl rfl (by decide) (by decide) (by decide) (by decide)
          rw [e]
          exact ⟨b, false, .opaque_, rfl, by decide, h1, by decide, h2⟩))
    | -- 32 -> 32
      (rw [hs]
       first
       | (obtain ⟨b, e, h1, h2⟩ := key 4 4 true .opaque_ rfl rfl (by decide) (by decide) (by decide) (by decide)
          rw [e]
          exact ⟨b, true, .opaque_, rfl, by decide, h1, by decide, h2⟩)
       | (obtain ⟨b, e, h1, h2⟩ := key 4 4 false .opaque_ rfl rfl (by decide) (by decide) (by decide) (by decide)
          rw [e]
          exact ⟨b, false, .opaque_, rfl, by decide, h1, by decide, h2⟩)
       | (obtain ⟨b, e, h1, h2⟩ := key 4 4 true .copy rfl rfl (by decide) (by decide) (by decide) (by decide)
          rw [e]
          exact ⟨b, true, .copy, rfl, by decide, h1, by decide, h2⟩))

example : Has ⟨[10, 20, 30, 40, 50, 60, 70, 80], 8, IL_PAL_RGBA32⟩ 2 ∧
    iConvertPal (fun _ => 0) ⟨[10, 20, 30, 40, 50, 60, 70, 80], 8, IL_PAL_RGBA32⟩ IL_PAL_BGR24 =
      .ok (some ⟨[30, 20, 10, 70, 60, 50], 6, IL_PAL_BGR24⟩) :=
  ⟨⟨by decide, rfl, rfl⟩, by decide +kernel⟩

/-- **C29 fails for a size that is no multiple of the entry size**: the last, incomplete entry is read past its end. -/
theorem C29_violated_ragged (junk : Nat → UInt8) :
    iConvertPal junk ⟨[1, 2, 3, 4], 4, IL_PAL_RGB24⟩ IL_PAL_BGR24 = .error .oobRead := rfl

/-- **C29 fails for large palettes**: three quarters of the size are computed in single precision; for 5592407 entries the
result is one byte short and the conversion writes past its block. -/
theorem C29_violated_large (junk : Nat → UInt8) (p : Pal) (hp : Has p 5592407) (ht : p.type = IL_PAL_RGBA32) :
    iConvertPal junk p IL_PAL_RGB24 = .error .oobWrite := by
  have h4 : stride IL_PAL_RGBA32 = 4 := by decide
  have hs : p.size = 5592407 * 4 := by rw [hp.size, ht, h4]
  have h3 : threeQuarters (5592407 * 4) = 16777220 := by decide +kernel
  unfold iConvertPal
  simp only [ht, IL_PAL_RGB24, IL_PAL_RGB32, IL_PAL_RGBA32, IL_PAL_BGR24, IL_PAL_BGR32, IL_PAL_BGRA32, true_or,
    or_true, if_true, Nat.reduceEqDiff, or_false, if_false, not_true, ne_eq, decide_false]
  rw [hs, h3, entries_short (n := 5592407) (by omega) hs hp.len (by have := alloc_length junk 16777220; omega)]
  rfl

example : ∃ p, Has p 5592407 ∧ p.type = IL_PAL_RGBA32 :=
  ⟨⟨List.replicate (5592407 * 4) 0, 5592407 * 4, IL_PAL_RGBA32⟩, ⟨by decide, by rw [show stride IL_PAL_RGBA32 = 4 by decide], List.length_replicate⟩, rfl⟩

/-! ## C30 -/

/-- `ilConvertPal` installs the converted palette. -/
theorem ilConvertPal_eq (junk : Nat → UInt8) (p : Pal) (n dest : Nat) (hp : Has p n) (hd : IsPal dest) (hn : n * 12 < 16777216) :
    ∃ q, ilConvertPal junk p dest = .ok (some q) ∧ q.type = dest ∧ Has q n ∧
      ∀ i, i < n → red q i = red p i ∧ green q i = green p i ∧ blue q i = blue p i ∧
        (stride dest = 4 → q.data[i * 4 + 3]? = alpha p i) := by
  obtain ⟨q, e, t, h, f⟩ := C29_convert_partial junk p n dest hp hd hn
  refine ⟨q, ?_, t, h, fun i hi => ?_⟩
  · unfold ilConvertPal
    rw [e, bind_ok]
    simp only []
    rw [memcpy_all h.len]
    rfl
  · obtain ⟨a, b, c, _, d⟩ := f i hi
    exact ⟨a, b, c, d⟩

/-- The pixel loop of `iConvertPalette`. -/
theorem lookup_spec {src pal dst : List UInt8} {N n k : Nat} (hk : 0 < k) (hs : src.length = N) (hp : pal.length = n * k)
    (hi : ∀ (i : Nat) (v : UInt8), src[i]? = some v → v.toNat < n) (hd : dst.length = N * k) :
    ∃ d, loopN N (fun i b => loopN k (fun c b => do
        let v ← rd src i
        let x ← rd pal (v.toNat * k + c)
        wr b (i * k + c) x) b) dst = .ok d ∧ d.length = N * k ∧
      ∀ i c v, c < k → src[i]? = some v → d[i * k + c]? = pal[v.toNat * k + c]? := by
  have U : Upd (fun d => loopN N (fun i b => loopN k (fun c b => do
        let v ← rd src i
        let x ← rd pal (v.toNat * k + c)
        wr b (i * k + c) x) b) d) dst (fun _ => False) (fun j => ∃ i, i < N ∧ ∃ c, c < k ∧ j = i * k + c)
      (fun j => src[j / k]?.bind fun v => pal[v.toNat * k + j % k]?) := by
    refine Upd.loopW fun i hi' => Upd.loopW fun c hc => ?_
    have h1 : i < src.length := by omega
    have h2 : src[i].toNat * k + c < pal.length := by
      rw [hp]; exact idx_lt (hi i _ (List.getElem?_eq_getElem h1)) hc
    refine (Upd.wr (k := i * k + c) (x := pal[src[i].toNat * k + c])
      (by rw [hd]; exact idx_lt hi' hc) ?_).congr (fun d _ => ?_) (fun _ h => h) (fun _ _ => Iff.rfl) (fun _ _ _ => rfl)
    · rw [idx_div hc, idx_mod hc, List.getElem?_eq_getElem h1]
      simp only [Option.bind_some]
      exact List.getElem?_eq_getElem h2
    · rw [rd_of_lt h1, bind_ok, rd_of_lt h2, bind_ok]
  obtain ⟨d, e, l, g⟩ := U.apply
  refine ⟨d, e, by rw [l, hd], fun i c v hc hv => ?_⟩
  have hlt : i < N := by
    rw [← hs]
    exact (List.getElem?_eq_some_iff.mp hv).1
  rw [(g (i * k + c) (by rw [hd]; exact idx_lt hlt hc)).1 ⟨i, hlt, c, hc, rfl⟩, idx_div hc, idx_mod hc, hv]
  rfl

/-- `ilResizeImage` to one byte per component. -/
theorem resize_consistent (junk : Nat → UInt8) (m : Img) (k : Nat) (hs : m.size = m.depth * m.height * m.width)
    (h0 : 0 < m.size) (h : m.size * k < 2 ^ 32) :
    (Image.ilResizeImage junk m m.width m.height m.depth k 1).Consistent := by
  have hd : 1 ≤ m.depth := by
    rcases Nat.eq_zero_or_pos m.depth with e | e
    · rw [e] at hs; simp at hs; omega
    · exact e
  have hh : 1 ≤ m.height := by
    rcases Nat.eq_zero_or_pos m.height with e | e
    · rw [e] at hs; simp at hs; omega
    · exact e
  have hw : 1 ≤ m.width := by
    rcases Nat.eq_zero_or_pos m.width with e | e
    · rw [e] at hs; simp at hs; omega
    · exact e
  have a3 : k * m.width * m.height * m.depth < 2 ^ 32 := by
    rw [hs] at h
    have : k * m.width * m.height * m.depth = m.depth * m.height * m.width * k := by grind
    omega
  have a2 : k * m.width * m.height < 2 ^ 32 := Nat.lt_of_le_of_lt (Nat.le_mul_of_pos_right _ hd) a3
  have a1 : k * m.width < 2 ^ 32 := Nat.lt_of_le_of_lt (Nat.le_mul_of_pos_right _ hh) a2
  have a0 : k < 2 ^ 32 := Nat.lt_of_le_of_lt (Nat.le_mul_of_pos_right _ hw) a1
  have e0 : u32 (k * 1) = k := by rw [Nat.mul_one]; exact u32_of_lt a0
  unfold Image.ilResizeImage Img.Consistent
  simp only [e0, u32_of_lt a1, u32_of_lt a2, u32_of_lt a3, alloc_length]
  refine ⟨by grind, by grind, by grind, trivial⟩

theorem px_count' {m : Img} (h : m.Consistent) (hb : m.bpp = 1) (hc : m.bpc = 1) :
    m.size = m.depth * m.height * m.width := by
  rw [h.2.2.1, hb, hc]; grind

/-- The byte of a pixel that holds red in the colour formats. -/
def redByte (f : Nat) : Nat := if f = IL_BGR ∨ f = IL_BGRA then 2 else 0

/-- Converting a colour-indexed image with a palette of `n` entries: what the pixel at `x, y, z` must become. -/
def Shows (g : Img) (p : Pal) (x y z : Nat) (v : UInt8) : Prop :=
  g.px x y z (redByte g.format) = red p v.toNat ∧ g.px x y z 1 = green p v.toNat ∧
  g.px x y z (2 - redByte g.format) = blue p v.toNat ∧
  (g.format = IL_RGBA ∨ g.format = IL_BGRA → g.px x y z 3 = alpha p v.toNat)

/-- **C30.**  Converting a colour-indexed image whose indices all name entries of its palette to one of the four colour
formats keeps its extent and gives every pixel the red, green and blue (and alpha, opaque if the palette has none) of its
palette entry; the result has no palette.
Missing (and false): indices outside the palette (`C30_violated_outside`), images of 2^30 or more pixels, palettes of more
than 2^24/12 entries, index images of more than one byte per component; see C76 for the grey formats. -/
theorem C30_colours_partial (junk : Nat → UInt8) (lum : UInt8 → UInt8 → UInt8 → UInt8) (curType : Nat) (m : Img) (p : Pal)
    (n dest : Nat) (hm : m.Consistent) (hb : m.bpp = 1) (hc : m.bpc = 1) (h0 : 0 < m.size) (hsz : m.size * 4 < 2 ^ 32)
    (hp : Has p n) (hn : 0 < n) (hn' : n * 12 < 2 ^ 24) (hv : ∀ v ∈ m.data, v.toNat < n)
    (hd : dest ∈ [IL_RGB, IL_RGBA, IL_BGR, IL_BGRA]) :
    ∃ g, iConvertPalette junk lum curType m (some p) dest = .ok (some (g, none)) ∧ g.Consistent ∧ g.format = dest ∧
      g.width = m.width ∧ g.height = m.height ∧ g.depth = m.depth ∧ g.bpp = ilGetBppFormat dest ∧ g.bpc = 1 ∧
      ∀ x y z v, m.In x y z 0 → m.px x y z 0 = some v → Shows g p x y z v := by
  have hst : 3 ≤ stride p.type := by unfold stride; split <;> omega
  have hps : p.size ≠ 0 := by
    rw [hp.size]
    have := Nat.mul_le_mul (show 1 ≤ n from hn) hst
    omega
  have hpt : p.type ≠ IL_PAL_NONE := by
    have := hp.type
    unfold IsPal at this
    intro h
    rw [h] at this
    revert this
    decide
  have hlen := hm.len
  rw [hb, hc, Nat.mul_one] at hlen
  have hsz' : m.size = m.depth * m.height * m.width := by
    have := hm.2.2.2; omega
  -- the palette type chosen
  obtain ⟨t, hT, ht, hbt, hr⟩ : ∃ t, (if dest = IL_RGB then some IL_PAL_RGB24 else if dest = IL_BGR then some IL_PAL_BGR24
        else if dest = IL_RGBA then some IL_PAL_RGB32 else if dest = IL_BGRA then some IL_PAL_BGR32 else none) = some t ∧
      IsPal t ∧ (ilGetBppPal t = ilGetBppFormat dest ∧ stride t = ilGetBppFormat dest) ∧ (redAt t = redByte dest ∧
        ((dest = IL_RGBA ∨ dest = IL_BGRA) → stride t = 4)) := by
    simp only [List.mem_cons, List.not_mem_nil, or_false] at hd
    rcases hd with h | h | h | h <;> subst h
    · exact ⟨IL_PAL_RGB24, by decide, by decide, by decide, by decide⟩
    · exact ⟨IL_PAL_RGB32, by decide, by decide, by decide, by decide⟩
    · exact ⟨IL_PAL_BGR24, by decide, by decide, by decide, by decide⟩
    · exact ⟨IL_PAL_BGR32, by decide, by decide, by decide, by decide⟩
  have hk : 3 ≤ ilGetBppFormat dest ∧ ilGetBppFormat dest ≤ 4 := by
    rw [← hbt.2]; unfold stride; split <;> omega
  obtain ⟨q, e, hqt, hq, hf⟩ := ilConvertPal_eq junk p n t hp ht (by omega)
  have hgc := resize_consistent junk { m with format := dest } (ilGetBppFormat dest) hsz' h0 (by
    have := Nat.mul_le_mul_left m.size hk.2
    show m.size * _ < _
    omega)
  unfold iConvertPalette
  simp only []
  rw [if_neg (fun h => h.elim hps fun h => h.elim hpt fun h => h hb)]
  have hne : ¬ (dest = IL_LUMINANCE ∨ dest = IL_LUMINANCE_ALPHA) ∧ dest ≠ IL_ALPHA ∧ dest ≠ IL_COLOUR_INDEX := by
    simp only [List.mem_cons, List.not_mem_nil, or_false] at hd
    rcases hd with h | h | h | h <;> subst h <;> decide
  rw [if_neg hne.1, if_neg hne.2.1, if_neg (by omega), if_neg hne.2.2, hT]
  simp only []
  rw [e, bind_ok]
  simp only []
  rw [hqt, hbt.1]
  obtain ⟨d, e2, l, hd2⟩ := lookup_spec (src := m.data) (pal := q.data) (N := m.size) (n := n) (k := ilGetBppFormat dest)
    (dst := (Image.ilResizeImage junk { m with format := dest } m.width m.height m.depth (ilGetBppFormat dest) 1).data)
    (by omega) hm.2.2.2 (by rw [hq.len, hq.size, hqt, hbt.2])
    (fun i v h => hv v (List.mem_of_getElem? h)) (by rw [hgc.2.2.2, hgc.2.2.1, hsz']; simp only [Image.ilResizeImage]; grind)
  have e3 : (Image.ilResizeImage junk { m with format := dest } m.width m.height m.depth (ilGetBppFormat dest) 1).bpp =
    ilGetBppFormat dest := rfl
  rw [e3, e2, bind_ok]
  refine ⟨_, rfl, ⟨hgc.1, hgc.2.1, hgc.2.2.1, ?_⟩, rfl, rfl, rfl, rfl, rfl, rfl, fun x y z v hin hx => ?_⟩
  · show d.length = _
    rw [l, hgc.2.2.1, hsz']
    simp only [Image.ilResizeImage]; grind
  · have hx' : m.data[(z * m.height + y) * m.width + x]? = some v := by
      unfold Img.px at hx
      rw [hb, hc] at hx
      simpa using hx
    have P : ∀ c, c < ilGetBppFormat dest →
        (Img.px { Image.ilResizeImage junk { m with format := dest } m.width m.height m.depth (ilGetBppFormat dest) 1 with
          data := d } x y z c) = q.data[v.toNat * stride q.type + c]? := by
      intro c hc'
      rw [hqt, hbt.2, ← hd2 _ c v hc' hx']
      simp only [Img.px, Image.ilResizeImage, Nat.mul_one]
    obtain ⟨f1, f2, f3, f4⟩ := hf v.toNat (hv v (List.mem_of_getElem? hx'))
    have hr2 : redByte dest ≤ 2 := by unfold redByte; split <;> omega
    refine ⟨?_, ?_, ?_, fun ha => ?_⟩
    · show Img.px _ x y z (redByte dest) = _
      refine (P (redByte dest) (by omega)).trans ?_
      rw [← f1, ← hr.1]
      unfold red; rw [hqt]
    · refine (P 1 (by omega)).trans ?_
      rw [← f2]; rfl
    · show Img.px _ x y z (2 - redByte dest) = _
      refine (P (2 - redByte dest) (by omega)).trans ?_
      rw [← f3, ← hr.1]
      unfold blue; rw [hqt]
    · have h4 := hr.2 ha
      refine (P 3 (by omega)).trans ?_
      rw [← f4 h4, hqt, h4]

/-- A 2 by 1 index image with entries 1 and 0 of a palette of two. -/
def indexDemo : Img := ⟨2, 1, 1, 1, 1, 2, 2, 2, IL_COLOUR_INDEX, IL_UNSIGNED_BYTE, 0x0602, [1, 0]⟩

example : indexDemo.Consistent ∧ Has ⟨[10, 20, 30, 40, 50, 60], 6, IL_PAL_BGR24⟩ 2 ∧ (∀ v ∈ indexDemo.data, v.toNat < 2) ∧
    iConvertPalette (fun _ => 0) (fun x _ _ => x) IL_PAL_BGR24 indexDemo (some ⟨[10, 20, 30, 40, 50, 60], 6, IL_PAL_BGR24⟩)
      IL_RGBA = .ok (some (⟨2, 1, 1, 4, 1, 8, 8, 8, IL_RGBA, IL_UNSIGNED_BYTE, 0x0602, [60, 50, 40, 255, 30, 20, 10, 255]⟩, none)) :=
  ⟨by unfold Img.Consistent; decide, ⟨by decide, rfl, rfl⟩, by decide, by decide +kernel⟩

/-- **C30 fails for an index outside the palette**: the palette is read past its end. -/
theorem C30_violated_outside (junk : Nat → UInt8) (lum : UInt8 → UInt8 → UInt8 → UInt8) (curType : Nat) :
    iConvertPalette junk lum curType { indexDemo with data := [1, 2] } (some ⟨[10, 20, 30, 40, 50, 60], 6, IL_PAL_RGB24⟩) IL_RGB =
      .error .oobRead := by
  set_option maxRecDepth 20000 in rfl

/-! ## C31 -/

/-- The palette of greys. -/
theorem greyPal_holds (junk : Nat → UInt8) :
    Holds (loopN 256 (fun i b => do
      let b ← wr b (i * 3) (UInt8.ofNat i)
      let b ← wr b (i * 3 + 1) (UInt8.ofNat i)
      wr b (i * 3 + 2) (UInt8.ofNat i)) (alloc junk 768)) (fun b : List UInt8 => b.length = 768 ∧ ∀ j, j < 256 →
        b[j * 3]? = some (UInt8.ofNat j) ∧ b[j * 3 + 1]? = some (UInt8.ofNat j) ∧ b[j * 3 + 2]? = some (UInt8.ofNat j)) := by
  refine Holds.loop (I := fun k (b : List UInt8) => b.length = 768 ∧ ∀ j, j < k →
      b[j * 3]? = some (UInt8.ofNat j) ∧ b[j * 3 + 1]? = some (UInt8.ofNat j) ∧ b[j * 3 + 2]? = some (UInt8.ofNat j))
    ⟨alloc_length _ _, fun j hj => absurd hj (by omega)⟩ ?_
  intro k b hk ⟨hl, hI⟩
  refine (Holds.wr (by omega)).bind fun b1 h1 => ?_
  refine (Holds.wr (by omega)).bind fun b2 h2 => ?_
  refine (Holds.wr (by omega)).mono fun b3 h3 => ?_
  obtain ⟨l1, rfl⟩ := h1
  obtain ⟨l2, rfl⟩ := h2
  obtain ⟨l3, rfl⟩ := h3
  refine ⟨by omega, fun j hj => ?_⟩
  by_cases hjk : j = k
  · subst hjk
    refine ⟨?_, ?_, ?_⟩
    · rw [List.getElem?_set_ne (by omega), List.getElem?_set_ne (by omega), List.getElem?_set_self (by omega)]
    · rw [List.getElem?_set_ne (by omega), List.getElem?_set_self (by omega)]
    · rw [List.getElem?_set_self (by omega)]
  · obtain ⟨q0, q1, q2⟩ := hI j (by omega)
    refine ⟨?_, ?_, ?_⟩ <;>
      rw [List.getElem?_set_ne (by omega), List.getElem?_set_ne (by omega), List.getElem?_set_ne (by omega)] <;> assumption

/-- **C31.**  Converting an 8-bit luminance image to colour index keeps its extent and contents, and the palette entry of
every pixel has the pixel's grey in all three colours.
Missing (and false): luminance of more than one byte per component (`C31_violated_wide`). -/
theorem C31_grey_partial (junk : Nat → UInt8) (m : Img) (dt : Nat) (hm : m.Consistent) (hb : m.bpp = 1) (hc : m.bpc = 1)
    (h0 : 0 < m.size) (hs : m.size < 2 ^ 32) (hd : dt = IL_UNSIGNED_BYTE ∨ dt = IL_BYTE) :
    ∃ g p, luminanceToIndex junk m dt = .ok (some (g, p)) ∧ g.Consistent ∧ Has p 256 ∧
      g.format = IL_COLOUR_INDEX ∧ g.type = dt ∧ g.width = m.width ∧ g.height = m.height ∧ g.depth = m.depth ∧ g.bpp = 1 ∧
      ∀ x y z v, m.In x y z 0 → m.px x y z 0 = some v →
        ∃ i, g.px x y z 0 = some i ∧ red p i.toNat = some v ∧ green p i.toNat = some v ∧ blue p i.toNat = some v := by
  obtain ⟨pd, e, hpl, hpd⟩ := greyPal_holds junk
  have hbt : ilGetBpcType dt = 1 := by rcases hd with h | h <;> subst h <;> decide
  have hsz := hm.2.2.1
  rw [hb, hc] at hsz
  simp only [Nat.mul_one] at hsz
  have hh : m.height ≠ 0 := by intro h; rw [h] at hsz; simp at hsz; omega
  have hdp : m.depth ≠ 0 := by intro h; rw [h] at hsz; simp at hsz; omega
  have a2 : m.width * m.height < 2 ^ 32 := Nat.lt_of_le_of_lt (Nat.le_mul_of_pos_right _ (by omega)) (hsz ▸ hs)
  have a1 : m.width < 2 ^ 32 := Nat.lt_of_le_of_lt (Nat.le_mul_of_pos_right _ (by omega)) a2
  unfold luminanceToIndex
  rw [if_neg (by rcases hd with h | h <;> subst h <;> decide)]
  simp only []
  rw [e, bind_ok, memcpy_all hm.2.2.2, bind_ok, hbt]
  refine ⟨_, _, rfl, ?_, ⟨by show IsPal IL_PAL_RGB24; decide, by show 768 = 256 * stride IL_PAL_RGB24; decide, hpl⟩, rfl, rfl, rfl, rfl, rfl, rfl,
    fun x y z v hi hx => ⟨v, ?_, ?_⟩⟩
  · unfold Img.Consistent
    simp only [Nat.mul_one, u32_of_lt a1, u32_of_lt a2]
    rw [Nat.mul_comm m.depth, ← hsz, u32_of_lt hs]
    exact ⟨trivial, trivial, rfl, hm.2.2.2⟩
  · rw [← hx]
    unfold Img.px
    simp only [hb, hc]
  · obtain ⟨g0, g1, g2⟩ := hpd v.toNat v.toNat_lt
    rw [UInt8.ofNat_toNat] at g0 g1 g2
    exact ⟨g0, g1, g2⟩

/-- A 2 by 2 luminance image. -/
def greyDemo : Img := ⟨2, 2, 1, 1, 1, 2, 4, 4, IL_LUMINANCE, IL_UNSIGNED_BYTE, 0x0602, [0, 7, 128, 255]⟩

example : greyDemo.Consistent ∧ greyDemo.px 1 1 0 0 = some 255 ∧ greyDemo.In 1 1 0 0 :=
  ⟨by unfold Img.Consistent; decide, by decide, by unfold Img.In; decide⟩

/-- **C31 fails for 16-bit luminance**: the bytes of the components become indices of their own, so the reported size is
half of the data, and the pixel at the right is the high byte of the left one. -/
theorem C31_violated_wide (junk : Nat → UInt8) :
    ∃ g p, luminanceToIndex junk ⟨2, 1, 1, 1, 2, 4, 4, 4, IL_LUMINANCE, IL_UNSIGNED_SHORT, 0x0602, [0, 7, 0, 9]⟩
        IL_UNSIGNED_BYTE = .ok (some (g, p)) ∧ g.size = 2 ∧ g.data = [0, 7, 0, 9] ∧ g.px 1 0 0 0 = some 7 := by
  obtain ⟨pd, e, hpl, hpd⟩ := greyPal_holds junk
  unfold luminanceToIndex
  rw [if_neg (by decide)]
  simp only []
  rw [e, bind_ok, memcpy_all (by rfl), bind_ok]
  exact ⟨_, _, rfl, by decide, rfl, rfl⟩

/-! ## C76 -/

/-- The grey table of a 24-bit palette of `n` entries. -/
theorem greyTable_holds (junk : Nat → UInt8) (lum : UInt8 → UInt8 → UInt8 → UInt8) (p : Pal) (n L : Nat) (hp : Has p n)
    (h3 : stride p.type = 3) (hL : L = 1 ∨ L = 2) (hn : n * 12 < 2 ^ 24) (sw : Bool) (hsw : sw = decide (redAt p.type = 2)) :
    Holds (greyTable junk lum p p.type L sw) (fun b => b.length = n * L ∧ ∀ j, j < n →
      (∃ r g bl, red p j = some r ∧ green p j = some g ∧ blue p j = some bl ∧ b[j * L]? = some (lum r g bl)) ∧
      (L = 2 → b[j * L + 1]? = some 255)) := by
  have hbp : ilGetBppPal p.type = 3 := by
    have ht := hp.type
    unfold IsPal at ht
    simp only [List.mem_cons, List.not_mem_nil, or_false] at ht
    rcases ht with h | h | h | h | h | h <;> rw [h] at h3 ⊢ <;> first | rfl | (revert h3; decide)
  have hne : p.type ≠ IL_PAL_RGBA32 := by
    intro h; rw [h] at h3; revert h3; decide
  have hs := hp.size
  rw [h3] at hs
  have hl := hp.len
  have e1 : u32 (L * p.size) / 3 = n * L := by
    rw [hs, u32_of_lt (by rcases hL with h | h <;> subst h <;> omega)]
    rcases hL with h | h <;> subst h <;> omega
  have e2 : (n * 3 + (3 - 1)) / 3 = n := count_eq (by decide)
  have hr : redAt p.type = 0 ∨ redAt p.type = 2 := by unfold redAt; split <;> simp
  unfold greyTable
  simp only []
  rw [hbp, e1, hs, e2]
  refine Holds.loop (I := fun k (b : List UInt8) => b.length = n * L ∧ ∀ j, j < k →
      (∃ r g bl, red p j = some r ∧ green p j = some g ∧ blue p j = some bl ∧ b[j * L]? = some (lum r g bl)) ∧
      (L = 2 → b[j * L + 1]? = some 255)) ⟨alloc_length _ _, fun j hj => absurd hj (by omega)⟩ ?_
  intro k b hk ⟨hlen, hI⟩
  refine Holds.bind (P := fun _ => True) ?_ fun _ _ => ?_
  · refine Holds.loop (I := fun _ _ => True) trivial fun c _ hc _ => ?_
    refine (Holds.rd (by omega)).bind fun _ _ => ?_
    unfold lumFactor
    rw [if_pos (by unfold u32; split <;> omega)]
    exact Holds.pure trivial
  refine (Holds.rd (by omega)).bind fun x hx => ?_
  refine (Holds.rd (by omega)).bind fun y hy => ?_
  refine (Holds.rd (by omega)).bind fun z hz => ?_
  have hkL : k * L + L ≤ n * L := by rw [← Nat.succ_mul]; exact Nat.mul_le_mul_right L hk
  have hjL : ∀ j, j < k → j * L + L ≤ k * L := fun j hj => by rw [← Nat.succ_mul]; exact Nat.mul_le_mul_right L hj
  refine (Holds.wr (by omega)).bind fun b1 h1 => ?_
  obtain ⟨l1, rfl⟩ := h1
  have rgb : ∃ r g bl, red p k = some r ∧ green p k = some g ∧ blue p k = some bl ∧
      (if sw = true then lum z y x else lum x y z) = lum r g bl := by
    unfold red green blue
    rw [h3]
    rcases hr with h | h <;> rw [h] at hsw ⊢ <;> subst hsw
    · exact ⟨x, y, z, hx, hy, hz, by simp⟩
    · exact ⟨z, y, x, hz, hy, hx, by simp⟩
  obtain ⟨r, g, bl, q1, q2, q3, q4⟩ := rgb
  rw [q4] at l1 ⊢
  by_cases h2 : L = 2
  · rw [if_pos h2, if_neg hne]
    refine (Holds.wr (by omega)).mono fun b2 hb2 => ?_
    obtain ⟨l2, rfl⟩ := hb2
    refine ⟨by omega, fun j hj => ?_⟩
    by_cases hjk : j = k
    · subst hjk
      refine ⟨⟨r, g, bl, q1, q2, q3, ?_⟩, fun _ => ?_⟩
      · rw [List.getElem?_set_ne (by omega), List.getElem?_set_self (by omega)]
      · rw [List.getElem?_set_self (by omega)]
    · have := hjL j (by omega)
      rw [List.getElem?_set_ne (by omega), List.getElem?_set_ne (by omega), List.getElem?_set_ne (by omega),
        List.getElem?_set_ne (by omega)]
      exact hI j (by omega)
  · rw [if_neg h2]
    refine Holds.pure ⟨by omega, fun j hj => ?_⟩
    by_cases hjk : j = k
    · subst hjk
      refine ⟨⟨r, g, bl, q1, q2, q3, ?_⟩, fun h => absurd h h2⟩
      rw [List.getElem?_set_self (by omega)]
    · have := hjL j (by omega)
      rw [List.getElem?_set_ne (by omega)]
      exact ⟨(hI j (by omega)).1, fun h => absurd h h2⟩

/-- **C76 (grey).**  Converting a colour-indexed image of one slice with a 24-bit palette to luminance, or to luminance with
alpha, gives every pixel the grey (`lum`: whatever function of red, green and blue the library computes) of its palette entry,
and an opaque alpha.  The palette consulted for the layout is that of the current image: here the same one.
Missing (and false): 32-bit palettes (`C76_violated_32`) and several slices (`C76_violated_slices`). -/
theorem C76_grey_partial (junk : Nat → UInt8) (lum : UInt8 → UInt8 → UInt8 → UInt8) (m : Img) (p : Pal) (n dest : Nat)
    (hm : m.Consistent) (hb : m.bpp = 1) (hc : m.bpc = 1) (h1 : m.depth = 1) (h0 : 0 < m.size) (hsz : m.size * 2 < 2 ^ 32)
    (hp : Has p n) (h3 : p.type = IL_PAL_RGB24 ∨ p.type = IL_PAL_BGR24) (hn : 0 < n) (hn' : n * 12 < 2 ^ 24)
    (hv : ∀ v ∈ m.data, v.toNat < n) (hd : dest = IL_LUMINANCE ∨ dest = IL_LUMINANCE_ALPHA) :
    ∃ g, iConvertPalette junk lum p.type m (some p) dest = .ok (some (g, none)) ∧ g.Consistent ∧ g.format = dest ∧
      g.width = m.width ∧ g.height = m.height ∧ g.depth = 1 ∧ g.bpp = ilGetBppFormat dest ∧
      ∀ x y z v, m.In x y z 0 → m.px x y z 0 = some v →
        ∃ r gr bl, red p v.toNat = some r ∧ green p v.toNat = some gr ∧ blue p v.toNat = some bl ∧
          g.px x y z 0 = some (lum r gr bl) ∧ (dest = IL_LUMINANCE_ALPHA → g.px x y z 1 = some 255) := by
  have hst : stride p.type = 3 := by unfold stride; rw [if_pos h3]
  have hps : p.size ≠ 0 := by rw [hp.size, hst]; omega
  have hpt : p.type ≠ IL_PAL_NONE := by
    intro h; rw [h] at h3; revert h3; decide
  have hlen := hm.2.2.2
  have hsz1 := hm.2.2.1
  rw [hb, hc, h1] at hsz1
  simp only [Nat.mul_one] at hsz1
  have hh : m.height ≠ 0 := by intro h; rw [h] at hsz1; simp at hsz1; omega
  obtain ⟨L, hLe, hL, hLf, hLa⟩ : ∃ L, (if dest = IL_LUMINANCE_ALPHA then 2 else 1) = L ∧ (L = 1 ∨ L = 2) ∧
      ilGetBppFormat dest = L ∧ (dest = IL_LUMINANCE_ALPHA → L = 2) := by
    rcases hd with h | h <;> subst h
    · exact ⟨1, by decide, by decide, by decide, by decide⟩
    · exact ⟨2, by decide, by decide, by decide, by decide⟩
  unfold iConvertPalette
  simp only []
  rw [if_neg (fun h => h.elim hps fun h => h.elim hpt fun h => h hb), if_pos hd]
  rw [hLe]
  have hT : ∃ sw, sw = decide (redAt p.type = 2) ∧ greyTableOf junk lum p p.type L = greyTable junk lum p p.type L sw := by
    unfold greyTableOf
    rcases h3 with h | h
    · refine ⟨false, by rw [h]; decide, ?_⟩
      rw [if_pos (Or.inl h)]
    · refine ⟨true, by rw [h]; decide, ?_⟩
      rw [if_neg (by rw [h]; decide), if_pos (Or.inl h)]
  obtain ⟨sw, hsw, eT⟩ := hT
  obtain ⟨tab, e, tl, tg⟩ := greyTable_holds junk lum p n L hp hst hL hn' sw hsw
  rw [eT, e, bind_ok]
  have a1 : m.width * L * m.height < 2 ^ 32 := by
    have : m.width * L * m.height = m.size * L := by rw [hsz1]; grind
    rw [this]; rcases hL with h | h <;> subst h <;> omega
  have a0 : m.width * L < 2 ^ 32 := Nat.lt_of_le_of_lt (Nat.le_mul_of_pos_right _ (by omega)) a1
  have gs : (flatAttr m dest L L []).size = m.size * L := by
    unfold flatAttr
    simp only []
    rw [u32_of_lt a0, u32_of_lt a1, hsz1]; grind
  obtain ⟨d, e2, dl, dg⟩ : Holds (loopN m.size (fun i b => do
        let v ← rd m.data i
        if L = 2 then do
          let x ← rd tab (v.toNat * 2)
          let b ← wr b (i * 2) x
          let x ← rd tab (v.toNat * 2 + 1)
          wr b (i * 2 + 1) x
        else do
          let x ← rd tab v.toNat
          wr b i x) (alloc junk (flatAttr m dest L L []).size))
      (fun b : List UInt8 => b.length = m.size * L ∧ ∀ (i : Nat) (v : UInt8), i < m.size → m.data[i]? = some v →
        b[i * L]? = tab[v.toNat * L]? ∧ (L = 2 → b[i * L + 1]? = tab[v.toNat * L + 1]?)) := by
    refine Holds.loop (I := fun k (b : List UInt8) => b.length = m.size * L ∧ ∀ (i : Nat) (v : UInt8), i < k → m.data[i]? = some v →
        b[i * L]? = tab[v.toNat * L]? ∧ (L = 2 → b[i * L + 1]? = tab[v.toNat * L + 1]?))
      ⟨by rw [alloc_length, gs], fun _ _ hj => absurd hj (by omega)⟩ ?_
    intro k b hk ⟨hl, hI⟩
    refine (Holds.rd (by omega)).bind fun v hv' => ?_
    have hvn := hv v (List.mem_of_getElem? hv')
    by_cases h2 : L = 2
    · subst h2
      rw [if_pos rfl]
      refine (Holds.rd (by omega)).bind fun x hx => ?_
      refine (Holds.wr (by omega)).bind fun b1 hb1 => ?_
      refine (Holds.rd (by omega)).bind fun y hy => ?_
      refine (Holds.wr (by omega)).mono fun b2 hb2 => ?_
      obtain ⟨l1, rfl⟩ := hb1
      obtain ⟨l2, rfl⟩ := hb2
      refine ⟨by omega, fun i w hi hw => ?_⟩
      by_cases hik : i = k
      · subst hik
        rw [hv'] at hw
        cases hw
        rw [List.getElem?_set_ne (by omega), List.getElem?_set_self (by omega), List.getElem?_set_self (by omega)]
        exact ⟨hx.symm, fun _ => hy.symm⟩
      · rw [List.getElem?_set_ne (by omega), List.getElem?_set_ne (by omega), List.getElem?_set_ne (by omega),
          List.getElem?_set_ne (by omega)]
        exact hI i w (by omega) hw
    · rw [if_neg h2]
      have h1' : L = 1 := by omega
      subst h1'
      simp only [Nat.mul_one] at hl tl hI ⊢
      refine (Holds.rd (by omega)).bind fun x hx => ?_
      refine (Holds.wr (by omega)).mono fun b1 hb1 => ?_
      obtain ⟨l1, rfl⟩ := hb1
      refine ⟨by omega, fun i w hi hw => ⟨?_, fun h => absurd h h2⟩⟩
      by_cases hik : i = k
      · subst hik
        rw [hv'] at hw
        cases hw
        rw [List.getElem?_set_self (by omega)]
        exact hx.symm
      · rw [List.getElem?_set_ne (by omega)]
        exact (hI i w (by omega) hw).1
  rw [e2, bind_ok]
  refine ⟨_, rfl, ?_, rfl, rfl, rfl, h1, hLf.symm, fun x y z v hin hx => ?_⟩
  · have gs' := gs
    unfold flatAttr at gs' ⊢
    unfold Img.Consistent
    simp only [hc, h1, Nat.mul_one, u32_of_lt a0, u32_of_lt a1] at gs' ⊢
    exact ⟨trivial, trivial, trivial, by rw [dl, gs']⟩
  · have hx' : m.data[(z * m.height + y) * m.width + x]? = some v := by
      unfold Img.px at hx
      rw [hb, hc] at hx
      simpa using hx
    have hilt := (List.getElem?_eq_some_iff.mp hx').1
    obtain ⟨d1, d2⟩ := dg _ v (by omega) hx'
    obtain ⟨⟨r, gr, bl, q1, q2, q3, q4⟩, q5⟩ := tg v.toNat (hv v (List.mem_of_getElem? hx'))
    refine ⟨r, gr, bl, q1, q2, q3, ?_, fun ha => ?_⟩
    · rw [← q4, ← d1]
      simp only [Img.px, flatAttr, hc, Nat.mul_one, Nat.add_zero]
    · rw [← q5 (hLa ha), ← d2 (hLa ha)]
      simp only [Img.px, flatAttr, hc, Nat.mul_one]

example : indexDemo.Consistent ∧ Has ⟨[10, 20, 30, 40, 50, 60], 6, IL_PAL_BGR24⟩ 2 ∧
    iConvertPalette (fun _ => 0) (fun r _ _ => r) IL_PAL_BGR24 indexDemo (some ⟨[10, 20, 30, 40, 50, 60], 6, IL_PAL_BGR24⟩)
      IL_LUMINANCE_ALPHA = .ok (some (⟨2, 1, 1, 2, 1, 4, 4, 4, IL_LUMINANCE_ALPHA, IL_UNSIGNED_BYTE, 0x0602, [60, 255, 30, 255]⟩, none)) :=
  ⟨by unfold Img.Consistent; decide, ⟨by decide, rfl, rfl⟩, by decide +kernel⟩

/-- **C76 (alpha).**  Converting a colour-indexed image of one slice whose palette has no alpha to the alpha format gives every
pixel an opaque alpha.  Missing (and false): palettes with alpha (`C76_violated_alpha`). -/
theorem C76_alpha_partial (junk : Nat → UInt8) (lum : UInt8 → UInt8 → UInt8 → UInt8) (m : Img) (p : Pal) (n : Nat)
    (hm : m.Consistent) (hb : m.bpp = 1) (hc : m.bpc = 1) (h1 : m.depth = 1) (h0 : 0 < m.size) (hsz : m.size < 2 ^ 32)
    (hp : Has p n) (hn : 0 < n) (ha : hasAlpha p.type = false) :
    ∃ g, iConvertPalette junk lum p.type m (some p) IL_ALPHA = .ok (some (g, none)) ∧ g.Consistent ∧ g.format = IL_ALPHA ∧
      g.width = m.width ∧ g.height = m.height ∧ g.depth = 1 ∧ g.bpp = 1 ∧
      ∀ x y z, m.In x y z 0 → g.px x y z 0 = some 255 := by
  have hst : 3 ≤ stride p.type := by unfold stride; split <;> omega
  have hps : p.size ≠ 0 := by
    rw [hp.size]
    have := Nat.mul_le_mul (show 1 ≤ n from hn) hst
    omega
  have hpt : p.type ≠ IL_PAL_NONE := by
    have := hp.type
    unfold IsPal at this
    intro h; rw [h] at this; revert this; decide
  have hsz1 := hm.2.2.1
  rw [hb, hc, h1] at hsz1
  simp only [Nat.mul_one] at hsz1
  have hh : m.height ≠ 0 := by intro h; rw [h] at hsz1; simp at hsz1; omega
  have a0 : m.width < 2 ^ 32 := Nat.lt_of_le_of_lt (Nat.le_mul_of_pos_right _ (by omega)) (hsz1 ▸ hsz)
  have a1 : m.width * m.height < 2 ^ 32 := hsz1 ▸ hsz
  have gs : (flatAttr m IL_ALPHA 1 1 []).size = m.size := by
    unfold flatAttr
    simp only [Nat.mul_one]
    rw [u32_of_lt a0, u32_of_lt a1, hsz1]
  obtain ⟨d, e, dl, dg⟩ : Holds (loopN m.size (fun i b => wr b i 255) (alloc junk (flatAttr m IL_ALPHA 1 1 []).size))
      (fun b : List UInt8 => b.length = m.size ∧ ∀ i, i < m.size → b[i]? = some 255) := by
    refine Holds.loop (I := fun k (b : List UInt8) => b.length = m.size ∧ ∀ i, i < k → b[i]? = some 255)
      ⟨by rw [alloc_length, gs], fun _ hj => absurd hj (by omega)⟩ ?_
    intro k b hk ⟨hl, hI⟩
    refine (Holds.wr (by omega)).mono fun b1 hb1 => ?_
    obtain ⟨l1, rfl⟩ := hb1
    refine ⟨by omega, fun i hi => ?_⟩
    by_cases hik : i = k
    · subst hik; rw [List.getElem?_set_self (by omega)]
    · rw [List.getElem?_set_ne (by omega)]; exact hI i (by omega)
  unfold iConvertPalette
  simp only []
  rw [if_neg (fun h => h.elim hps fun h => h.elim hpt fun h => h hb), if_neg (by decide), if_pos trivial]
  rw [if_neg (by unfold hasAlpha at ha; simp only [decide_eq_false_iff_not] at ha; exact fun h => ha h.symm), e, bind_ok]
  refine ⟨_, rfl, ?_, rfl, rfl, rfl, h1, rfl, fun x y z hin => ?_⟩
  · unfold flatAttr at gs ⊢
    unfold Img.Consistent
    simp only [hc, h1, Nat.mul_one, u32_of_lt a0, u32_of_lt a1] at gs ⊢
    exact ⟨trivial, trivial, trivial, by rw [dl, gs]⟩
  · rw [← dg ((z * m.height + y) * m.width + x) (by
      rw [px_count' hm hb hc]; exact Channels.pix_lt hin.1 hin.2.1 hin.2.2.1)]
    simp only [Img.px, flatAttr, hc, Nat.mul_one, Nat.add_zero]

example : hasAlpha IL_PAL_RGB32 = false ∧ Has ⟨[10, 20, 30, 40, 50, 60, 70, 80], 8, IL_PAL_RGB32⟩ 2 ∧ indexDemo.In 1 0 0 0 :=
  ⟨by decide, ⟨by decide, rfl, rfl⟩, by unfold Img.In; decide⟩

/-- **C76 fails for every 32-bit palette**: the table of three luminance factors is read at index 3. -/
theorem C76_violated_32 (junk : Nat → UInt8) (lum : UInt8 → UInt8 → UInt8 → UInt8) :
    iConvertPalette junk lum IL_PAL_RGBA32 indexDemo (some ⟨[10, 20, 30, 40, 50, 60, 70, 80], 8, IL_PAL_RGBA32⟩) IL_LUMINANCE =
      .error .oobRead := by
  set_option maxRecDepth 20000 in rfl

/-- **C76 fails for palettes with alpha**: the alpha table holds one byte per entry but is read at twice the index. -/
theorem C76_violated_alpha (junk : Nat → UInt8) (lum : UInt8 → UInt8 → UInt8 → UInt8) :
    iConvertPalette junk lum IL_PAL_RGBA32 indexDemo (some ⟨[10, 20, 30, 40, 50, 60, 70, 80], 8, IL_PAL_RGBA32⟩) IL_ALPHA =
      .error .oobRead := by
  set_option maxRecDepth 20000 in rfl

/-- **C76 fails for images of several slices**: room is made for one slice only. -/
theorem C76_violated_slices (junk : Nat → UInt8) (lum : UInt8 → UInt8 → UInt8 → UInt8) :
    iConvertPalette junk lum IL_PAL_RGB24 ⟨1, 1, 2, 1, 1, 1, 1, 2, IL_COLOUR_INDEX, IL_UNSIGNED_BYTE, 0x0602, [1, 0]⟩
      (some ⟨[10, 20, 30, 40, 50, 60], 6, IL_PAL_RGB24⟩) IL_LUMINANCE = .error .oobWrite := by
  set_option maxRecDepth 20000 in rfl

end DevIL.Palette
