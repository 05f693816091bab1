import Verif.Lemmas.Clear
import Verif.Props.Block
/-! Properties C59 (NTSC clamp) and C60 (clearing). -/
set_option autoImplicit false
namespace DevIL
open Utility

namespace Manip

/-! ### C59 -/

/-- **C59.** On an unsigned byte image `ilClampNTSC` succeeds and replaces every component byte `v` by `v` clamped to
16..235 (so values in range stay); it changes nothing else. -/
theorem C59_clamp (m : Img) (hm : m.Whole) (ht : m.type = IL_UNSIGNED_BYTE) :
    ∃ m', ilClampNTSC m = .ok (some m') ∧ m.SameShape m' ∧ m'.origin = m.origin ∧
      ∀ x y z b v, m.px x y z b = some v →
        m'.px x y z b = some (if v < 16 then 16 else if 235 < v then 235 else v) := by
  have hb : m.bpc = 1 := by rw [hm.bpcT, ht]; rfl
  have hl : m.data.length = m.depth * m.height * m.width * m.bpp := by rw [hm.len, hb, Nat.mul_one]
  have hfit := hm.fit
  rw [hb, Nat.mul_one] at hfit
  have e := mapAll_spec (w := m.width) (h := m.height) (d := m.depth) (k := m.bpp) (data := m.data) (f := fun v => limit v 16 235)
    (idx := fun z y x c => u32 (((z * m.height + y) * m.width + x) * m.bpp + c)) hl (by
      intro z y x c hz hy hx hc
      have := pos_lt hz hy hx hc (Nat.le_refl _)
      unfold pos at this ⊢
      exact u32_of_lt (by omega))
  refine ⟨{ m with data := m.data.map (fun v => limit v 16 235) }, ?_, ⟨rfl, by simp⟩, rfl, ?_⟩
  · unfold ilClampNTSC
    rw [if_neg (by simp [ht]), e]; rfl
  · intro x y z b v hv
    unfold Img.px at hv ⊢
    simp only [List.getElem?_map, hv, Option.map_some]
    rfl

/-- **C59.** Clamping is idempotent. -/
theorem C59_idempotent (m m1 : Img) (hm : m.Whole) (h1 : ilClampNTSC m = .ok (some m1)) : ilClampNTSC m1 = .ok (some m1) := by
  have ht : m.type = IL_UNSIGNED_BYTE := by
    refine Classical.byContradiction fun h => ?_
    unfold ilClampNTSC at h1
    rw [if_pos h] at h1
    simp at h1
  obtain ⟨m', e, s, o, p⟩ := C59_clamp m hm ht
  rw [e] at h1
  have hmm : m' = m1 := by simpa using h1
  subst hmm
  have hm1 : m'.Whole := hm.of_same s
  obtain ⟨m2, e2, s2, o2, p2⟩ := C59_clamp m' hm1 (by rw [s.1]; exact ht)
  have hd : m2.data = m'.data := by
    refine Img.data_ext hm1.cons s2 ?_
    rintro x y z b ⟨hx, hy, hz, hb⟩
    have ew : m'.width = m.width := by rw [s.1]
    have eh : m'.height = m.height := by rw [s.1]
    have ed : m'.depth = m.depth := by rw [s.1]
    have ep : m'.bpp = m.bpp := by rw [s.1]
    have ec : m'.bpc = m.bpc := by rw [s.1]
    have hlt : ((z * m.height + y) * m.width + x) * (m.bpp * m.bpc) + b < m.data.length :=
      pos_lt (by omega : z < m.depth) (by omega) (by omega) (by rw [← ep, ← ec]; exact hb) (by rw [hm.len]; exact Nat.le_refl _)
    have hv : m.px x y z b = some m.data[((z * m.height + y) * m.width + x) * (m.bpp * m.bpc) + b] := by
      unfold Img.px; rw [List.getElem?_eq_getElem hlt]
    have q := p x y z b _ hv
    rw [p2 x y z b _ q, q]
    congr 1
    generalize m.data[((z * m.height + y) * m.width + x) * (m.bpp * m.bpc) + b] = v
    by_cases c1 : v < 16
    · simp [c1]
    · by_cases c2 : 235 < v
      · simp [c1, c2]
      · simp [c1, c2]
  rw [e2]
  congr 2
  rw [s2.1, hd, o2]

/-- **C59.** Any other component type is refused. -/
theorem C59_refused (m : Img) (ht : m.type ≠ IL_UNSIGNED_BYTE) : ilClampNTSC m = .ok none := by
  unfold ilClampNTSC; rw [if_pos ht]; rfl

example : (ilClampNTSC { flipDemo with data := [0, 15, 16, 17, 100, 200, 234, 235, 236, 255, 1, 2] }).map (·.map (·.data)) =
    .ok (some [16, 16, 16, 17, 100, 200, 234, 235, 235, 235, 16, 16]) := by decide +kernel

theorem flipDemo_whole : flipDemo.Whole :=
  ⟨⟨rfl, rfl, rfl, rfl⟩, by decide, by decide, by decide, by decide, by decide, rfl, rfl, by decide⟩

end Manip

namespace Clear

/-! ### C60 -/

/-- Specification: the components of a pixel of each format, in memory order. -/
def channels (format : Nat) : Option (List Chan) :=
  if format = IL_RGB then some [.red, .green, .blue]
  else if format = IL_RGBA then some [.red, .green, .blue, .alpha]
  else if format = IL_BGR then some [.blue, .green, .red]
  else if format = IL_BGRA then some [.blue, .green, .red, .alpha]
  else if format = IL_LUMINANCE then some [.lum]
  else if format = IL_LUMINANCE_ALPHA then some [.lum, .alpha]
  else none

/-- Specification: every component of every pixel is the clear value of its channel (`enc ch`: the bytes of that value in
the image's component type). -/
def Painted (enc : Chan → List UInt8) (m : Img) : Prop :=
  ∃ chs, channels m.format = some chs ∧ chs.length = m.bpp ∧ ∀ x y z c ch j, m.In x y z (c * m.bpc + j) → chs[c]? = some ch → j < m.bpc →
    m.px x y z (c * m.bpc + j) = (enc ch)[j]?

theorem painted_of_final (enc : Chan → List UInt8) (junk : Nat → UInt8) (m : Img) (hm : m.Whole)
    (ht : m.type = IL_BYTE ∨ m.type = IL_UNSIGNED_BYTE ∨ m.type = IL_SHORT ∨ m.type = IL_UNSIGNED_SHORT ∨ m.type = IL_INT ∨
      m.type = IL_UNSIGNED_INT ∨ m.type = IL_FLOAT ∨ m.type = IL_DOUBLE)
    (hf : m.format ≠ IL_COLOUR_INDEX) (he : ∀ ch, (enc ch).length = m.bpc) (l : List (Nat × Chan)) (chs : List Chan)
    (hl : clearStores m.format m.type = some l) (hchs : channels m.format = some chs) (hlen : chs.length = m.bpp)
    (hst : ∀ p ∈ l, p.1 < 4) (hb8 : m.bpc ≤ 8) (hbpp : m.bpp ≤ 4)
    (hfin : ∀ c ch, chs[c]? = some ch → final l c = some ch) :
    ∃ m', ilClearImage enc junk m = .ok (m', none) ∧ m.SameShape m' ∧ m'.origin = m.origin ∧ Painted enc m' := by
  have hb := hm.bpcT
  obtain ⟨col, e1, l1, g1⟩ := runStores_spec enc m.bpc 32 he l (alloc junk 32) (by simp) (fun p hp => by
    have h1 := hst p hp
    have : (p.1 + 1) * m.bpc ≤ 4 * 8 := Nat.mul_le_mul (by omega) hb8
    rw [Nat.succ_mul] at this
    omega)
  have hsz : m.size = m.depth * m.height * m.width * (m.bpp * m.bpc) := by rw [← hm.cons.2.2.2]; exact hm.len
  have h32 : m.bpp * m.bpc ≤ 4 * 8 := Nat.mul_le_mul hbpp hb8
  obtain ⟨d', e2, l2, g2⟩ := paint_spec m col (m.depth * m.height * m.width) ht hb hm.bpc0 hm.bpp0 hsz hm.cons.2.2.2 (by omega)
  refine ⟨{ m with data := d' }, ?_, ⟨rfl, l2⟩, rfl, chs, hchs, hlen, ?_⟩
  · unfold ilClearImage ilGetClear
    rw [hl]
    simp only
    rw [← hb, e1, bind_ok, if_pos hf, e2]
    rfl
  · rintro x y z c ch j ⟨hx, hy, hz, hbb⟩ hch hj
    unfold Img.px
    simp only at hx hy hz hbb hj ⊢
    rw [g2 _ _ (idx_lt (idx_lt hz hy) hx) hbb, g1 c j hj, hfin c ch hch]

/-- **C60 (partial).** Clearing an image of format RGB, RGBA, BGR or BGRA and any component type but half, or of format
luminance-alpha with 16/32-bit integer or double components, gives every component of every pixel the clear value of its
channel.  Missing, because false (`C60_violated_*`): luminance, byte and float luminance-alpha, colour index, half. -/
theorem C60_clear_partial (enc : Chan → List UInt8) (junk : Nat → UInt8) (m : Img) (hm : m.Whole)
    (ht : m.type = IL_BYTE ∨ m.type = IL_UNSIGNED_BYTE ∨ m.type = IL_SHORT ∨ m.type = IL_UNSIGNED_SHORT ∨ m.type = IL_INT ∨
      m.type = IL_UNSIGNED_INT ∨ m.type = IL_FLOAT ∨ m.type = IL_DOUBLE)
    (hf : m.format = IL_RGB ∨ m.format = IL_RGBA ∨ m.format = IL_BGR ∨ m.format = IL_BGRA ∨
      (m.format = IL_LUMINANCE_ALPHA ∧ m.type ≠ IL_BYTE ∧ m.type ≠ IL_UNSIGNED_BYTE ∧ m.type ≠ IL_FLOAT))
    (he : ∀ ch, (enc ch).length = m.bpc) :
    ∃ m', ilClearImage enc junk m = .ok (m', none) ∧ m.SameShape m' ∧ m'.origin = m.origin ∧ Painted enc m' := by
  have hb8 : m.bpc ≤ 8 := by
    rw [hm.bpcT]
    rcases ht with h | h | h | h | h | h | h | h <;> rw [h] <;> decide
  have bpp : ∀ n, ilGetBppFormat m.format = n → m.bpp = n := fun n h => by rw [hm.bppF, h]
  have fin4 : ∀ (l : List (Nat × Chan)) (chs : List Chan), chs.length ≤ 4 → (∀ c, c < 4 → chs[c]? = none ∨ final l c = chs[c]?) →
      ∀ c ch, chs[c]? = some ch → final l c = some ch := by
    intro l chs h4 h c ch hc
    have : c < chs.length := (List.getElem?_eq_some_iff.mp hc).1
    rcases h c (by omega) with h | h
    · rw [hc] at h; cases h
    · rw [h, hc]
  rcases hf with h | h | h | h | ⟨h, n1, n2, n3⟩
  · refine painted_of_final enc junk m hm ht (by rw [h]; decide) he [(0, .red), (1, .green), (2, .blue)] [.red, .green, .blue]
      (by unfold clearStores; rw [if_pos ht, if_pos h]) (by unfold channels; rw [if_pos h]) (bpp 3 (by rw [h]; rfl)).symm (by decide) hb8
      (by have := bpp 3 (by rw [h]; rfl); omega) (fin4 _ _ (by decide) (by decide))
  · refine painted_of_final enc junk m hm ht (by rw [h]; decide) he [(0, .red), (1, .green), (2, .blue), (3, .alpha)]
      [.red, .green, .blue, .alpha] (by unfold clearStores; rw [if_pos ht, h]; rfl) (by rw [h]; rfl)
      (bpp 4 (by rw [h]; rfl)).symm (by decide) hb8 (by have := bpp 4 (by rw [h]; rfl); omega) (fin4 _ _ (by decide) (by decide))
  · refine painted_of_final enc junk m hm ht (by rw [h]; decide) he [(2, .red), (1, .green), (0, .blue), (3, .alpha)]
      [.blue, .green, .red] (by unfold clearStores; rw [if_pos ht, h]; rfl) (by rw [h]; rfl)
      (bpp 3 (by rw [h]; rfl)).symm (by decide) hb8 (by have := bpp 3 (by rw [h]; rfl); omega) (fin4 _ _ (by decide) (by decide))
  · refine painted_of_final enc junk m hm ht (by rw [h]; decide) he [(2, .red), (1, .green), (0, .blue), (3, .alpha)]
      [.blue, .green, .red, .alpha] (by unfold clearStores; rw [if_pos ht, h]; rfl) (by rw [h]; rfl)
      (bpp 4 (by rw [h]; rfl)).symm (by decide) hb8 (by have := bpp 4 (by rw [h]; rfl); omega) (fin4 _ _ (by decide) (by decide))
  · refine painted_of_final enc junk m hm ht (by rw [h]; decide) he [(0, .lum), (1, .alpha)] [.lum, .alpha]
      (by
        unfold clearStores
        rw [if_pos ht, h]
        have hn : ¬ (m.type = IL_BYTE ∨ m.type = IL_UNSIGNED_BYTE) := fun hh => hh.elim n1 n2
        simp only [if_neg hn, if_neg n3]
        rfl)
      (by rw [h]; rfl)
      (bpp 2 (by rw [h]; rfl)).symm (by decide) hb8 (by have := bpp 2 (by rw [h]; rfl); omega) (fin4 _ _ (by decide) (by decide))

/-- Byte values of the five clear channels used in the examples. -/
def encDemo : Chan → List UInt8
  | .red => [10] | .green => [20] | .blue => [30] | .alpha => [40] | .lum => [50]

/-- A 2x1 BGR image. -/
def clearDemo : Img :=
  { width := 2, height := 1, depth := 1, bpp := 3, bpc := 1, bps := 6, plane := 6, size := 6, format := IL_BGR,
    type := IL_UNSIGNED_BYTE, origin := IL_ORIGIN_UPPER_LEFT, data := [1, 2, 3, 4, 5, 6] }

example : clearDemo.Whole ∧ (ilClearImage encDemo (fun _ => 0) clearDemo).map (·.1.data) = .ok [30, 20, 10, 30, 20, 10] :=
  ⟨⟨⟨rfl, rfl, rfl, rfl⟩, by decide, by decide, by decide, by decide, by decide, rfl, rfl, by decide⟩, by decide +kernel⟩

/-- A luminance image is filled with the clear colour's alpha instead of its luminance. -/
theorem C60_violated_luminance :
    (ilClearImage encDemo (fun _ => 0) { Manip.flipDemo with format := IL_LUMINANCE }).map (·.1.data) =
      .ok (List.replicate 12 40) := by decide +kernel

/-- A 1x1 luminance-alpha image, byte components: the luminance component also gets the alpha. -/
theorem C60_violated_luminance_alpha :
    (ilClearImage encDemo (fun _ => 0) { clearDemo with width := 3, bpp := 2, format := IL_LUMINANCE_ALPHA }).map (·.1.data) =
      .ok [40, 40, 40, 40, 40, 40] := by decide +kernel

/-- Clearing a colour-indexed image installs a palette entry made of uninitialised memory, not the clear colour. -/
theorem C60_violated_index (junk : Nat → UInt8) :
    (ilClearImage encDemo junk { Manip.flipDemo with format := IL_COLOUR_INDEX }).map (·.2) =
      .ok (some [palByte 40, palByte (junk 1), palByte (junk 2), palByte (junk 3)]) := by
  rfl

/-- Clearing an image of half-float components does nothing. -/
theorem C60_violated_half (enc : Chan → List UInt8) (junk : Nat → UInt8) (m : Img) (ht : m.type = IL_HALF)
    (hf : m.format ≠ IL_COLOUR_INDEX) : ilClearImage enc junk m = .ok (m, none) := by
  have h1 : clearStores m.format m.type = none := by
    unfold clearStores
    rw [if_neg (by rw [ht]; decide)]
  have h2 : ∀ c, paint m c = .ok m.data := by
    intro c
    unfold paint
    simp only
    rw [if_neg (by rw [ht]; decide)]
  unfold ilClearImage ilGetClear
  rw [h1]
  simp only [bind_ok]
  rw [if_pos hf, h2]
  rfl

end Clear
end DevIL
