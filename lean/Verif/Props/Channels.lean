import Verif.Lemmas.Channels
import Verif.Props.Manip
import Verif.Props.Types
/-! Channel swaps (C20, C71) and adding and removing alpha (C26). -/
set_option autoImplicit false
namespace DevIL.Channels
open Utility

/-! ## Specification vocabulary -/

/-- Byte `b` of component `c` of the pixel in column `x`, row `y`, slice `z`. -/
def comp (m : Img) (x y z c b : Nat) : Option UInt8 := m.px x y z (c * m.bpc + b)

/-- The formats of three components, in either order. -/
def Is3 (f : Nat) : Prop := f = IL_RGB ∨ f = IL_BGR

/-- The formats of four components, in either order. -/
def Is4 (f : Nat) : Prop := f = IL_RGBA ∨ f = IL_BGRA

instance (f : Nat) : Decidable (Is3 f) := by unfold Is3; infer_instance
instance (f : Nat) : Decidable (Is4 f) := by unfold Is4; infer_instance

/-- An image of one of the four colour formats with consistent geometry that fits 32 bits. -/
structure Coloured (m : Img) : Prop where
  cons : m.Consistent
  fits : m.size < 2 ^ 32
  bpc : m.bpc = ilGetBpcType m.type
  type : Conv.IsType m.type
  bpp : (Is3 m.format ∧ m.bpp = 3) ∨ (Is4 m.format ∧ m.bpp = 4)

/-- First and third exchanged. -/
def swap02 (c : Nat) : Nat := if c = 0 then 2 else if c = 2 then 0 else c

/-! ## C20 -/

theorem caseBpc_of {t : Nat} (h : Conv.IsType t) (hh : t ≠ IL_HALF) : caseBpc t = some (ilGetBpcType t) := by
  unfold Conv.IsType at h
  simp only [List.mem_cons, List.not_mem_nil, or_false] at h
  rcases h with h | h | h | h | h | h | h | h | h <;> subst h <;> first | rfl | exact absurd rfl hh

theorem px_count {m : Img} (h : m.Consistent) : m.size = (m.depth * m.height * m.width) * m.bpp * m.bpc := by
  rw [h.2.2.1]; grind

theorem pix_lt {m : Img} {x y z : Nat} (hx : x < m.width) (hy : y < m.height) (hz : z < m.depth) :
    (z * m.height + y) * m.width + x < m.depth * m.height * m.width := idx_lt (idx_lt hz hy) hx

theorem comp_eq {m : Img} {x y z c b : Nat} :
    comp m x y z c b = m.data[(((z * m.height + y) * m.width + x) * m.bpp + c) * m.bpc + b]? := by
  unfold comp Img.px
  congr 1
  grind

theorem fastSwap_spec {m : Img} {n : Nat} (hm : m.Consistent) (hbpc : m.bpc = ilGetBpcType m.type) (ht : Conv.IsType m.type)
    (hh : m.type ≠ IL_HALF) (hn : 3 ≤ n) (hb : m.bpp = n) :
    ∃ d', fastSwap m n = .ok (some { m with data := d' }) ∧ d'.length = m.data.length ∧
      ∀ i, i < m.data.length → d'[i]? = m.data[swapIdx n m.bpc i]? := by
  have hk : 0 < m.bpc := by rw [hbpc]; exact Nat.pos_of_ne_zero ht.bpc
  have hc := px_count hm
  rw [hb] at hc
  have hq : m.size / (n * m.bpc) = m.depth * m.height * m.width := by
    rw [hc, Nat.mul_assoc _ n, Nat.mul_div_cancel _ (Nat.mul_pos (by omega) hk)]
  obtain ⟨d', e, l, s⟩ := swap_spec (N := m.depth * m.height * m.width) (n := n) (k := m.bpc) (d := m.data) hk hn
    (by rw [hm.2.2.2, hc]; exact Nat.le_refl _)
  refine ⟨d', ?_, l, fun i hi => ?_⟩
  · unfold fastSwap
    rw [caseBpc_of ht hh, ← hbpc]
    simp only [hq, e, bind_ok, pure_eq_ok]
  · rw [s i, if_pos (by rw [← hc, ← hm.2.2.2]; exact hi)]

theorem fast_data {m : Img} (dest : Nat) (hm : Coloured m) (hh : m.type ≠ IL_HALF)
    (hd : (Is3 m.format ∧ Is3 dest) ∨ (Is4 m.format ∧ Is4 dest)) :
    3 ≤ m.bpp ∧ ∃ d', iFastConvert m dest = .ok (some { m with data := d' }) ∧ d'.length = m.data.length ∧
      ∀ i, i < m.data.length → d'[i]? = m.data[swapIdx m.bpp m.bpc i]? := by
  have hdis : ∀ f, Is3 f → Is4 f → False := by
    rintro f (h | h) (h' | h') <;> subst h <;> revert h' <;> decide
  rcases hd with ⟨h1, h2⟩ | ⟨h1, h2⟩
  · have hb : m.bpp = 3 := by
      rcases hm.bpp with h | h
      · exact h.2
      · exact (hdis _ h1 h.1).elim
    obtain ⟨d', e, r⟩ := fastSwap_spec (n := 3) hm.cons hm.bpc hm.type hh (by omega) hb
    refine ⟨by omega, d', ?_, by rw [hb]; exact r⟩
    unfold iFastConvert
    rw [if_pos (show dest = IL_RGB ∨ dest = IL_BGR from h2), if_pos (show m.format = IL_RGB ∨ m.format = IL_BGR from h1), e]
  · have hb : m.bpp = 4 := by
      rcases hm.bpp with h | h
      · exact (hdis _ h.1 h1).elim
      · exact h.2
    obtain ⟨d', e, r⟩ := fastSwap_spec (n := 4) hm.cons hm.bpc hm.type hh (by omega) hb
    refine ⟨by omega, d', ?_, by rw [hb]; exact r⟩
    unfold iFastConvert
    rw [if_neg (show ¬ (dest = IL_RGB ∨ dest = IL_BGR) from fun h => hdis _ h h2),
      if_pos (show dest = IL_RGBA ∨ dest = IL_BGRA from h2), if_pos (show m.format = IL_RGBA ∨ m.format = IL_BGRA from h1), e]

/-- **C20.**  Converting in place between RGB and BGR, or RGBA and BGRA, exchanges the first and the third component of
every pixel and changes nothing else. -/
theorem C20_swap (m : Img) (dest : Nat) (hm : Coloured m) (hh : m.type ≠ IL_HALF)
    (hd : (Is3 m.format ∧ Is3 dest) ∨ (Is4 m.format ∧ Is4 dest)) :
    ∃ m', iFastConvert m dest = .ok (some m') ∧ m.SameShape m' ∧ m'.origin = m.origin ∧
      ∀ x y z c b, x < m.width → y < m.height → z < m.depth → c < m.bpp → b < m.bpc →
        comp m' x y z c b = comp m x y z (swap02 c) b := by
  obtain ⟨hn, d', e, l, s⟩ := fast_data dest hm hh hd
  refine ⟨_, e, ⟨rfl, l⟩, rfl, fun x y z c b hx hy hz hc hb => ?_⟩
  rw [comp_eq, comp_eq]
  simp only
  rw [s _ (by rw [hm.cons.2.2.2, px_count hm.cons]; exact idx_lt (idx_lt (pix_lt hx hy hz) hc) hb), swapIdx_at hc hb hn]
  rfl

/-- **C20.**  Converting there and back restores the image. -/
theorem C20_back (m : Img) (dest dest' : Nat) (hm : Coloured m) (hh : m.type ≠ IL_HALF)
    (hd : (Is3 m.format ∧ Is3 dest ∧ Is3 dest') ∨ (Is4 m.format ∧ Is4 dest ∧ Is4 dest')) :
    ∃ m', iFastConvert m dest = .ok (some m') ∧ iFastConvert { m' with format := dest } dest' =
      .ok (some { m with format := dest }) := by
  obtain ⟨hn, d1, e1, l1, s1⟩ := fast_data dest hm hh (by rcases hd with h | h; exact .inl ⟨h.1, h.2.1⟩; exact .inr ⟨h.1, h.2.1⟩)
  have hm1 : Coloured { { m with data := d1 } with format := dest } := by
    refine ⟨⟨hm.cons.1, hm.cons.2.1, hm.cons.2.2.1, by simp only [l1]; exact hm.cons.2.2.2⟩, hm.fits, hm.bpc, hm.type, ?_⟩
    have hdis : ∀ f, Is3 f → Is4 f → False := by
      rintro f (h | h) (h' | h') <;> subst h <;> revert h' <;> decide
    rcases hd with h | h
    · exact .inl ⟨h.2.1, by rcases hm.bpp with h' | h'; exact h'.2; exact (hdis _ h.1 h'.1).elim⟩
    · exact .inr ⟨h.2.1, by rcases hm.bpp with h' | h'; exact (hdis _ h'.1 h.1).elim; exact h'.2⟩
  obtain ⟨_, d2, e2, l2, s2⟩ := fast_data dest' hm1 hh
    (by rcases hd with h | h; exact .inl ⟨h.2.1, h.2.2⟩; exact .inr ⟨h.2.1, h.2.2⟩)
  refine ⟨_, e1, ?_⟩
  rw [e2]
  have : d2 = m.data := by
    apply List.ext_getElem?
    intro i
    simp only at l2 s2
    by_cases hi : i < m.data.length
    · have hk : 0 < m.bpc := by rw [hm.bpc]; exact Nat.pos_of_ne_zero hm.type.bpc
      rw [s2 i (by omega), s1 _ (by
        rw [hm.cons.2.2.2, px_count hm.cons] at hi ⊢
        exact swapIdx_lt hk hn hi), swapIdx_invol hk hn]
    · rw [List.getElem?_eq_none (by omega), List.getElem?_eq_none (by omega)]
  rw [this]

/-- **C20.**  Every other pair of formats is refused (and the image, which a refusal does not return, not touched). -/
theorem C20_refused (m : Img) (dest : Nat) (hd : ¬ ((Is3 m.format ∧ Is3 dest) ∨ (Is4 m.format ∧ Is4 dest))) :
    iFastConvert m dest = .ok none := by
  unfold iFastConvert
  split
  · rename_i h
    rw [if_neg (show ¬ (m.format = IL_RGB ∨ m.format = IL_BGR) from fun h' => hd (.inl ⟨h', h⟩))]; rfl
  · split
    · rename_i h
      rw [if_neg (show ¬ (m.format = IL_RGBA ∨ m.format = IL_BGRA) from fun h' => hd (.inr ⟨h', h⟩))]; rfl
    · rfl

/-- Two 16-bit RGB pixels. -/
def swapDemo : Img :=
  { width := 1, height := 2, depth := 1, bpp := 3, bpc := 2, bps := 6, plane := 12, size := 12, format := IL_RGB,
    type := IL_UNSIGNED_SHORT, origin := IL_ORIGIN_UPPER_LEFT, data := [1, 2, 3, 4, 5, 6, 7, 8, 9, 10, 11, 12] }

example : Coloured swapDemo ∧ Is3 swapDemo.format ∧ Is3 IL_BGR ∧
    (iFastConvert swapDemo IL_BGR).map (·.map (·.data)) = .ok (some [5, 6, 3, 4, 1, 2, 11, 12, 9, 10, 7, 8]) := by
  refine ⟨⟨⟨rfl, rfl, rfl, rfl⟩, by decide, by decide, by unfold Conv.IsType; decide, .inl ⟨by decide, rfl⟩⟩, by decide,
    by decide, by decide +kernel⟩

/-! ## C71 -/

/-- `f` and `g` are the two orders of the same components. -/
def Reordered (f g : Nat) : Prop :=
  (f = IL_RGB ∧ g = IL_BGR) ∨ (f = IL_BGR ∧ g = IL_RGB) ∨ (f = IL_RGBA ∧ g = IL_BGRA) ∨ (f = IL_BGRA ∧ g = IL_RGBA)

/-- **C71.**  On an image of one slice, `ilSwapColours` exchanges the first and the third component of every pixel, sets
the format with the other order and changes nothing else.  Missing (and false): images of several slices. -/
theorem C71_swap_partial (m : Img) (hm : Coloured m) (hd : m.depth = 1) :
    ∃ m', ilSwapColours m = .ok (some m') ∧ { m' with format := m.format, data := m.data } = m ∧
      m'.data.length = m.data.length ∧ Reordered m.format m'.format ∧
      ∀ x y c b, x < m.width → y < m.height → c < m.bpp → b < m.bpc → comp m' x y 0 c b = comp m x y 0 (swap02 c) b := by
  have hk : 0 < m.bpc := by rw [hm.bpc]; exact Nat.pos_of_ne_zero hm.type.bpc
  have hn : 3 ≤ m.bpp := by rcases hm.bpp with h | h <;> omega
  have hsz := px_count hm.cons
  rw [hd, Nat.one_mul] at hsz
  obtain ⟨f, hf, hre⟩ : ∃ f, swapFormat m.format = some f ∧ Reordered m.format f := by
    have h := hm.bpp
    unfold Is3 Is4 at h
    rcases h with ⟨h | h, -⟩ | ⟨h | h, -⟩ <;> rw [h] <;> exact ⟨_, rfl, by unfold Reordered; decide⟩
  have hle : m.height * m.width * m.bpp < 2 ^ 32 := by
    have := hm.fits
    have := Nat.le_mul_of_pos_right (m.height * m.width * m.bpp) hk
    omega
  obtain ⟨d', e, l, s⟩ := swap_spec (N := m.height * m.width) (n := m.bpp) (k := m.bpc) (d := m.data) hk hn
    (by rw [hm.cons.2.2.2, hsz]; exact Nat.le_refl _)
  have hbpc : m.bpc = 1 ∨ m.bpc = 2 ∨ m.bpc = 4 ∨ m.bpc = 8 := by
    have ht := hm.type
    unfold Conv.IsType at ht
    simp only [List.mem_cons, List.not_mem_nil, or_false] at ht
    rw [hm.bpc]
    rcases ht with h | h | h | h | h | h | h | h | h <;> rw [h] <;> decide
  refine ⟨{ m with format := f, data := d' }, ?_, rfl, l, hre, fun x y c b hx hy hc hb => ?_⟩
  · unfold ilSwapColours
    rw [if_neg (by rcases hm.bpp with h | h <;> omega)]
    simp only [hf]
    rw [if_pos hbpc, show m.bpp * m.width * m.height = m.height * m.width * m.bpp by grind, u32_of_lt hle,
      forStep_mul (by omega), e]
    rfl
  · rw [comp_eq, comp_eq]
    simp only
    have hlt : (0 * m.height + y) * m.width + x < m.height * m.width := by
      have := idx_lt hy hx; rw [Nat.zero_mul, Nat.zero_add]; exact this
    rw [s _, if_pos (idx_lt (idx_lt hlt hc) hb), swapIdx_at hc hb hn]
    rfl

/-- An image of two slices of one RGB pixel. -/
def twoSlices : Img :=
  { width := 1, height := 1, depth := 2, bpp := 3, bpc := 1, bps := 3, plane := 3, size := 6, format := IL_RGB,
    type := IL_UNSIGNED_BYTE, origin := IL_ORIGIN_UPPER_LEFT, data := [1, 2, 3, 4, 5, 6] }

/-- **C71 fails for images of several slices**: only the first slice is swapped, but the image is declared BGR. -/
theorem C71_violated_depth : Coloured twoSlices ∧
    (ilSwapColours twoSlices).map (·.map fun m => (m.format, m.data)) = .ok (some (IL_BGR, [3, 2, 1, 4, 5, 6])) := by
  refine ⟨⟨⟨rfl, rfl, rfl, rfl⟩, by decide, by decide, by unfold Conv.IsType; decide, .inl ⟨by decide, rfl⟩⟩,
    by decide +kernel⟩

/-! ## C26 -/

/-- The little-endian bytes of a number. -/
def byteOf (v c : Nat) : UInt8 := UInt8.ofNat (v / 256 ^ c)

/-- **C26.**  On an image of one slice and any type but half, `ilAddAlpha` keeps every colour component, appends an alpha to
every pixel and leaves a consistent image of the matching format; the alpha is fully opaque unless the type is signed.
Missing (and false): images of several slices; opaque alpha for signed types; half. -/
theorem C26_add_partial (junk : Nat → UInt8) (m : Img) (hm : Coloured m) (hh : m.type ≠ IL_HALF) (hd : m.depth = 1)
    (h0 : 0 < m.height) (h3 : Is3 m.format) (h4 : 4 * m.size < 2 ^ 32) :
    ∃ m', ilAddAlpha junk m = .ok (some m') ∧ Coloured m' ∧ m'.width = m.width ∧ m'.height = m.height ∧ m'.depth = m.depth ∧
      m'.type = m.type ∧ m'.origin = m.origin ∧ m'.bpp = 4 ∧
      m'.format = (if m.format = IL_RGB then IL_RGBA else IL_BGRA) ∧
      ∀ x y b, x < m.width → y < m.height → b < m.bpc →
        (∀ c, c < 3 → comp m' x y 0 c b = comp m x y 0 c b) ∧
        (m.type ∉ [IL_BYTE, IL_SHORT, IL_INT] → comp m' x y 0 3 b = some (byteOf (Conv.opaqueOf m.type) b)) := by
  have hk : 0 < m.bpc := by rw [hm.bpc]; exact Nat.pos_of_ne_zero hm.type.bpc
  have hdis : ∀ f, Is3 f → Is4 f → False := by
    rintro f (h | h) (h' | h') <;> subst h <;> revert h' <;> decide
  have hb3 : m.bpp = 3 := by
    rcases hm.bpp with h | h
    · exact h.2
    · exact (hdis _ h3 h.1).elim
  have hsz := px_count hm.cons
  rw [hd, hb3, Nat.one_mul] at hsz
  have hbps : m.bps = m.width * 3 * m.bpc := by rw [hm.cons.1, hb3]
  have e0 : m.bps * m.height = m.height * m.width * 3 * m.bpc := by rw [hbps]; grind
  have e1 : u32 (m.bps * m.height) / m.bpc = m.height * m.width * 3 := by
    rw [e0, u32_of_lt (by rw [← hsz]; exact hm.fits), Nat.mul_div_cancel _ hk]
  have hA : 3 * (m.height * m.width * 4 * m.bpc) = 4 * m.size := by rw [hsz]; grind
  have e2 : u32 (4 * m.bpc * m.width * m.height) = m.height * m.width * 4 * m.bpc := by
    rw [show 4 * m.bpc * m.width * m.height = m.height * m.width * 4 * m.bpc by grind]
    exact u32_of_lt (by omega)
  have hN : (m.height * m.width * 3 + 2) / 3 = m.height * m.width := by omega
  obtain ⟨d', e, l, s⟩ := add_spec (N := m.height * m.width) (k := m.bpc) (word := alphaWord m.type) (src := m.data)
    (d := alloc junk (m.height * m.width * 4 * m.bpc)) hk (by rw [hm.cons.2.2.2, hsz]; exact Nat.le_refl _) (by simp)
  rw [alloc_length] at l s
  have hW : m.width * m.bpc * 4 ≤ m.height * m.width * 4 * m.bpc := by
    have := Nat.le_mul_of_pos_left (m.width * 4 * m.bpc) h0
    have e : m.height * (m.width * 4 * m.bpc) = m.height * m.width * 4 * m.bpc := by grind
    have e' : m.width * m.bpc * 4 = m.width * 4 * m.bpc := by grind
    omega
  have g1 : u32 (m.width * m.bpc * 4) = m.width * m.bpc * 4 := u32_of_lt (by omega)
  have g2 : m.width * m.bpc * 4 * m.height = m.height * m.width * 4 * m.bpc := by grind
  have g3 : u32 (m.height * m.width * 4 * m.bpc) = m.height * m.width * 4 * m.bpc := u32_of_lt (by omega)
  refine ⟨withBpp m 4 (if m.format = IL_RGB then IL_RGBA else IL_BGRA) d', ?_, ?_, rfl, rfl, rfl, rfl, rfl, rfl, rfl,
    fun x y b hx hy hb => ?_⟩
  · unfold ilAddAlpha
    rw [if_neg (by omega), caseBpc_of hm.type hh, ← hm.bpc]
    simp only [e1, e2, hN]
    refine (congrArg (fun t => t >>= _) e).trans ?_
    rcases h3 with h | h <;> simp only [h] <;> rfl
  · refine ⟨⟨?_, ?_, ?_, ?_⟩, ?_, hm.bpc, hm.type, .inr ⟨?_, rfl⟩⟩
    · simp only [withBpp, g1]; grind
    · simp only [withBpp, g1, g2, g3]; grind
    · simp only [withBpp, g1, g2, g3, hd, Nat.mul_one]; grind
    · simp only [withBpp, g1, g2, g3, hd, Nat.mul_one, l]
    · simp only [withBpp, g1, g2, g3, hd, Nat.mul_one]; omega
    · simp only [withBpp]; split <;> decide
  · have hp : (0 * m.height + y) * m.width + x < m.height * m.width := by
      have := idx_lt hy hx; rw [Nat.zero_mul, Nat.zero_add]; exact this
    have key : ∀ c, c < 4 → comp (withBpp m 4 (if m.format = IL_RGB then IL_RGBA else IL_BGRA) d') x y 0 c b =
        if c = 3 then some (alphaWord m.type b)
        else m.data[(((0 * m.height + y) * m.width + x) * 3 + c) * m.bpc + b]? := by
      intro c hc
      rw [comp_eq]
      simp only [withBpp]
      rw [s _ (idx_lt (idx_lt hp hc) hb), addVal_at hc hb]
    refine ⟨fun c hc => ?_, fun ht => ?_⟩
    · rw [key c (by omega), if_neg (by omega), comp_eq, hb3]
    · rw [key 3 (by omega), if_pos rfl]
      have hty := hm.type
      have hbp := hm.bpc
      unfold Conv.IsType at hty
      simp only [List.mem_cons, List.not_mem_nil, or_false] at hty
      congr 1
      rcases hty with h | h | h | h | h | h | h | h | h <;> rw [h] at hbp ht hh ⊢
      · exact absurd (by decide) ht
      · have : b < 1 := by rw [hbp] at hb; exact hb
        rw [show b = 0 by omega]; decide
      · exact absurd (by decide) ht
      · have : b < 2 := by rw [hbp] at hb; exact hb
        obtain h | h : b = 0 ∨ b = 1 := by omega
        all_goals subst h; decide
      · exact absurd (by decide) ht
      · have : b < 4 := by rw [hbp] at hb; exact hb
        obtain h | h | h | h : b = 0 ∨ b = 1 ∨ b = 2 ∨ b = 3 := by omega
        all_goals subst h; decide
      · have : b < 4 := by rw [hbp] at hb; exact hb
        obtain h | h | h | h : b = 0 ∨ b = 1 ∨ b = 2 ∨ b = 3 := by omega
        all_goals subst h; decide
      · have : b < 8 := by rw [hbp] at hb; exact hb
        obtain h | h | h | h | h | h | h | h : b = 0 ∨ b = 1 ∨ b = 2 ∨ b = 3 ∨ b = 4 ∨ b = 5 ∨ b = 6 ∨ b = 7 := by omega
        all_goals subst h; decide
      · exact absurd rfl hh

/-- **C26.**  On an image of one slice with one-byte components, `ilRemoveAlpha` keeps every colour component, drops the
alpha and leaves a consistent image of the matching format.
Missing (and false): components of more than one byte; images of several slices. -/
theorem C26_remove_partial (junk : Nat → UInt8) (m : Img) (hm : Coloured m) (h1 : m.bpc = 1) (hd : m.depth = 1)
    (h0 : 0 < m.height) (h4 : Is4 m.format) :
    ∃ m', ilRemoveAlpha junk m = .ok (some m') ∧ Coloured m' ∧ m'.width = m.width ∧ m'.height = m.height ∧ m'.depth = m.depth ∧
      m'.type = m.type ∧ m'.origin = m.origin ∧ m'.bpp = 3 ∧
      m'.format = (if m.format = IL_RGBA then IL_RGB else IL_BGR) ∧
      ∀ x y c, x < m.width → y < m.height → c < 3 → comp m' x y 0 c 0 = comp m x y 0 c 0 := by
  have hdis : ∀ f, Is3 f → Is4 f → False := by
    rintro f (h | h) (h' | h') <;> subst h <;> revert h' <;> decide
  have hb4 : m.bpp = 4 := by
    rcases hm.bpp with h | h
    · exact (hdis _ h.1 h4).elim
    · exact h.2
  have hsz := px_count hm.cons
  rw [hd, hb4, h1, Nat.one_mul, Nat.mul_one] at hsz
  have hbps : m.bps = m.width * 4 := by rw [hm.cons.1, hb4, h1, Nat.mul_one]
  have hfit := hm.fits
  have e1 : u32 (m.bps * m.height) = m.height * m.width * 4 := by
    rw [hbps, show m.width * 4 * m.height = m.height * m.width * 4 by grind, u32_of_lt (by omega)]
  have e2 : u32 (3 * m.bpc * m.width * m.height) = m.height * m.width * 3 := by
    rw [h1, show 3 * 1 * m.width * m.height = m.height * m.width * 3 by grind, u32_of_lt (by omega)]
  have hN : (m.height * m.width * 4 + 3) / 4 = m.height * m.width := by omega
  have hh : m.type ≠ IL_HALF := by
    intro h
    have := hm.bpc
    rw [h, h1] at this
    revert this; decide
  obtain ⟨d', e, l, s⟩ := rem_spec (N := m.height * m.width) (k := 1) (src := m.data)
    (d := alloc junk (m.height * m.width * 3)) (by omega) (by rw [hm.cons.2.2.2, hsz]; omega) (by simp)
  rw [alloc_length] at l s
  have hW : m.width * 3 ≤ m.height * m.width * 3 := by
    have := Nat.le_mul_of_pos_left (m.width * 3) h0
    rw [Nat.mul_assoc]; exact this
  have g1 : u32 (m.width * 3) = m.width * 3 := u32_of_lt (by omega)
  have g2 : m.width * 3 * m.height = m.height * m.width * 3 := by grind
  have g3 : u32 (m.height * m.width * 3) = m.height * m.width * 3 := u32_of_lt (by omega)
  refine ⟨withBpp m 3 (if m.format = IL_RGBA then IL_RGB else IL_BGR) d', ?_, ?_, rfl, rfl, rfl, rfl, rfl, rfl, rfl,
    fun x y c hx hy hc => ?_⟩
  · unfold ilRemoveAlpha
    rw [if_neg (by omega), caseBpc_of hm.type hh, ← hm.bpc]
    simp only [e1, e2, hN]
    rw [h1]
    refine (congrArg (fun t => t >>= _) e).trans ?_
    rcases h4 with h | h <;> simp only [h] <;> rfl
  · refine ⟨⟨?_, ?_, ?_, ?_⟩, ?_, hm.bpc, hm.type, .inl ⟨?_, rfl⟩⟩
    · simp only [withBpp, h1, g1, Nat.mul_one]
    · simp only [withBpp, h1, Nat.mul_one, g1, g2, g3]
    · simp only [withBpp, h1, g1, g2, g3, hd, Nat.mul_one]
    · simp only [withBpp, h1, g1, g2, g3, hd, Nat.mul_one, l]
    · simp only [withBpp, h1, g1, g2, g3, hd, Nat.mul_one]; omega
    · simp only [withBpp]; split <;> decide
  · have hp : (0 * m.height + y) * m.width + x < m.height * m.width := by
      have := idx_lt hy hx; rw [Nat.zero_mul, Nat.zero_add]; exact this
    rw [comp_eq, comp_eq]
    simp only [withBpp, h1, hb4]
    have := idx_lt hp hc
    rw [s _ (by omega), remIdx_at hc (by omega)]

/-- **C26.**  On an RGB or BGR image of one slice with one-byte components, adding and then removing alpha restores the
image.  Missing (and false): larger components; several slices. -/
theorem C26_roundtrip_partial (junk junk' : Nat → UInt8) (m : Img) (hm : Coloured m) (h1 : m.bpc = 1) (hd : m.depth = 1)
    (h0 : 0 < m.height) (h3 : Is3 m.format) (h4 : 4 * m.size < 2 ^ 32) :
    ∃ m', ilAddAlpha junk m = .ok (some m') ∧ ilRemoveAlpha junk' m' = .ok (some m) := by
  have hh : m.type ≠ IL_HALF := by
    intro h
    have := hm.bpc
    rw [h, h1] at this
    revert this; decide
  obtain ⟨a, ea, ca, aw, ah, ad, aty, ao, ab, af, ap⟩ := C26_add_partial junk m hm hh hd h0 h3 h4
  have abpc : a.bpc = 1 := by rw [ca.bpc, aty, ← hm.bpc, h1]
  have af4 : Is4 a.format := by rw [af]; split <;> decide
  obtain ⟨r, er, cr, rw', rh, rd', rty, ro, rb, rf, rp⟩ := C26_remove_partial junk' a ca abpc (by rw [ad, hd]) (by rw [ah]; exact h0) af4
  refine ⟨a, ea, ?_⟩
  rw [er]
  congr 2
  have hdis : ∀ f, Is3 f → Is4 f → False := by
    rintro f (h | h) (h' | h') <;> subst h <;> revert h' <;> decide
  have hb3 : m.bpp = 3 := by
    rcases hm.bpp with h | h
    · exact h.2
    · exact (hdis _ h3 h.1).elim
  have rbpc : r.bpc = 1 := by rw [cr.bpc, rty, aty, ← hm.bpc, h1]
  have w : r.width = m.width := by rw [rw', aw]
  have hgt : r.height = m.height := by rw [rh, ah]
  have dp : r.depth = m.depth := by rw [rd', ad]
  have bp : r.bpp = m.bpp := by rw [rb, hb3]
  have bc : r.bpc = m.bpc := by rw [rbpc, h1]
  have ty : r.type = m.type := by rw [rty, aty]
  have og : r.origin = m.origin := by rw [ro, ao]
  have fm : r.format = m.format := by
    rw [rf, af]
    rcases h3 with h | h <;> rw [h] <;> rfl
  have bs : r.bps = m.bps := by rw [cr.cons.1, hm.cons.1, w, bp, bc]
  have pl : r.plane = m.plane := by rw [cr.cons.2.1, hm.cons.2.1, w, bp, bc, hgt]
  have sz : r.size = m.size := by rw [cr.cons.2.2.1, hm.cons.2.2.1, w, bp, bc, hgt, dp]
  have dt : r.data = m.data := by
    refine ext_pos (w := m.width) (h := m.height) (d := m.depth) (k := 3) ?_ ?_ (fun z y x c hz hy hx hc => ?_)
    · rw [cr.cons.2.2.2, sz, px_count hm.cons, hb3, h1, Nat.mul_one]
    · rw [hm.cons.2.2.2, px_count hm.cons, hb3, h1, Nat.mul_one]
    · have z0 : z = 0 := by omega
      subst z0
      have q1 := rp x y c (by rw [aw]; exact hx) (by rw [ah]; exact hy) hc
      have q2 := (ap x y 0 hx hy (by omega)).1 c hc
      rw [q2, comp_eq, comp_eq, w, hgt, bp, bc, hb3, h1, Nat.mul_one, Nat.add_zero] at q1
      exact q1
  cases r; cases m
  simp only at w hgt dp bp bc ty og fm bs pl sz dt
  simp only [w, hgt, dp, bp, bc, ty, og, fm, bs, pl, sz, dt]

/-- One 8-bit RGB pixel. -/
def addDemo : Img :=
  { width := 1, height := 1, depth := 1, bpp := 3, bpc := 1, bps := 3, plane := 3, size := 3, format := IL_RGB,
    type := IL_UNSIGNED_BYTE, origin := IL_ORIGIN_UPPER_LEFT, data := [1, 2, 3] }

example : Coloured addDemo ∧ addDemo.bpc = 1 ∧ Is3 addDemo.format ∧
    (ilAddAlpha (fun _ => 7) addDemo).map (·.map (·.data)) = .ok (some [1, 2, 3, 255]) := by
  refine ⟨⟨⟨rfl, rfl, rfl, rfl⟩, by decide, by decide, by unfold Conv.IsType; decide, .inl ⟨by decide, rfl⟩⟩, rfl, by decide,
    by decide +kernel⟩

/-- One 16-bit RGBA pixel. -/
def wideDemo : Img :=
  { width := 1, height := 1, depth := 1, bpp := 4, bpc := 2, bps := 8, plane := 8, size := 8, format := IL_RGBA,
    type := IL_UNSIGNED_SHORT, origin := IL_ORIGIN_UPPER_LEFT, data := [1, 2, 3, 4, 5, 6, 7, 8] }

/-- **C26 fails for components of more than one byte**: `ilRemoveAlpha` takes the size in bytes for a number of components
and reads past the image. -/
theorem C26_violated_wide : Coloured wideDemo ∧ ilRemoveAlpha (fun _ => 0) wideDemo = .error .oobRead := by
  refine ⟨⟨⟨rfl, rfl, rfl, rfl⟩, by decide, by decide, by unfold Conv.IsType; decide, .inr ⟨by decide, rfl⟩⟩,
    by decide +kernel⟩

/-- **C26 fails for images of several slices**: `ilAddAlpha` converts one slice only, but declares the size of all of
them: the image is larger than its buffer. -/
theorem C26_violated_depth : Coloured twoSlices ∧
    (ilAddAlpha (fun _ => 0) twoSlices).map (·.map fun m => (m.size, m.data)) = .ok (some (8, [1, 2, 3, 255])) := by
  refine ⟨C71_violated_depth.1, by decide +kernel⟩

/-- **C26 fails for signed types**: the alpha added to signed bytes is 255, that is, -1. -/
theorem C26_violated_signed :
    (ilAddAlpha (fun _ => 0) { addDemo with type := IL_BYTE }).map (·.map (·.data)) = .ok (some [1, 2, 3, 255]) ∧
    Conv.value IL_BYTE 255 = -1 ∧ Conv.opaqueOf IL_BYTE = 127 := by
  refine ⟨by decide +kernel, by decide, by decide⟩

end DevIL.Channels
