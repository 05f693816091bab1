import Verif.Model.Canvas
import Verif.Props.Clear
import Verif.Props.Block
import Verif.Props.Image
import Verif.Props.Blit
/-! Property C103: enlarging the canvas. -/
set_option autoImplicit false
namespace DevIL.Ilu
open DevIL.Utility

/-- Specification: how many columns are left of the picture when `dx` columns are added. -/
def leftOf (placement dx : Nat) : Nat :=
  if placement = ILU_LOWER_LEFT ∨ placement = ILU_UPPER_LEFT then 0
  else if placement = ILU_LOWER_RIGHT ∨ placement = ILU_UPPER_RIGHT then dx
  else dx / 2

/-- Specification: how many rows are above the picture when `dy` rows are added.  In the middle of an odd number of rows, the greater part is on the side away from the origin. -/
def aboveOf (origin placement dy : Nat) : Nat :=
  if placement = ILU_UPPER_LEFT ∨ placement = ILU_UPPER_RIGHT then 0
  else if placement = ILU_LOWER_LEFT ∨ placement = ILU_LOWER_RIGHT then dy
  else if origin = IL_ORIGIN_LOWER_LEFT then dy - dy / 2 else dy / 2

/-- The five placements. -/
def Placement (p : Nat) : Prop := p = ILU_LOWER_LEFT ∨ p = ILU_LOWER_RIGHT ∨ p = ILU_UPPER_LEFT ∨ p = ILU_UPPER_RIGHT ∨ p = ILU_CENTER

theorem addXY_spec {origin p dx dy : Nat} (hp : Placement p) :
    ∃ ay, addXY origin p dx dy = some (leftOf p dx, ay) ∧ ay ≤ dy ∧ (if origin = IL_ORIGIN_LOWER_LEFT then dy - ay else ay) = aboveOf origin p dy := by
  by_cases ho : origin = IL_ORIGIN_LOWER_LEFT
  · rcases hp with rfl | rfl | rfl | rfl | rfl <;>
      simp [addXY, leftOf, aboveOf, ho, ILU_LOWER_LEFT, ILU_LOWER_RIGHT, ILU_UPPER_LEFT, ILU_UPPER_RIGHT, ILU_CENTER] <;> omega
  · rcases hp with rfl | rfl | rfl | rfl | rfl <;>
      simp [addXY, leftOf, aboveOf, ho, ILU_LOWER_LEFT, ILU_LOWER_RIGHT, ILU_UPPER_LEFT, ILU_UPPER_RIGHT, ILU_CENTER] <;> omega

theorem leftOf_le (p dx : Nat) : leftOf p dx ≤ dx := by
  unfold leftOf
  split
  · omega
  · split <;> omega

/-- Bytes per row and so on of an image. -/
theorem geo {m : Img} (hm : m.Consistent) : m.bps = m.width * (m.bpp * m.bpc) ∧ m.plane = m.height * (m.width * (m.bpp * m.bpc)) := by
  refine ⟨by rw [hm.1]; grind, by rw [hm.2.1]; grind⟩

/-- **C103 (partial).** Enlarging the canvas of an RGB, RGBA, BGR or BGRA image with components of any type but half gives an image of the requested size and of the same kind and
origin.  The old picture stands where the placement says, unchanged, and every pixel around it has the clear colour (`enc`).
Missing, because false: components larger than a byte when columns are added on the left (`C103_violated_wide`), colour-indexed images (`C103_violated_index`), luminance
images, for which clearing is wrong (C60), and an origin mode other than the image's origin (`C103_violated_mode`); several slices of a single row (C18). -/
theorem C103_enlarge_partial (enc : Clear.Chan → List UInt8) (junk junk' junk'' : Nat → UInt8) (mode : Option Nat) (p : Nat) (m : Img) (w h d : Nat) (hm : m.Whole) (hp : Placement p)
    (hf : m.format = IL_RGB ∨ m.format = IL_RGBA ∨ m.format = IL_BGR ∨ m.format = IL_BGRA)
    (ht : m.type = IL_BYTE ∨ m.type = IL_UNSIGNED_BYTE ∨ m.type = IL_SHORT ∨ m.type = IL_UNSIGNED_SHORT ∨ m.type = IL_INT ∨ m.type = IL_UNSIGNED_INT ∨ m.type = IL_FLOAT ∨ m.type = IL_DOUBLE)
    (he : ∀ ch, (enc ch).length = m.bpc) (hmode : mode = none ∨ mode = some m.origin) (hw : m.width ≤ w) (hh : m.height ≤ h) (hd : m.depth ≤ d)
    (hfit : w * h * d * (m.bpp * m.bpc) < 2 ^ 32) (hwide : m.bpc = 1 ∨ leftOf p (w - m.width) = 0) (hline : m.height = 1 → m.depth = 1) :
    ∃ m', iluEnlargeCanvas enc junk junk' junk'' mode p m w h d = .ok (some (m', none)) ∧ m'.Consistent ∧ m'.width = w ∧ m'.height = h ∧ m'.depth = d ∧
      m'.bpp = m.bpp ∧ m'.bpc = m.bpc ∧ m'.format = m.format ∧ m'.type = m.type ∧ m'.origin = m.origin ∧
      (∀ x y z b, m.In x y z b → m'.top (x + leftOf p (w - m.width)) (y + aboveOf m.origin p (h - m.height)) z b = m.top x y z b) ∧
      ∃ chs, Clear.channels m.format = some chs ∧ ∀ x y z c ch j, x < w → y < h → z < d → chs[c]? = some ch → j < m.bpc →
        ¬ (leftOf p (w - m.width) ≤ x ∧ x < leftOf p (w - m.width) + m.width ∧ aboveOf m.origin p (h - m.height) ≤ y ∧
          y < aboveOf m.origin p (h - m.height) + m.height ∧ z < m.depth) → m'.top x y z (c * m.bpc + j) = (enc ch)[j]? := by
  have hk0 := hm.k0
  have hW := hm.w0
  have hH := hm.h0
  have hD := hm.d0
  obtain ⟨k, hk⟩ : ∃ k, k = m.bpp * m.bpc := ⟨_, rfl⟩
  have hlen := hm.len
  have hfits := hm.fit
  obtain ⟨hbps, hplane⟩ := geo hm.cons
  rw [← hk] at hk0 hlen hfits hbps hplane hfit
  have hwd : w ≤ w * h * d * k ∧ h ≤ w * h * d * k ∧ d ≤ w * h * d * k := by
    have h1 : 0 < w := by omega
    have h2 : 0 < h := by omega
    have h3 : 0 < d := by omega
    refine ⟨?_, ?_, ?_⟩
    · rw [Nat.mul_assoc, Nat.mul_assoc]; exact Nat.le_mul_of_pos_right _ (by have h4 := Nat.mul_pos (Nat.mul_pos h2 h3) hk0; have h5 := Nat.mul_pos (Nat.mul_pos h1 h3) hk0; have h6 := Nat.mul_pos (Nat.mul_pos h1 h2) hk0; first | assumption | (rw [← Nat.mul_assoc]; assumption))
    · rw [show w * h * d * k = h * (w * d * k) by grind]; exact Nat.le_mul_of_pos_right _ (by have h4 := Nat.mul_pos (Nat.mul_pos h2 h3) hk0; have h5 := Nat.mul_pos (Nat.mul_pos h1 h3) hk0; have h6 := Nat.mul_pos (Nat.mul_pos h1 h2) hk0; first | assumption | (rw [← Nat.mul_assoc]; assumption))
    · rw [show w * h * d * k = d * (w * h * k) by grind]; exact Nat.le_mul_of_pos_right _ (by have h4 := Nat.mul_pos (Nat.mul_pos h2 h3) hk0; have h5 := Nat.mul_pos (Nat.mul_pos h1 h3) hk0; have h6 := Nat.mul_pos (Nat.mul_pos h1 h2) hk0; first | assumption | (rw [← Nat.mul_assoc]; assumption))
  have hfi : m.format ≠ IL_COLOUR_INDEX := by rcases hf with h | h | h | h <;> rw [h] <;> decide
  obtain ⟨src, e1, l1, s1, -⟩ := Manip.C18_copyPixels_partial junk' m mode 0 0 0 m.width m.height m.depth (alloc junk' m.size) hm hfi hW hH hD
    (by rw [alloc_length, ← hm.cons.2.2.2, hlen, ← hk]; grind) (by rw [← hk, show m.width * m.height * m.depth * k = m.depth * m.height * m.width * k by grind]; exact hfits)
    (by omega) (by omega) (by omega) (by omega) (by omega) (by omega) (Or.inl ⟨by omega, by omega⟩) (fun _ h1 => ⟨rfl, Or.inl (hline h1)⟩)
  have hsrc : ∀ x y z b, x < m.width → y < m.height → z < m.depth → b < k → src[((z * m.height + y) * m.width + x) * k + b]? = m.px x y z b := by
    intro x y z b hx hy hz hb
    have key := s1 x y z b hx hy hz (by rw [← hk]; exact hb)
    rw [if_pos ⟨by omega, by omega, by omega⟩] at key
    unfold blockPx at key
    rw [← hk] at key
    simp only [Nat.add_zero] at key
    rw [key]
    rcases hmode with e | e
    · rw [e]; rfl
    · rw [e]; exact if_pos rfl
  have hsl : src.length = m.depth * m.height * m.width * k := by rw [l1, alloc_length, ← hm.cons.2.2.2, hlen]
  obtain ⟨n, e2, c, f1, f2, f3, f4, f5, f6, f7, _⟩ := Image.C14_geometry_partial junk w h d m.bpp m.format m.type none (by rw [← hm.bpcT]; exact Nat.ne_of_gt hm.bpc0)
    (by rw [← hm.bpcT, Nat.max_eq_left (by omega), Nat.max_eq_left (by omega), Nat.max_eq_left (by omega), show w * m.bpp * m.bpc * h * d = w * h * d * (m.bpp * m.bpc) by grind, ← hk]; exact hfit)
    (fun _ h => nomatch h)
  rw [Nat.max_eq_left (by omega)] at f1 f2 f3
  rw [← hm.bpcT] at f5
  have hnl : n.data.length = d * h * w * k := by rw [c.len, f1, f2, f3, f4, f5, ← hk]
  have hnw : Img.Whole { n with origin := m.origin } :=
    ⟨⟨c.1, c.2.1, c.2.2.1, c.2.2.2⟩, by show 0 < n.width; omega, by show 0 < n.height; omega, by show 0 < n.depth; omega, by show 0 < n.bpp; rw [f4]; exact hm.bpp0,
      by show 0 < n.bpc; rw [f5]; exact hm.bpc0, by show n.bpp = ilGetBppFormat n.format; rw [f4, f6]; exact hm.bppF, by show n.bpc = ilGetBpcType n.type; rw [f5, f7]; exact hm.bpcT,
      by show n.size < 2 ^ 32; rw [← c.2.2.2, hnl, show d * h * w * k = w * h * d * k by grind]; exact hfit⟩
  obtain ⟨n', e3, sh, o3, chs, hch, hcl, hpaint⟩ := Clear.C60_clear_partial enc junk'' { n with origin := m.origin } hnw (by rw [f7]; exact ht)
    (by rw [f6]; rcases hf with h | h | h | h
        · exact .inl h
        · exact .inr (.inl h)
        · exact .inr (.inr (.inl h))
        · exact .inr (.inr (.inr (.inl h)))) (by intro ch; rw [f5]; exact he ch)
  have cons' : n'.Consistent := hnw.cons.of_same sh
  obtain ⟨g0, g0'⟩ := sh
  have w' : n'.width = w := by rw [g0]; exact f1
  have h' : n'.height = h := by rw [g0]; exact f2
  have d' : n'.depth = d := by rw [g0]; exact f3
  have p' : n'.bpp = m.bpp := by rw [g0]; exact f4
  have c' : n'.bpc = m.bpc := by rw [g0]; exact f5
  have fm' : n'.format = m.format := by rw [g0]; exact f6
  have t' : n'.type = m.type := by rw [g0]; exact f7
  obtain ⟨hnb, hnp⟩ := geo cons'
  rw [w', p', c', ← hk] at hnb
  rw [h', w', p', c', ← hk] at hnp
  have hdl : n'.data.length = d * h * w * k := by rw [g0']; exact hnl
  obtain ⟨ay, eadd, hay, hab⟩ := addXY_spec (origin := m.origin) (dx := w - m.width) (dy := h - m.height) hp
  have hax := leftOf_le p (w - m.width)
  generalize leftOf p (w - m.width) = ax at *
  generalize aboveOf m.origin p (h - m.height) = up at *
  have hadd : u32 (ax * m.bpp) = ax * k := by
    have hlt : ax * m.bpp < 2 ^ 32 := by
      have h1 : ax * m.bpp ≤ w * h * d * k := by
        have h2 : ax * m.bpp ≤ w * k := by rw [hk]; exact Nat.mul_le_mul (by omega) (Nat.le_mul_of_pos_right _ hm.bpc0)
        have h3 : w * k ≤ w * k * (h * d) := Nat.le_mul_of_pos_right _ (Nat.mul_pos (by omega) (by omega))
        rw [show w * h * d * k = w * k * (h * d) by grind]
        omega
      omega
    rw [u32_of_lt hlt, hk]
    rcases hwide with e | e
    · rw [e, Nat.mul_one]
    · rw [e]; simp
  -- where a byte goes
  have hto : ∀ z y x, z < m.depth → y < m.height → x < m.bps → u32 (z * n'.plane + (y + ay) * n'.bps + x + ax * k) = ((z * h + (y + ay)) * w) * k + (x + ax * k) ∧
      x + ax * k < w * k ∧ ((z * h + (y + ay)) * w) * k + (x + ax * k) < d * h * w * k := by
    intro z y x hz hy hx
    have h1 : x + ax * k < w * k := by
      have : (m.width + ax) * k ≤ w * k := Nat.mul_le_mul_right _ (by omega)
      rw [Nat.add_mul] at this
      omega
    have h2 : (z * h + (y + ay)) * (w * k) + (x + ax * k) < d * h * (w * k) := idx_lt (idx_lt (show z < d by omega) (show y + ay < h by omega)) h1
    have h3 : (z * h + (y + ay)) * w * k = (z * h + (y + ay)) * (w * k) := by rw [Nat.mul_assoc]
    have h4 : d * h * w * k = d * h * (w * k) := by rw [Nat.mul_assoc]
    have h5 : d * h * w * k < 2 ^ 32 := by rw [show d * h * w * k = w * h * d * k by grind]; exact hfit
    refine ⟨?_, h1, by omega⟩
    rw [hnb, hnp, show z * (h * (w * k)) + (y + ay) * (w * k) + x + ax * k = (z * h + (y + ay)) * w * k + (x + ax * k) by grind, u32_of_lt (by omega)]
  have hfrom : ∀ z y x, z < m.depth → y < m.height → x < m.bps → u32 (z * m.plane + y * m.bps + x) = ((z * m.height + y) * m.width) * k + x ∧ ((z * m.height + y) * m.width) * k + x < src.length := by
    intro z y x hz hy hx
    rw [hbps] at hx
    have h2 : (z * m.height + y) * (m.width * k) + x < m.depth * m.height * (m.width * k) := idx_lt (idx_lt hz hy) hx
    have h3 : (z * m.height + y) * m.width * k = (z * m.height + y) * (m.width * k) := by rw [Nat.mul_assoc]
    have h4 : m.depth * m.height * m.width * k = m.depth * m.height * (m.width * k) := by rw [Nat.mul_assoc]
    refine ⟨?_, by omega⟩
    rw [hplane, hbps, show z * (m.height * (m.width * k)) + y * (m.width * k) + x = (z * m.height + y) * m.width * k + x by grind, u32_of_lt (by omega)]
  obtain ⟨data, e4, l4, s4, r4⟩ := copy4_spec (nz := m.depth) (ny := m.height) (nx := m.bps) (nc := 1)
    (dIdx := fun z y x _ => u32 (z * n'.plane + (y + ay) * n'.bps + x + ax * k)) (sIdx := fun z y x _ => u32 (z * m.plane + y * m.bps + x)) (src := src) (dst := n'.data)
    (fun z y x c hz hy hx hc => by obtain ⟨a, _, b⟩ := hto z y x hz hy hx; rw [a, hdl]; exact b)
    (fun z y x c hz hy hx hc => by obtain ⟨a, b⟩ := hfrom z y x hz hy hx; rw [a]; exact b)
    (fun z y x c z' y' x' c' hz hy hx hc hz' hy' hx' hc' he => by
      obtain ⟨a, b, _⟩ := hto z y x hz hy hx
      obtain ⟨a', b', _⟩ := hto z' y' x' hz' hy' hx'
      rw [a, a', Nat.mul_assoc, Nat.mul_assoc] at he
      obtain ⟨he, hxx⟩ := idx_inj b b' he
      obtain ⟨hzz, hyy⟩ := idx_inj (show y + ay < h by omega) (show y' + ay < h by omega) he
      exact ⟨hzz, by omega, by omega, by omega⟩)
  have e5 : pasteOld m n' (ax * k) ay src = .ok data := by
    unfold pasteOld
    unfold copy4 at e4
    simp only [loopN_one] at e4
    exact e4
  have hrow : ∀ y, y < m.height → (if m.origin = IL_ORIGIN_LOWER_LEFT then h - 1 - (y + up) else y + up) = (if m.origin = IL_ORIGIN_LOWER_LEFT then m.height - 1 - y else y) + ay := by
    intro y hy
    by_cases ho : m.origin = IL_ORIGIN_LOWER_LEFT
    · simp only [if_pos ho] at hab ⊢; omega
    · simp only [if_neg ho] at hab ⊢; omega
  have o' : n'.origin = m.origin := o3
  refine ⟨{ n' with data := data }, ?_, ⟨cons'.1, cons'.2.1, cons'.2.2.1, by rw [← cons'.2.2.2]; exact l4⟩, w', h', d', p', c', fm', t', o', ?_, chs, by rw [← fm']; exact hch, ?_⟩
  · unfold iluEnlargeCanvas
    rw [if_neg (by omega), eadd]
    dsimp only
    rw [e1, bind_ok]
    dsimp only
    rw [e2, bind_ok]
    dsimp only
    rw [e3, bind_ok, hadd]
    dsimp only
    rw [e5, bind_ok]
    rfl
  · rintro x y z b ⟨hx, hy, hz, hb⟩
    unfold Img.top
    dsimp only
    rw [o', h', hrow y hy]
    generalize hyy : (if m.origin = IL_ORIGIN_LOWER_LEFT then m.height - 1 - y else y) = y' at *
    have hy' : y' < m.height := by rw [← hyy]; split <;> omega
    rw [← hk] at hb
    have hxb : x * k + b < m.bps := by rw [hbps]; exact idx_lt hx hb
    have key := s4 z y' (x * k + b) 0 hz hy' hxb (by decide)
    rw [(hto z y' _ hz hy' hxb).1, (hfrom z y' _ hz hy' hxb).1] at key
    rw [← hsrc x y' z b hx hy' hz hb, show ((z * m.height + y') * m.width + x) * k + b = (z * m.height + y') * m.width * k + (x * k + b) by grind, ← key]
    unfold Img.px
    dsimp only
    rw [w', p', c', ← hk]
    congr 1
    grind
  · intro x y z c2 ch j hx hy hz hc2 hj hout
    unfold Img.top
    dsimp only
    rw [o', h']
    generalize hyy : (if m.origin = IL_ORIGIN_LOWER_LEFT then h - 1 - y else y) = y' at *
    have hy' : y' < h := by rw [← hyy]; split <;> omega
    have hc4 : c2 < m.bpp := by rw [← p', ← hcl]; exact (List.getElem?_eq_some_iff.mp hc2).1
    have hbb : c2 * m.bpc + j < k := by rw [hk]; exact idx_lt hc4 hj
    rw [← c', ← hpaint x y' z c2 ch j ⟨by omega, by omega, by omega, by rw [p', c', ← hk]; exact hbb⟩ hc2 (by omega)]
    unfold Img.px
    dsimp only
    rw [h', w', p', c', ← hk]
    apply r4
    intro z1 y1 x1 _ hz1 hy1 hx1 _ he1
    obtain ⟨a, b, _⟩ := hto z1 y1 x1 hz1 hy1 hx1
    rw [a, show ((z * h + y') * w + x) * k + (c2 * m.bpc + j) = (z * h + y') * (w * k) + (x * k + (c2 * m.bpc + j)) by grind, Nat.mul_assoc] at he1
    have hxk : x * k + (c2 * m.bpc + j) < w * k := idx_lt hx hbb
    obtain ⟨he1, hxx⟩ := idx_inj hxk b he1
    obtain ⟨hzz, hyy1⟩ := idx_inj hy' (show y1 + ay < h by omega) he1
    apply hout
    rw [hbps] at hx1
    have hx2 : ax ≤ x := by
      refine Nat.le_of_not_lt fun hlt => ?_
      have : (x + 1) * k ≤ ax * k := Nat.mul_le_mul_right _ (by omega)
      rw [Nat.add_mul] at this
      omega
    have hx3 : x < ax + m.width := by
      refine Nat.lt_of_not_le fun hlt => ?_
      have : (ax + m.width) * k ≤ x * k := Nat.mul_le_mul_right _ (by omega)
      rw [Nat.add_mul] at this
      omega
    have hup := hrow y1 hy1
    refine ⟨hx2, hx3, ?_, ?_, by omega⟩
    · by_cases ho : m.origin = IL_ORIGIN_LOWER_LEFT
      · simp only [if_pos ho] at hab hyy hup; omega
      · simp only [if_neg ho] at hab hyy hup; omega
    · by_cases ho : m.origin = IL_ORIGIN_LOWER_LEFT
      · simp only [if_pos ho] at hab hyy hup; omega
      · simp only [if_neg ho] at hab hyy hup; omega

/-- One by two pixels of RGB. -/
def rgb12 : Img := ⟨1, 2, 1, 3, 1, 3, 6, 6, IL_RGB, IL_UNSIGNED_BYTE, IL_ORIGIN_LOWER_LEFT, [1, 2, 3, 4, 5, 6]⟩

set_option maxRecDepth 20000 in
/-- An image meets the hypotheses: enlarged at the lower right of a canvas of two by three pixels. -/
example : rgb12.Whole ∧ Placement ILU_LOWER_RIGHT ∧ (iluEnlargeCanvas Clear.encDemo (fun _ => 7) (fun _ => 8) (fun _ => 9) none ILU_LOWER_RIGHT rgb12 2 3 1).map (Option.map fun r => r.1.data) =
    .ok (some [10, 20, 30, 1, 2, 3, 10, 20, 30, 4, 5, 6, 10, 20, 30, 10, 20, 30]) :=
  ⟨⟨⟨rfl, rfl, rfl, rfl⟩, by decide, by decide, by decide, by decide, by decide, rfl, rfl, by decide⟩, .inr (.inl rfl), rfl⟩

/-- **C103 (smaller sizes).** A canvas that is smaller than the image in any direction is refused, whatever the placement. -/
theorem C103_refuses (enc : Clear.Chan → List UInt8) (junk junk' junk'' : Nat → UInt8) (mode : Option Nat) (p : Nat) (m : Img) (w h d : Nat) (hs : w < m.width ∨ h < m.height ∨ d < m.depth) :
    iluEnlargeCanvas enc junk junk' junk'' mode p m w h d = .ok none := by
  unfold iluEnlargeCanvas
  rw [if_pos hs]
  rfl

/-- Two bytes for each clear value. -/
def encWide (ch : Clear.Chan) : List UInt8 := Clear.encDemo ch ++ [0]

set_option maxRecDepth 20000 in
/-- **C103 is violated.** A pixel with components of 16 bits, put at the right of a row of two, is shifted by half a pixel: it covers the second half of the left pixel and the first
half of the right one. -/
theorem C103_violated_wide : (iluEnlargeCanvas encWide (fun _ => 0) (fun _ => 0) (fun _ => 0) none ILU_UPPER_RIGHT
    ⟨1, 1, 1, 3, 2, 6, 6, 6, IL_RGB, IL_UNSIGNED_SHORT, IL_ORIGIN_UPPER_LEFT, [1, 2, 3, 4, 5, 6]⟩ 2 1 1).map (Option.map fun r => r.1.data) =
    .ok (some [10, 0, 20, 1, 2, 3, 4, 5, 6, 0, 30, 0]) := rfl

set_option maxRecDepth 20000 in
/-- **C103 is violated.** The pixels of a colour-indexed image are replaced by whatever was in memory, even when the canvas is not enlarged at all. -/
theorem C103_violated_index (v : UInt8) : (iluEnlargeCanvas Clear.encDemo (fun _ => 0) (fun _ => v) (fun _ => 0) none ILU_CENTER
    ⟨2, 1, 1, 1, 1, 2, 2, 2, IL_COLOUR_INDEX, IL_UNSIGNED_BYTE, IL_ORIGIN_UPPER_LEFT, [1, 2]⟩ 2 1 1).map (Option.map fun r => r.1.data) = .ok (some [v, v]) := rfl

set_option maxRecDepth 20000 in
/-- **C103 is violated.** With `IL_ORIGIN_SET` enabled and an origin mode other than the image's origin, the picture is turned upside down. -/
theorem C103_violated_mode : (iluEnlargeCanvas Clear.encDemo (fun _ => 0) (fun _ => 0) (fun _ => 0) (some IL_ORIGIN_UPPER_LEFT) ILU_CENTER rgb12 1 2 1).map
    (Option.map fun r => (r.1.origin, r.1.data)) = .ok (some (IL_ORIGIN_LOWER_LEFT, [4, 5, 6, 1, 2, 3])) := rfl

end DevIL.Ilu
