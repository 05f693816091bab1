import Verif.Model.Blit
import Verif.Props.Block
/-! Property C61: copying one image into another. -/
set_option autoImplicit false
namespace DevIL.Blit
open DevIL.Utility DevIL.Manip

/-- The byte of a pixel whose row is counted from the top. -/
def _root_.DevIL.Img.top (m : Img) (x y z b : Nat) : Option UInt8 :=
  m.px x (if m.origin = IL_ORIGIN_LOWER_LEFT then m.height - 1 - y else y) z b

/-- A destination turned with its first row on top. -/
theorem upright (m : Img) (hm : m.Whole) : ∃ m1, (if m.origin = IL_ORIGIN_LOWER_LEFT then ilFlipImage m else pure m) = .ok m1 ∧
    m.SameShape m1 ∧ (m.origin = IL_ORIGIN_LOWER_LEFT → m1.origin = IL_ORIGIN_UPPER_LEFT) ∧ (m.origin ≠ IL_ORIGIN_LOWER_LEFT → m1.origin = m.origin) ∧
      ∀ x y z b, m.In x y z b → m1.px x y z b = m.top x y z b := by
  unfold Img.top
  by_cases ho : m.origin = IL_ORIGIN_LOWER_LEFT
  · obtain ⟨m1, e1, s1, o1, p1⟩ := C16_flip m hm.cons hm.fits
    rw [if_pos ho] at o1
    refine ⟨m1, by rw [if_pos ho, e1], s1, fun _ => o1, fun h => absurd ho h, ?_⟩
    rintro x y z b ⟨hx, hy, hz, hb⟩
    rw [if_pos ho]
    have := p1 x (m.height - 1 - y) z b ⟨hx, by omega, hz, hb⟩
    rw [show m.height - 1 - (m.height - 1 - y) = y by omega] at this
    exact this
  · refine ⟨m, by rw [if_neg ho]; rfl, ⟨rfl, rfl⟩, fun h => absurd h ho, fun _ => rfl, fun x y z b _ => by rw [if_neg ho]⟩

/-- The source's pixels from the top, in a block of their own if its first row is at the bottom. -/
theorem upright_data (junk : Nat → UInt8) (m : Img) (hm : m.Whole) :
    ∃ t, (if m.origin = IL_ORIGIN_LOWER_LEFT then iGetFlipped junk m else pure m.data) = .ok t ∧ t.length = m.data.length ∧
      ∀ x y z b, m.In x y z b → blockPx m.width m.height (m.bpp * m.bpc) t x y z b = m.top x y z b := by
  obtain ⟨m1, e1, s1, -, -, p1⟩ := upright m hm
  refine ⟨m1.data, ?_, s1.2, fun x y z b h => ?_⟩
  · by_cases ho : m.origin = IL_ORIGIN_LOWER_LEFT
    · rw [if_pos ho] at e1 ⊢
      rw [C16_flipped_copy junk m hm.cons hm.fits, e1]
      rfl
    · rw [if_neg ho] at e1 ⊢
      rw [pure_eq_ok, Except.ok.injEq] at e1 ⊢
      rw [e1]
  · rw [← p1 x y z b h]
    unfold Img.px blockPx
    rw [s1.1]

theorem limit_eq {n size o : Nat} (h : n + o < 2 ^ 32) (ho : o ≤ size) (hs : size < 2 ^ 32) : limit n o size = min n (size - o) := by
  unfold limit toU32
  split <;> omega

theorem destIdx_eq {m : Img} (hm : m.Whole) (hb : m.bpc = 1) {dx dy dz z y x c : Nat} (hz : z + dz < m.depth) (hy : y + dy < m.height)
    (hx : x + dx < m.width) (hc : c < m.bpp) : destIdx m dx dy dz z y x c = (((z + dz) * m.height + (y + dy)) * m.width + (x + dx)) * m.bpp + c := by
  have h1 := idx_lt (idx_lt (idx_lt hz hy) hx) hc
  have h2 := hm.fit
  rw [hb, Nat.mul_one] at h2
  have e1 : m.bps = m.width * m.bpp := by rw [hm.cons.1, hb, Nat.mul_one]
  have e2 : m.plane = m.height * (m.width * m.bpp) := by rw [hm.cons.2.1, hb]; grind
  unfold destIdx
  rw [e1, e2]
  have : (((z : Int) + dz) * ((m.height * (m.width * m.bpp) : Nat) : Int) + ((y : Int) + dy) * ((m.width * m.bpp : Nat) : Int) +
      ((x : Int) + dx) * m.bpp + c) = (((((z + dz) * m.height + (y + dy)) * m.width + (x + dx)) * m.bpp + c : Nat) : Int) := by
    push_cast
    grind
  rw [this]
  unfold toU32
  omega

/-- The loops copy the rectangle and nothing else. -/
theorem loops_spec (alpha : Bool) (m : Img) (hm : m.Whole) (hb : m.bpc = 1) (cv : List UInt8) (W H D : Nat)
    (hl : cv.length = D * H * W * m.bpp) (hfit : cv.length < 2 ^ 32) (dx dy dz sx sy sz w h d : Nat) (hw : w + dx ≤ m.width) (hh : h + dy ≤ m.height)
    (hd : d + dz ≤ m.depth) (hsx : w + sx ≤ W) (hsy : h + sy ≤ H) (hsz : d + sz ≤ D) :
    ∃ data, blitLoops none alpha m cv (m.bpp * W) (m.bpp * W * H) dx dy dz sx sy sz w h d = .ok data ∧ data.length = m.data.length ∧
      (∀ x y z c, x < w → y < h → z < d → c < m.bpp →
        blockPx m.width m.height m.bpp data (x + dx) (y + dy) (z + dz) c = blockPx W H m.bpp cv (x + sx) (y + sy) (z + sz) c) ∧
      ∀ x y z c, x < m.width → y < m.height → z < m.depth → c < m.bpp →
        ¬ (dx ≤ x ∧ x < dx + w ∧ dy ≤ y ∧ y < dy + h ∧ dz ≤ z ∧ z < dz + d) →
        blockPx m.width m.height m.bpp data x y z c = blockPx m.width m.height m.bpp m.data x y z c := by
  have hp := hm.bpp0
  have hml := hm.len
  rw [hb, Nat.mul_one] at hml
  have hsi : ∀ {z y x c}, z < d → y < h → x < w → c < m.bpp →
      srcIdx m.bpp (m.bpp * W) (m.bpp * W * H) sx sy sz z y x c = (((z + sz) * H + (y + sy)) * W + (x + sx)) * m.bpp + c := by
    intro z y x c hz hy hx hc
    have := idx_lt (idx_lt (idx_lt (show z + sz < D by omega) (show y + sy < H by omega)) (show x + sx < W by omega)) hc
    unfold srcIdx
    rw [show (z + sz) * (m.bpp * W * H) + (y + sy) * (m.bpp * W) + (x + sx) * m.bpp + c = (((z + sz) * H + (y + sy)) * W + (x + sx)) * m.bpp + c by grind,
      u32_of_lt (by omega)]
  have hsl : ∀ {z y x c}, z < d → y < h → x < w → c < m.bpp → (((z + sz) * H + (y + sy)) * W + (x + sx)) * m.bpp + c < cv.length := by
    intro z y x c hz hy hx hc
    rw [hl]
    exact idx_lt (idx_lt (idx_lt (show z + sz < D by omega) (show y + sy < H by omega)) (show x + sx < W by omega)) hc
  obtain ⟨data, e, l, s, o⟩ := copy4_spec (nz := d) (ny := h) (nx := w) (nc := m.bpp) (dIdx := destIdx m dx dy dz)
    (sIdx := srcIdx m.bpp (m.bpp * W) (m.bpp * W * H) sx sy sz) (src := cv) (dst := m.data)
    (fun z y x c hz hy hx hc => by
      rw [destIdx_eq hm hb (by omega) (by omega) (by omega) hc, hml]
      exact idx_lt (idx_lt (idx_lt (by omega) (by omega)) (by omega)) hc)
    (fun z y x c hz hy hx hc => by
      rw [hsi hz hy hx hc]
      exact hsl hz hy hx hc)
    (fun z y x c z' y' x' c' hz hy hx hc hz' hy' hx' hc' he => by
      rw [destIdx_eq hm hb (by omega) (by omega) (by omega) hc, destIdx_eq hm hb (by omega) (by omega) (by omega) hc'] at he
      obtain ⟨he, hcc⟩ := idx_inj hc hc' he
      obtain ⟨he, hxx⟩ := idx_inj (show x + dx < m.width by omega) (show x' + dx < m.width by omega) he
      obtain ⟨hzz, hyy⟩ := idx_inj (show y + dy < m.height by omega) (show y' + dy < m.height by omega) he
      exact ⟨by omega, by omega, by omega, hcc⟩)
  refine ⟨data, ?_, l, fun x y z c hx hy hz hc => ?_, fun x y z c hx hy hz hc hout => ?_⟩
  · unfold blitLoops
    cases alpha with
    | false => exact e
    | true =>
      rw [if_pos rfl, ← e]
      unfold copy4
      refine loopN_congr fun z b hz => loopN_congr fun y b hy => loopN_congr fun x b hx => ?_
      have ha : ∃ a, readAlpha m cv (u32 (srcIdx m.bpp (m.bpp * W) (m.bpp * W * H) sx sy sz z y x 0 + toU32 ((m.bpp : Int) - 1))) = .ok a := by
        unfold readAlpha
        split
        · exact ⟨0, rfl⟩
        · have h1 := hsl hz hy hx (show m.bpp - 1 < m.bpp by omega)
          have : toU32 ((m.bpp : Int) - 1) = m.bpp - 1 := by
            have : m.bpp ≤ cv.length := by omega
            unfold toU32
            omega
          rw [hsi hz hy hx hp, this, Nat.add_zero, u32_of_lt (by omega), hb, Nat.mul_one, Nat.sub_self, Nat.add_zero, rd_of_lt h1]
          exact ⟨_, rfl⟩
      obtain ⟨a, ha⟩ := ha
      rw [ha, bind_ok]
  · have key := s z y x c hz hy hx hc
    rw [destIdx_eq hm hb (by omega) (by omega) (by omega) hc, hsi hz hy hx hc] at key
    exact key
  · refine o _ fun z' y' x' c' hz' hy' hx' hc' he => hout ?_
    rw [destIdx_eq hm hb (by omega) (by omega) (by omega) hc'] at he
    obtain ⟨he, hcc⟩ := idx_inj hc hc' he
    obtain ⟨he, hxx⟩ := idx_inj hx (show x' + dx < m.width by omega) he
    obtain ⟨hzz, hyy⟩ := idx_inj hy (show y' + dy < m.height by omega) he
    omega

/-- **C61.** Without blending, `ilBlit` of a rectangle of the source to a point of a destination of one byte per component changes exactly the
pixels of the destination, counted from the top, that the rectangle covers: each becomes the source's pixel as converted to the destination's
format; the destination keeps its shape and origin, and is bound again.  Missing, because false: negative positions, positions beyond the
destination, rectangles reaching out of the source, and larger components. -/
theorem C61_blit_partial (junk : Nat → UInt8) (conv : List UInt8 → Option (List UInt8)) (dest src : Img) (hd : dest.Whole) (hs : src.Whole)
    (hb : dest.bpc = 1) (dx dy dz sx sy sz w h d : Nat)
    (hconv : ∀ t, t.length = src.data.length → ∃ cv, conv t = some cv ∧ cv.length = src.depth * src.height * src.width * dest.bpp)
    (hcfit : src.depth * src.height * src.width * dest.bpp < 2 ^ 32)
    (hdx : dx ≤ dest.width) (hdy : dy ≤ dest.height) (hdz : dz ≤ dest.depth)
    (hw : w + dx < 2 ^ 32) (hh : h + dy < 2 ^ 32) (hdd : d + dz < 2 ^ 32)
    (hsx : min w (dest.width - dx) + sx ≤ src.width) (hsy : min h (dest.height - dy) + sy ≤ src.height) (hsz : min d (dest.depth - dz) + sz ≤ src.depth) :
    ∃ t cv out, (∀ x y z b, src.In x y z b → blockPx src.width src.height (src.bpp * src.bpc) t x y z b = src.top x y z b) ∧
      t.length = src.data.length ∧ conv t = some cv ∧
      ilBlit junk conv none dest src dx dy dz sx sy sz w h d = .ok (true, out, true) ∧ dest.SameShape out ∧ out.origin = dest.origin ∧
      ∀ x y z c, dest.In x y z c →
        out.top x y z c = if dx ≤ x ∧ x < dx + w ∧ dy ≤ y ∧ y < dy + h ∧ dz ≤ z ∧ z < dz + d then
            blockPx src.width src.height dest.bpp cv (x - dx + sx) (y - dy + sy) (z - dz + sz) c
          else dest.top x y z c := by
  obtain ⟨t, et, lt, pt⟩ := upright_data junk src hs
  obtain ⟨cv, ec, lc⟩ := hconv t lt
  obtain ⟨m, em, sm, om, om', pm⟩ := upright dest hd
  have hm := hd.of_same sm
  have ew : m.width = dest.width := by rw [sm.1]
  have eh : m.height = dest.height := by rw [sm.1]
  have ed : m.depth = dest.depth := by rw [sm.1]
  have ep : m.bpp = dest.bpp := by rw [sm.1]
  have eb : m.bpc = 1 := by rw [sm.1]; exact hb
  have hbd := hd.bnd
  have hsw := hs.w0
  have hsh := hs.h0
  have hsd := hs.d0
  have hbps : u32 (m.bpp * src.width) = m.bpp * src.width ∧ u32 (m.bpp * src.width * src.height) = m.bpp * src.width * src.height := by
    have h1 : m.bpp * src.width * src.height ≤ src.depth * src.height * src.width * dest.bpp := by
      rw [ep, show src.depth * src.height * src.width * dest.bpp = src.depth * (dest.bpp * src.width * src.height) by grind]
      exact Nat.le_mul_of_pos_left _ hsd
    have h2 : m.bpp * src.width ≤ m.bpp * src.width * src.height := Nat.le_mul_of_pos_right _ hsh
    exact ⟨u32_of_lt (by omega), u32_of_lt (by omega)⟩
  obtain ⟨data, el, ll, s1, s2⟩ := loops_spec (src.format = IL_RGBA ∨ src.format = IL_BGRA ∨ src.format = IL_LUMINANCE_ALPHA) m hm eb cv
    src.width src.height src.depth (by rw [lc, ep]) (by omega) dx dy dz sx sy sz (min w (dest.width - dx)) (min h (dest.height - dy)) (min d (dest.depth - dz))
    (by omega) (by omega) (by omega) hsx hsy hsz
  have sm2 : m.SameShape { m with data := data } := ⟨rfl, ll⟩
  have hm2 := hm.of_same sm2
  have back : ∃ out, (if dest.origin = IL_ORIGIN_LOWER_LEFT then ilFlipImage { m with data := data } else pure { m with data := data }) = .ok out ∧
      dest.SameShape out ∧ out.origin = dest.origin ∧ ∀ x y z c, dest.In x y z c → out.top x y z c = ({ m with data := data } : Img).px x y z c := by
    by_cases ho : dest.origin = IL_ORIGIN_LOWER_LEFT
    · obtain ⟨out, e, s, o, p⟩ := C16_flip _ hm2.cons hm2.fits
      rw [show ({ m with data := data } : Img).origin = IL_ORIGIN_UPPER_LEFT from om ho, if_neg (by decide)] at o
      refine ⟨out, by rw [if_pos ho, e], ⟨?_, ?_⟩, o.trans ho.symm, ?_⟩
      · rw [s.1, sm.1]
      · rw [s.2, ← sm.2]; exact ll
      · rintro x y z c ⟨hx, hy, hz, hc⟩
        unfold Img.top
        rw [if_pos o, show out.height = m.height by rw [s.1]]
        have := p x y z c ⟨by show x < m.width; omega, by show y < m.height; omega, by show z < m.depth; omega,
          by show c < m.bpp * m.bpc; rw [ep, eb, ← hb]; exact hc⟩
        exact this
    · refine ⟨{ m with data := data }, by rw [if_neg ho]; rfl, ⟨?_, ?_⟩, om' ho, fun x y z c _ => ?_⟩
      · rw [sm.1]
      · rw [← sm.2]; exact ll
      · unfold Img.top
        rw [if_neg (by show ¬ m.origin = _; rw [om' ho]; exact ho)]
  obtain ⟨out, eo, so, oo, po⟩ := back
  refine ⟨t, cv, out, pt, lt, ec, ?_, so, oo, ?_⟩
  · unfold ilBlit
    rw [em, bind_ok, et, bind_ok, ec]
    rw [← ew, ← eh, ← ed] at el
    dsimp only
    rw [hbps.1, hbps.2, limit_eq hw (by omega) (by omega), limit_eq hh (by omega) (by omega), limit_eq hdd (by omega) (by omega), el, bind_ok, eo]
    rfl
  · rintro x y z c hin
    have hin' := hin
    obtain ⟨hx, hy, hz, hc⟩ := hin
    rw [hb, Nat.mul_one] at hc
    rw [po x y z c hin']
    have e : ({ m with data := data } : Img).px x y z c = blockPx m.width m.height m.bpp data x y z c := by
      unfold Img.px blockPx
      dsimp only
      rw [eb, Nat.mul_one]
    rw [e]
    split
    · rename_i hr
      have := s1 (x - dx) (y - dy) (z - dz) c (by omega) (by omega) (by omega) (by omega)
      rw [show x - dx + dx = x by omega, show y - dy + dy = y by omega, show z - dz + dz = z by omega, ep] at this
      rw [ep]
      exact this
    · rename_i hr
      rw [s2 x y z c (by omega) (by omega) (by omega) (by omega) (by omega), ← pm x y z c hin']
      unfold Img.px blockPx
      rw [eb, Nat.mul_one]

/-- **C61.** In particular `ilOverlayImage` of an image of the same format and type, which conversion copies, gives the source's pixels where it
covers the destination. -/
theorem C61_overlay_partial (junk : Nat → UInt8) (dest src : Img) (hd : dest.Whole) (hs : src.Whole) (hb : dest.bpc = 1) (hb' : src.bpc = 1)
    (hp : src.bpp = dest.bpp) (dx dy dz : Nat) (hdx : dx ≤ dest.width) (hdy : dy ≤ dest.height) (hdz : dz ≤ dest.depth)
    (hw : src.width + dx < 2 ^ 32) (hh : src.height + dy < 2 ^ 32) (hdd : src.depth + dz < 2 ^ 32) :
    ∃ out, ilOverlayImage junk some none dest src dx dy dz = .ok (true, out, true) ∧ dest.SameShape out ∧ out.origin = dest.origin ∧
      ∀ x y z c, dest.In x y z c →
        out.top x y z c = if dx ≤ x ∧ x < dx + src.width ∧ dy ≤ y ∧ y < dy + src.height ∧ dz ≤ z ∧ z < dz + src.depth then
            src.top (x - dx) (y - dy) (z - dz) c
          else dest.top x y z c := by
  have hl := hs.len
  have hf := hs.fit
  rw [hb', Nat.mul_one, hp] at hl hf
  obtain ⟨t, cv, out, pt, lt, ec, e, s, o, p⟩ := C61_blit_partial junk some dest src hd hs hb dx dy dz 0 0 0 src.width src.height src.depth
    (fun t ht => ⟨t, rfl, ht.trans hl⟩) hf hdx hdy hdz hw hh hdd (by omega) (by omega) (by omega)
  rw [Option.some.injEq] at ec
  subst ec
  refine ⟨out, e, s, o, fun x y z c hin => ?_⟩
  rw [p x y z c hin]
  split
  · obtain ⟨hx, hy, hz, hc⟩ := hin
    rw [← pt (x - dx) (y - dy) (z - dz) c ⟨by omega, by omega, by omega, by rw [hp, hb', ← hb]; exact hc⟩, hb', Nat.mul_one, hp]
    rfl
  · rfl

/-- A grey image of two rows of two, the first row at the bottom. -/
def dst22 : Img := ⟨2, 2, 1, 1, 1, 2, 4, 4, IL_LUMINANCE, IL_UNSIGNED_BYTE, IL_ORIGIN_LOWER_LEFT, [1, 2, 3, 4]⟩
/-- A grey image of two pixels. -/
def src21 : Img := ⟨2, 1, 1, 1, 1, 2, 2, 2, IL_LUMINANCE, IL_UNSIGNED_BYTE, IL_ORIGIN_UPPER_LEFT, [8, 9]⟩

theorem dst22_whole : dst22.Whole := ⟨⟨rfl, rfl, rfl, rfl⟩, by decide, by decide, by decide, by decide, by decide, rfl, rfl, by decide⟩
theorem src21_whole : src21.Whole := ⟨⟨rfl, rfl, rfl, rfl⟩, by decide, by decide, by decide, by decide, by decide, rfl, rfl, by decide⟩

set_option maxRecDepth 20000 in
example : (ilOverlayImage (fun _ => 0) some none dst22 src21 1 0 0).map (fun r => r.2.1.data) = .ok [1, 2, 3, 8] := by rfl

set_option maxRecDepth 20000 in
/-- **C61 (violated).** An image laid one pixel to the left of the second row changes the last pixel of the row above it. -/
theorem C61_violated_negative : (ilOverlayImage (fun _ => 0) some none { dst22 with origin := IL_ORIGIN_UPPER_LEFT } src21 (-1) 1 0).map
    (fun r => r.2.1.data) = .ok [1, 8, 9, 4] := by rfl

set_option maxRecDepth 20000 in
/-- **C61 (violated).** Laid one pixel to the left of the first row, it is written outside the destination. -/
theorem C61_violated_before : ilOverlayImage (fun _ => 0) some none dst22 src21 (-1) 0 0 = .error .oobWrite := by rfl

set_option maxRecDepth 20000 in
/-- **C61 (violated).** An image laid beyond the right edge is written outside the destination, though none of it is visible. -/
theorem C61_violated_beyond : ilOverlayImage (fun _ => 0) some none dst22 src21 3 1 0 = .error .oobWrite := by rfl

set_option maxRecDepth 20000 in
/-- **C61 (violated).** A rectangle that reaches out of the source is read outside it. -/
theorem C61_violated_source : ilBlit (fun _ => 0) some none dst22 src21 0 0 0 1 0 0 2 1 1 = .error .oobRead := by rfl

set_option maxRecDepth 20000 in
/-- **C61 (violated).** With 16-bit components, an overlay of the whole source copies half of its bytes. -/
theorem C61_violated_wide : (ilOverlayImage (fun _ => 0) some none
    ⟨2, 1, 1, 1, 2, 4, 4, 4, IL_LUMINANCE, IL_UNSIGNED_SHORT, IL_ORIGIN_UPPER_LEFT, [1, 2, 3, 4]⟩
    ⟨2, 1, 1, 1, 2, 4, 4, 4, IL_LUMINANCE, IL_UNSIGNED_SHORT, IL_ORIGIN_UPPER_LEFT, [5, 6, 7, 8]⟩ 0 0 0).map (fun r => r.2.1.data) = .ok [5, 6, 3, 4] := by rfl

set_option maxRecDepth 20000 in
/-- **C61 (violated).** When the source cannot be converted, the destination is left upside down and the source is left bound. -/
theorem C61_violated_failure : (ilOverlayImage (fun _ => 0) (fun _ => none) none dst22 src21 0 0 0).map (fun r => (r.1, r.2.1.data, r.2.2)) =
    .ok (false, [3, 4, 1, 2], false) := by rfl

end DevIL.Blit
