import Verif.Lemmas.ConvImage
import Mathlib.Data.List.Forall2
/-! Image conversion (C21, C72) and the alpha functions (C27, C73). -/
set_option autoImplicit false
namespace DevIL.ConvImage
open Utility Conv Channels

/-! ## Specification vocabulary

`Plain m` says that `m` is an image as the API produces it; `cval m x y z c` is the value of component `c` of a pixel. -/

/-- The value of channel `ch` of the pixel in column `x`, row `y`, slice `z`; `none` if the format has no such channel. -/
def channel (m : Img) (x y z : Nat) (ch : Chan) : Option Nat := (place m.format ch).bind (cval m x y z)

/-- The four formats of red, green and blue. -/
def colour : List Nat := [IL_RGB, IL_RGBA, IL_BGR, IL_BGRA]

/-- The component types in which an added alpha is opaque. -/
def opaqueTypes : List Nat := [IL_UNSIGNED_BYTE, IL_UNSIGNED_SHORT, IL_UNSIGNED_INT, IL_FLOAT, IL_DOUBLE]

instance (t : Nat) : Decidable (IsType t) := by unfold IsType; infer_instance

/-! ## C21 for images -/

/-- **C21, images.**  `ilConvertImage` between RGB, RGBA, BGR and BGRA, by whichever route it takes, gives an image of the
requested format and type with the same dimensions in which every pixel has its red, green and blue (in the new component
type, `conv`), its alpha if both formats have one, and an opaque alpha if only the new format has one.
Missing: the opaque alpha for signed and half-float components, where it is false (`C21_violated_*`). -/
theorem C21_image_partial {fl : FloatOps} {j : Junk} {m : Img} {df dt : Nat} {conv : Nat → Nat} (hfl : Sane fl)
    (hm : Plain m) (hf : m.format ∈ colour) (hdf : df ∈ colour) (hdt : IsType dt)
    (hfit : 12 * (pixels m * ilGetBpcType dt) < 4294967296) (hconv : compFn fl m.type dt = some conv) :
    ∃ m', ilConvertImage fl j df dt [m] = .ok (true, [m']) ∧ Plain m' ∧ SameDims m m' ∧ m'.format = df ∧ m'.type = dt ∧
      ∀ x y z, x < m.width → y < m.height → z < m.depth →
        (∀ ch, ch ≠ .alpha → channel m' x y z ch = (channel m x y z ch).map conv) ∧
        (place m.format .alpha ≠ none → place df .alpha ≠ none →
          channel m' x y z .alpha = (channel m x y z .alpha).map conv) ∧
        (place m.format .alpha = none → place df .alpha ≠ none → dt ∈ opaqueTypes →
          channel m' x y z .alpha = some (opaqueOf dt)) := by
  have hfg : (m.format, df) ∈ direct := by
    have : ∀ f ∈ colour, ∀ g ∈ colour, (f, g) ∈ direct := by decide
    exact this _ hf _ hdf
  obtain ⟨m', e, hp, hs, e1, e2, hc⟩ := convert_direct (j := j) hfl hm hfg hdt hfit hconv
  have hcol : ∀ f ∈ colour, ∀ ch, ch ≠ .alpha → place f ch ≠ none := by
    intro f hf ch hch
    simp only [colour, List.mem_cons, List.not_mem_nil, or_false] at hf
    rcases hf with h | h | h | h <;> subst h <;> cases ch <;> first | exact absurd rfl hch | (intro h; cases h)
  have key : ∀ x y z, x < m.width → y < m.height → z < m.depth → ∀ ch, place m.format ch ≠ none → place df ch ≠ none →
      channel m' x y z ch = (channel m x y z ch).map conv := by
    intro x y z hx hy hz ch h1 h2
    cases hk : place m.format ch with
    | none => exact absurd hk h1
    | some k =>
      cases ho : place df ch with
      | none => exact absurd ho h2
      | some o =>
        have := hc x y z hx hy hz ch o (by rw [e1]; exact ho)
        unfold channel
        rw [e1, ho, hk]
        rw [hk] at this
        exact this
  refine ⟨m', e, hp, hs, e1, e2, fun x y z hx hy hz => ⟨fun ch hch => key x y z hx hy hz ch (hcol _ hf _ hch) (hcol _ hdf _ hch),
    key x y z hx hy hz .alpha, fun h1 h2 h3 => ?_⟩⟩
  cases ho : place df .alpha with
  | none => exact absurd ho h2
  | some o =>
    have := hc x y z hx hy hz .alpha o (by rw [e1]; exact ho)
    unfold channel
    rw [e1, ho]
    rw [h1, e2] at this
    simp only [if_true] at this
    rw [Option.bind_some, this]
    congr 1
    simp only [opaqueTypes, List.mem_cons, List.not_mem_nil, or_false] at h3
    rcases h3 with h | h | h | h | h <;> subst h <;> rfl

/-- Some float conversion. -/
def zeroFloats : FloatOps := ⟨fun _ _ _ => 0, fun _ _ _ => 0⟩

/-- A 2x1 RGB image of bytes. -/
def rgbDemo : Img :=
  { width := 2, height := 1, depth := 1, bpp := 3, bpc := 1, bps := 6, plane := 6, size := 6, format := IL_RGB,
    type := IL_UNSIGNED_BYTE, origin := IL_ORIGIN_UPPER_LEFT, data := [10, 20, 30, 40, 50, 60] }

example : Plain rgbDemo ∧ rgbDemo.format ∈ colour ∧ IL_BGRA ∈ colour ∧ IsType IL_UNSIGNED_SHORT ∧ Sane zeroFloats ∧
    12 * (pixels rgbDemo * ilGetBpcType IL_UNSIGNED_SHORT) < 4294967296 ∧
    compFn zeroFloats rgbDemo.type IL_UNSIGNED_SHORT ≠ none ∧
    ilConvertImage zeroFloats ⟨fun _ => 0, fun _ => 0⟩ IL_BGRA IL_UNSIGNED_BYTE [rgbDemo] = .ok (true,
      [{ rgbDemo with format := IL_BGRA, bpp := 4, bps := 8, plane := 8, size := 8,
                      data := [30, 20, 10, 255, 60, 50, 40, 255] }]) := by
  refine ⟨⟨⟨by decide, by decide, by decide, by decide⟩, by decide, by decide, by decide, by decide, by decide, by decide,
    by decide, by decide⟩, by decide, by decide, by decide, ?_, by decide, ?_, by decide +kernel⟩
  · intro s t v
    exact Nat.pow_pos (by decide : 0 < 256)
  · exact fun h => nomatch (show some _ = none from h)

/-! ## C72 -/

/-- `m'` is `m` converted to format `df` and type `dt`: same dimensions, every channel kept (`Carried`). -/
def Converted (fl : FloatOps) (df dt : Nat) (m m' : Img) : Prop :=
  Plain m' ∧ SameDims m m' ∧ m'.format = df ∧ m'.type = dt ∧ ∃ conv, compFn fl m.type dt = some conv ∧ Carried conv m m'

/-- An image that can be converted channel by channel. -/
def Convertible (fl : FloatOps) (df dt : Nat) (m : Img) : Prop :=
  Plain m ∧ (m.format, df) ∈ direct ∧ 12 * (pixels m * ilGetBpcType dt) < 4294967296 ∧ compFn fl m.type dt ≠ none

theorem chain_all {fl : FloatOps} {j : Junk} {df dt : Nat} (hfl : Sane fl) (hdt : IsType dt) (ms : List Img)
    (h : ∀ m ∈ ms, Convertible fl df dt m) :
    ∃ ms', convertChain fl j df dt ms = .ok (true, ms') ∧ List.Forall₂ (Converted fl df dt) ms ms' := by
  induction ms with
  | nil => exact ⟨[], rfl, .nil⟩
  | cons m rest ih =>
    obtain ⟨ms', e, r⟩ := ih (fun q hq => h q (List.mem_cons_of_mem _ hq))
    obtain ⟨hp, hfg, hfit, hc⟩ := h m List.mem_cons_self
    obtain ⟨conv, hconv⟩ := Option.ne_none_iff_exists'.mp hc
    obtain ⟨m', e', h1, h2, h3, h4, h5⟩ := iConvertImage_direct (j := j) hfl hp hfg hdt hfit hconv
    refine ⟨m' :: ms', ?_, .cons ⟨h1, h2, h3, h4, conv, hconv, h5⟩ r⟩
    unfold convertChain
    rw [e', bind_ok]
    simp only [e, bind_ok, pure_eq_ok]

/-- **C72.**  When the current image does not have the requested component type, `ilConvertImage` converts every image of
its chain to the requested format and type.
Missing: a current image that already has the requested type, where it is false (`C72_violated_fast`,
`C72_violated_same`), and conversions that fail for a later image (`C72_violated_failure`). -/
theorem C72_chain_partial {fl : FloatOps} {j : Junk} {df dt : Nat} {m : Img} {rest : List Img} (hfl : Sane fl)
    (hdt : IsType dt) (hne : dt ≠ m.type) (h : ∀ q ∈ m :: rest, Convertible fl df dt q) :
    ∃ ms', ilConvertImage fl j df dt (m :: rest) = .ok (true, ms') ∧ List.Forall₂ (Converted fl df dt) (m :: rest) ms' := by
  obtain ⟨ms', e, r⟩ := chain_all (j := j) hfl hdt (m :: rest) h
  refine ⟨ms', ?_, r⟩
  unfold ilConvertImage
  simp only []
  rw [if_neg (fun h => hne h.2)]
  unfold tryFast
  rw [if_neg hne]
  exact e

example : ∀ q ∈ [rgbDemo, rgbDemo], Convertible zeroFloats IL_RGBA IL_UNSIGNED_SHORT q := by
  intro q hq
  have : q = rgbDemo := by simpa using hq
  subst this
  exact ⟨⟨⟨by decide, by decide, by decide, by decide⟩, by decide, by decide, by decide, by decide, by decide, by decide,
    by decide, by decide⟩, by decide, by decide, fun h => nomatch (show some _ = none from h)⟩

/-- **C72 fails on the fast path**: converting an animation from RGB to BGR converts the current frame only. -/
theorem C72_violated_fast : ilConvertImage zeroFloats ⟨fun _ => 0, fun _ => 0⟩ IL_BGR IL_UNSIGNED_BYTE [rgbDemo, rgbDemo] =
    .ok (true, [{ rgbDemo with format := IL_BGR, data := [30, 20, 10, 60, 50, 40] }, rgbDemo]) := by decide +kernel

/-- **C72 fails when the current frame already has the format**: the later frames are not looked at. -/
theorem C72_violated_same : ilConvertImage zeroFloats ⟨fun _ => 0, fun _ => 0⟩ IL_RGB IL_UNSIGNED_BYTE
    [rgbDemo, { rgbDemo with format := IL_BGR }] = .ok (true, [rgbDemo, { rgbDemo with format := IL_BGR }]) := by
  decide +kernel

/-- An empty frame. -/
def emptyFrame : Img :=
  { width := 0, height := 0, depth := 1, bpp := 3, bpc := 1, bps := 0, plane := 0, size := 0, format := IL_RGB,
    type := IL_UNSIGNED_BYTE, origin := IL_ORIGIN_UPPER_LEFT, data := [] }

/-- **C72 fails when a later frame cannot be converted**: the call reports failure with the first frame converted. -/
theorem C72_violated_failure : ilConvertImage zeroFloats ⟨fun _ => 0, fun _ => 0⟩ IL_RGBA IL_UNSIGNED_BYTE
    [rgbDemo, emptyFrame] = .ok (false,
      [{ rgbDemo with format := IL_RGBA, bpp := 4, bps := 8, plane := 8, size := 8,
                      data := [10, 20, 30, 255, 40, 50, 60, 255] }, emptyFrame]) := by decide +kernel

/-! ## C27 -/

theorem set_loop {a : AlphaVal} {m : Img} {word : Nat → UInt8} (hm : Plain m) (hoff : alphaOff m.format = m.bpp)
    (hw : setWord a m.type = .ok (some (m.bpc, word))) :
    ∃ m', setAlphaLoop a m (alphaOff m.format) = .ok m' ∧ Plain m' ∧ SameDims m m' ∧ m'.format = m.format ∧
      m'.type = m.type ∧ ∀ x y z, x < m.width → y < m.height → z < m.depth →
        (∀ c, c < m.bpp - 1 → cval m' x y z c = cval m x y z c) ∧
        (∀ b, b < m.bpc → comp m' x y z (m.bpp - 1) b = some (word b)) := by
  have hb0 : 0 < m.bpp := by rw [hm.bpp]; exact width_pos _
  have hlen : m.data.length = pixels m * m.bpp * m.bpc := by rw [hm.cons.2.2.2, hm.size]
  have hsz : u32 (m.width * m.height * m.depth * m.bpp) = pixels m * m.bpp := by
    have e : m.width * m.height * m.depth * m.bpp = pixels m * m.bpp := by unfold pixels; grind
    rw [e]
    refine u32_of_lt ?_
    have h1 := hm.fits
    rw [hm.size] at h1
    have := Nat.le_mul_of_pos_right (pixels m * m.bpp) hm.bpc0
    omega
  obtain ⟨d', e, l, s⟩ := put_spec (N := pixels m) (n := m.bpp) (k := m.bpc) (word := word) (d := m.data) hm.bpc0 hb0 hlen
  refine ⟨{ m with data := d' }, ?_, ?_, ⟨rfl, rfl, rfl, rfl⟩, rfl, rfl, fun x y z hx hy hz => ⟨fun c hc => ?_, fun b hb => ?_⟩⟩
  · unfold setAlphaLoop
    rw [hw, bind_ok]
    simp only [hsz, hoff, e, bind_ok, pure_eq_ok]
  · exact ⟨⟨hm.cons.1, hm.cons.2.1, hm.cons.2.2.1, l.trans hm.cons.2.2.2⟩, hm.fits, hm.w0, hm.h0, hm.d0, hm.type, hm.bpc,
      hm.format, hm.bpp⟩
  · have hdiv : m.data.length / m.bpc = pixels m * m.bpp := by rw [hlen, Nat.mul_div_cancel _ hm.bpc0]
    have hlt := idx_lt (pix_lt hx hy hz) (by omega : c < m.bpp)
    refine cval_bytes (m' := { m with data := d' }) rfl rfl rfl rfl l (by rw [hdiv]; exact hlt) (by rw [hdiv]; exact hlt)
      (fun b hb => ?_)
    rw [comp_eq, comp_eq]
    have := s _ c b (pix_lt hx hy hz) (by omega) hb
    rw [if_neg (by omega)] at this
    exact this
  · rw [comp_eq]
    have := s _ (m.bpp - 1) b (pix_lt hx hy hz) (by omega) hb
    rw [if_pos rfl] at this
    exact this

/-- The bytes that store the alpha in a component of the given type: the alpha scaled to the largest value and rounded, or
the number itself. -/
def alphaBytes (a : AlphaVal) (t b : Nat) : UInt8 :=
  if t = IL_UNSIGNED_BYTE then UInt8.ofNat (a.scaled 255 / 256 ^ b)
  else if t = IL_UNSIGNED_SHORT then UInt8.ofNat (a.scaled 65535 / 256 ^ b)
  else if t = IL_FLOAT then a.f32 b else a.f64 b

theorem setWord_of {a : AlphaVal} {t : Nat}
    (ht : t ∈ [IL_BYTE, IL_UNSIGNED_BYTE, IL_SHORT, IL_UNSIGNED_SHORT, IL_FLOAT, IL_DOUBLE]) :
    ∃ word, setWord a t = .ok (some (ilGetBpcType t, word)) ∧
      (t ∈ [IL_UNSIGNED_BYTE, IL_UNSIGNED_SHORT, IL_FLOAT, IL_DOUBLE] → ∀ b, word b = alphaBytes a t b) := by
  simp only [List.mem_cons, List.not_mem_nil, or_false] at ht
  rcases ht with h | h | h | h | h | h <;> subst h
  · exact ⟨_, rfl, fun h => absurd h (by decide)⟩
  · exact ⟨_, rfl, fun _ _ => rfl⟩
  · exact ⟨_, rfl, fun h => absurd h (by decide)⟩
  · exact ⟨_, rfl, fun _ _ => rfl⟩
  · exact ⟨_, rfl, fun _ _ => rfl⟩
  · exact ⟨_, rfl, fun _ _ => rfl⟩

/-- **C27.**  `ilSetAlpha` on an image of any format but `IL_ALPHA`, of byte, short, float or double components, gives an
image with an alpha channel in which every pixel has the alpha asked for and its colours unchanged.
Missing: the value of the alpha for signed components, 32-bit integer and half-float components, where it is false
(`C27_violated_*`). -/
theorem C27_set_partial {fl : FloatOps} {j : Junk} {a : AlphaVal} {m : Img} (hfl : Sane fl) (hm : Plain m)
    (hf : m.format ≠ IL_ALPHA)
    (ht : m.type ∈ [IL_BYTE, IL_UNSIGNED_BYTE, IL_SHORT, IL_UNSIGNED_SHORT, IL_FLOAT, IL_DOUBLE])
    (hfit : 12 * (pixels m * m.bpc) < 4294967296) :
    ∃ m' o, ilSetAlpha fl j a m = .ok (some m') ∧ Plain m' ∧ SameDims m m' ∧ m'.type = m.type ∧
      place m'.format .alpha = some o ∧
      ∀ x y z, x < m.width → y < m.height → z < m.depth →
        (∀ ch, ch ≠ .alpha → channel m' x y z ch = channel m x y z ch) ∧
        (m.type ∈ [IL_UNSIGNED_BYTE, IL_UNSIGNED_SHORT, IL_FLOAT, IL_DOUBLE] →
          ∀ b, b < m.bpc → comp m' x y z o b = some (alphaBytes a m.type b)) := by
  -- the image whose alpha is overwritten
  obtain ⟨m1, g, e1, hp1, hs1, et1, hg, hcar, hset⟩ : ∃ m1 g, (∀ r, setAlphaLoop a m1 (alphaOff g) = .ok r →
        ilSetAlpha fl j a m = .ok (some r)) ∧ Plain m1 ∧ SameDims m m1 ∧ m1.type = m.type ∧ m1.format = g ∧
      (∀ x y z, x < m.width → y < m.height → z < m.depth → ∀ ch, ch ≠ .alpha →
        channel m1 x y z ch = channel m x y z ch) ∧ g ∈ [IL_RGBA, IL_BGRA, IL_LUMINANCE_ALPHA] := by
    cases htg : alphaTarget m.format with
    | none =>
      refine ⟨m, m.format, fun r hr => ?_, hm, ⟨rfl, rfl, rfl, rfl⟩, rfl, rfl, fun _ _ _ _ _ _ _ _ => rfl, ?_⟩
      · unfold ilSetAlpha
        rw [htg]
        simp only [hr, bind_ok, pure_eq_ok]
      · have := hm.format
        simp only [formats, List.mem_cons, List.not_mem_nil, or_false] at this
        rcases this with h | h | h | h | h | h | h <;> rw [h] at htg hf ⊢ <;>
          first
            | (exfalso; exact absurd (show some _ = none from htg) (fun h => nomatch h))
            | decide
    | some g =>
      have hg : (m.format, g) ∈ direct ∧ g ∈ [IL_RGBA, IL_BGRA, IL_LUMINANCE_ALPHA] ∧
          ∀ ch, ch ≠ .alpha → place m.format ch ≠ none ∧ place g ch ≠ none := by
        have hfm := hm.format
        simp only [formats, List.mem_cons, List.not_mem_nil, or_false] at hfm
        rcases hfm with h | h | h | h | h | h | h <;> rw [h] at htg hf ⊢ <;>
          first
            | exact absurd rfl hf
            | (exfalso; exact absurd (show none = some g from htg) (fun h => nomatch h))
            | (have := Option.some.inj (show some _ = some g from htg)
               subst this
               refine ⟨by decide, by decide, fun ch hch => ?_⟩
               cases ch <;> first | exact absurd rfl hch | exact ⟨(fun h => nomatch h), (fun h => nomatch h)⟩)
      obtain ⟨m1, e, hp, hs, e1, e2, hc⟩ := convert_direct (j := j) (conv := id) hfl hm hg.1 hm.type (by rw [← hm.bpc]; exact hfit)
        (by simp [compFn])
      refine ⟨m1, g, fun r hr => ?_, hp, hs, e2, e1, fun x y z hx hy hz ch hch => ?_, hg.2.1⟩
      · unfold ilSetAlpha
        rw [htg]
        simp only [e, hr, bind_ok, pure_eq_ok]
      · obtain ⟨k, hk⟩ := Option.ne_none_iff_exists'.mp (hg.2.2 ch hch).1
        obtain ⟨o, ho⟩ := Option.ne_none_iff_exists'.mp (hg.2.2 ch hch).2
        have := hc x y z hx hy hz ch o (by rw [e1]; exact ho)
        unfold channel
        rw [e1, ho, hk]
        rw [hk] at this
        simpa using this
  obtain ⟨word, hw, hword⟩ := setWord_of (a := a) ht
  have hoff : alphaOff m1.format = m1.bpp ∧ place g .alpha = some (m1.bpp - 1) ∧
      ∀ ch o, ch ≠ .alpha → place g ch = some o → o < m1.bpp - 1 := by
    rw [hp1.bpp, hg]
    simp only [List.mem_cons, List.not_mem_nil, or_false] at hset
    rcases hset with h | h | h <;> rw [h] <;> refine ⟨rfl, rfl, fun ch o hch ho => ?_⟩ <;> cases ch <;>
      first
        | exact absurd rfl hch
        | (have := Option.some.inj (show some _ = some o from ho); subst this; decide)
  have hbpc : m1.bpc = m.bpc := by rw [hp1.bpc, hm.bpc, et1]
  obtain ⟨m', e', hp', hs', ef, et, hv⟩ := set_loop (a := a) (word := word) hp1 hoff.1
    (by rw [et1, hw, hp1.bpc, et1])
  refine ⟨m', m1.bpp - 1, e1 m' (by rw [← hg]; exact e'), hp', ?_, et.trans et1, by rw [ef, hg]; exact hoff.2.1,
    fun x y z hx hy hz => ⟨fun ch hch => ?_, fun hty b hb => ?_⟩⟩
  · exact ⟨hs'.1.trans hs1.1, hs'.2.1.trans hs1.2.1, hs'.2.2.1.trans hs1.2.2.1, hs'.2.2.2.trans hs1.2.2.2⟩
  · rw [← hcar x y z hx hy hz ch hch]
    unfold channel
    rw [ef]
    cases ho : place m1.format ch with
    | none => rfl
    | some o =>
      exact (hv x y z (by rw [hs1.1]; exact hx) (by rw [hs1.2.1]; exact hy) (by rw [hs1.2.2.1]; exact hz)).1 o
        (hoff.2.2 ch o hch (by rw [← hg]; exact ho))
  · rw [(hv x y z (by rw [hs1.1]; exact hx) (by rw [hs1.2.1]; exact hy) (by rw [hs1.2.2.1]; exact hz)).2 b (by rw [hbpc]; exact hb),
      hword hty]

/-- Alpha 0.5: 128 of 255, 32768 of 65535, 2147483648 of 4294967295; the floats 0.5. -/
def halfAlpha : AlphaVal :=
  { scaled := fun n => (n + 1) / 2, f32 := fun b => [0, 0, 0, 0x3F].getD b 0,
    f64 := fun b => [0, 0, 0, 0, 0, 0, 0xE0, 0x3F].getD b 0 }

example : rgbDemo.format ≠ IL_ALPHA ∧ rgbDemo.type ∈ [IL_UNSIGNED_BYTE] ∧
    ilSetAlpha zeroFloats ⟨fun _ => 0, fun _ => 0⟩ halfAlpha rgbDemo = .ok (some
      { rgbDemo with format := IL_RGBA, bpp := 4, bps := 8, plane := 8, size := 8,
                     data := [10, 20, 30, 128, 40, 50, 60, 128] }) :=
  ⟨by decide, by decide, by decide +kernel⟩

/-- One RGBA pixel of 32-bit integers. -/
def uintDemo : Img :=
  { width := 1, height := 1, depth := 1, bpp := 4, bpc := 4, bps := 16, plane := 16, size := 16, format := IL_RGBA,
    type := IL_UNSIGNED_INT, origin := IL_ORIGIN_UPPER_LEFT, data := List.replicate 16 7 }

/-- **C27 fails for 32-bit integers**: the scaled alpha is converted to an `ILushort`, which is undefined for 0.5. -/
theorem C27_violated_uint (fl : FloatOps) (j : Junk) : ilSetAlpha fl j halfAlpha uintDemo = .error .overflow := by rfl

/-- One RGBA pixel of half floats. -/
def halfDemo : Img :=
  { width := 1, height := 1, depth := 1, bpp := 4, bpc := 2, bps := 8, plane := 8, size := 8, format := IL_RGBA,
    type := IL_HALF, origin := IL_ORIGIN_UPPER_LEFT, data := [0, 0x3C, 0, 0x3C, 0, 0x3C, 0, 0x3C] }

/-- **C27 fails for half floats**: the call succeeds and changes nothing, whatever the alpha. -/
theorem C27_violated_half (fl : FloatOps) (j : Junk) (a : AlphaVal) : ilSetAlpha fl j a halfDemo = .ok (some halfDemo) := by rfl

/-! ## C73 -/

/-- **C73.**  `ilGetAlpha` returns the alpha of every pixel of an RGBA, BGRA, luminance-alpha or alpha image in order, in
the component type of the image.
Missing: images without alpha (`C73_opaque`) and half floats, where it is false. -/
theorem C73_get_partial {junk : Nat → UInt8} {m : Img} {o : Nat} (hm : Plain m) (ho : place m.format .alpha = some o)
    (hh : m.type ≠ IL_HALF) :
    ∃ out, ilGetAlpha junk m m.type = .ok (some out) ∧ out.length = pixels m * m.bpc ∧
      ∀ x y z b, x < m.width → y < m.height → z < m.depth → b < m.bpc →
        out[((z * m.height + y) * m.width + x) * m.bpc + b]? = comp m x y z o b := by
  have hb0 : 0 < m.bpp := by rw [hm.bpp]; exact width_pos _
  have hlen : m.data.length = pixels m * m.bpp * m.bpc := by rw [hm.cons.2.2.2, hm.size]
  have hf := hm.fits
  rw [hm.size] at hf
  have hle := Nat.le_mul_of_pos_right (pixels m * m.bpp) hm.bpc0
  have hsz : u32 (m.width * m.height * m.depth * m.bpp) = pixels m * m.bpp := by
    have e : m.width * m.height * m.depth * m.bpp = pixels m * m.bpp := by unfold pixels; grind
    rw [e]
    exact u32_of_lt (by omega)
  have hn : u32 (pixels m * m.bpp / m.bpp * m.bpc) = pixels m * m.bpc := by
    rw [Nat.mul_div_cancel _ hb0]
    refine u32_of_lt ?_
    have e : pixels m * m.bpp * m.bpc = pixels m * m.bpc * m.bpp := by grind
    have := Nat.le_mul_of_pos_right (pixels m * m.bpc) hb0
    omega
  unfold ilGetAlpha
  rw [if_neg hm.type.bpc, ← hm.bpc]
  simp only [hsz, hn]
  have hfm := hm.format
  by_cases hal : m.format = IL_ALPHA
  · have hn1 : m.bpp = 1 := by rw [hm.bpp, hal]; rfl
    have ho0 : o = 0 := by
      rw [hal] at ho
      exact (Option.some.inj (show some 0 = some o from ho)).symm
    rw [if_neg (by rw [hal]; decide), if_pos hal]
    rw [hn1, Nat.mul_one] at hlen
    have hsize : m.size = pixels m * m.bpc := by rw [hm.size, hn1, Nat.mul_one]
    obtain ⟨d', e, l, s⟩ := memcpy_get (dst := alloc junk (pixels m * m.bpc)) (src := m.data) (dOff := 0) (sOff := 0) (n := m.size)
      (by omega) (by rw [alloc_length]; omega)
    refine ⟨d', by simp only [e, bind_ok, pure_eq_ok], by rw [l, alloc_length], fun x y z b hx hy hz hb => ?_⟩
    have := idx_lt (pix_lt hx hy hz) hb
    rw [s, if_pos ⟨by omega, by rw [hsize, Nat.zero_add]; exact this⟩, comp_eq, hn1, ho0]
    simp only [Nat.zero_add, Nat.sub_zero, Nat.mul_one, Nat.add_zero]
  · have hoff : alphaOff m.format = m.bpp ∧ o = m.bpp - 1 ∧
        ¬ (m.format = IL_RGB ∨ m.format = IL_BGR ∨ m.format = IL_LUMINANCE ∨ m.format = IL_COLOUR_INDEX) := by
      rw [hm.bpp]
      simp only [formats, List.mem_cons, List.not_mem_nil, or_false] at hfm
      rcases hfm with h | h | h | h | h | h | h <;> rw [h] at ho hal ⊢ <;>
        first
          | exact absurd rfl hal
          | (exfalso; exact absurd (show none = some o from ho) (fun h => nomatch h))
          | exact ⟨rfl, (Option.some.inj (show some _ = some o from ho)).symm, by decide⟩
    rw [if_neg hoff.2.2, if_neg hal, caseBpc_of hm.type hh, ← hm.bpc]
    simp only []
    rw [hoff.1]
    obtain ⟨d', e, l, s⟩ := get_spec (N := pixels m) (n := m.bpp) (k := m.bpc) (src := m.data)
      (d := alloc junk (pixels m * m.bpc)) hm.bpc0 hb0 hlen (alloc_length _ _)
    refine ⟨d', by simp only [e, bind_ok, pure_eq_ok], by rw [l, alloc_length], fun x y z b hx hy hz hb => ?_⟩
    rw [s _ b (pix_lt hx hy hz) hb, comp_eq, hoff.2.1]

/-- **C73, no alpha.**  For an image without alpha `ilGetAlpha` returns one component with all bits set per pixel, which is full
alpha for the unsigned integer types. -/
theorem C73_opaque {junk : Nat → UInt8} {m : Img} (hm : Plain m) (ho : place m.format .alpha = none) :
    ilGetAlpha junk m m.type = .ok (some (List.replicate (pixels m * m.bpc) 0xFF)) := by
  have hb0 : 0 < m.bpp := by rw [hm.bpp]; exact width_pos _
  have hf := hm.fits
  rw [hm.size] at hf
  have hle := Nat.le_mul_of_pos_right (pixels m * m.bpp) hm.bpc0
  have hsz : u32 (m.width * m.height * m.depth * m.bpp) = pixels m * m.bpp := by
    have e : m.width * m.height * m.depth * m.bpp = pixels m * m.bpp := by unfold pixels; grind
    rw [e]
    exact u32_of_lt (by omega)
  have hn : u32 (pixels m * m.bpp / m.bpp * m.bpc) = pixels m * m.bpc := by
    rw [Nat.mul_div_cancel _ hb0]
    refine u32_of_lt ?_
    have e : pixels m * m.bpp * m.bpc = pixels m * m.bpc * m.bpp := by grind
    have := Nat.le_mul_of_pos_right (pixels m * m.bpc) hb0
    omega
  unfold ilGetAlpha
  rw [if_neg hm.type.bpc, ← hm.bpc]
  simp only [hsz, hn]
  have hfm := hm.format
  simp only [formats, List.mem_cons, List.not_mem_nil, or_false] at hfm
  rw [if_pos]
  · rfl
  · rcases hfm with h | h | h | h | h | h | h <;> rw [h] at ho ⊢ <;>
      first
        | (exfalso; exact absurd (show some _ = none from ho) (fun h => nomatch h))
        | decide

example : place rgbDemo.format .alpha = none ∧
    ilGetAlpha (fun _ => 7) rgbDemo IL_UNSIGNED_BYTE = .ok (some [255, 255]) := ⟨by decide, by decide⟩

/-- Two luminance-alpha pixels of shorts. -/
def laDemo : Img :=
  { width := 1, height := 2, depth := 1, bpp := 2, bpc := 2, bps := 4, plane := 8, size := 8, format := IL_LUMINANCE_ALPHA,
    type := IL_UNSIGNED_SHORT, origin := IL_ORIGIN_UPPER_LEFT, data := [1, 2, 3, 4, 5, 6, 7, 8] }

example : Plain laDemo ∧ place laDemo.format .alpha = some 1 ∧
    ilGetAlpha (fun _ => 9) laDemo IL_UNSIGNED_SHORT = .ok (some [3, 4, 7, 8]) :=
  ⟨⟨⟨by decide, by decide, by decide, by decide⟩, by decide, by decide, by decide, by decide, by decide, by decide,
    by decide, by decide⟩, by decide, by decide⟩

/-- **C73 fails for half floats**: what is returned are the unset contents of the allocated block. -/
theorem C73_violated_half (junk : Nat → UInt8) : ilGetAlpha junk halfDemo IL_HALF = .ok (some (alloc junk 2)) := by rfl

/-- One RGB pixel of floats. -/
def floatDemo : Img :=
  { width := 1, height := 1, depth := 1, bpp := 3, bpc := 4, bps := 12, plane := 12, size := 12, format := IL_RGB,
    type := IL_FLOAT, origin := IL_ORIGIN_UPPER_LEFT, data := List.replicate 12 0 }

/-- **C73 fails for floats without alpha**: all bytes are 0xFF, which is not the float 1.0 (00 00 80 3F) but a NaN. -/
theorem C73_violated_float (junk : Nat → UInt8) :
    ilGetAlpha junk floatDemo IL_FLOAT = .ok (some [0xFF, 0xFF, 0xFF, 0xFF]) ∧
    leBytes 4 (opaqueOf IL_FLOAT) ≠ [0xFF, 0xFF, 0xFF, 0xFF] := ⟨by rfl, by decide⟩

end DevIL.ConvImage
