import Verif.Lemmas.Key
import Verif.Lemmas.Pal
/-! The key colour (C170, C171), `ilModAlpha` (C172), palettes applied and set (C173, C174), `iluSwapColours` (C175). -/
set_option autoImplicit false
namespace DevIL.Key
open Utility Conv Channels ConvImage

/-! ## Specification vocabulary

`channel m x y z ch`, `Plain` and `SameDims` are those of image conversion (Props/ConvImage.lean). -/

/-- A component with the value zero: the number 0, or the negative zero of the floating-point types. -/
def Zero (t v : Nat) : Prop := v = 0 ∨ t = IL_FLOAT ∧ v = 2 ^ 31 ∨ t = IL_DOUBLE ∧ v = 2 ^ 63

/-- The pixel in column `x`, row `y` is black. -/
def IsBlack (m : Img) (x y : Nat) : Prop := ∀ ch, ch ≠ .alpha → ∃ v, channel m x y 0 ch = some v ∧ Zero m.type v

/-- The key colour of red, green and blue 0. -/
def Colour.IsBlack (k : Colour) : Prop := k.red = 0 ∧ k.green = 0 ∧ k.blue = 0

theorem zeroVal_iff (t v : Nat) : zeroVal t v = true ↔ Zero t v := by
  unfold zeroVal Zero
  simp [or_assoc]

theorem black_iff {m : Img} {x y : Nat} (hm : Plain m) (h3 : m.format = IL_RGB ∨ m.format = IL_BGR) :
    Black m.type m.bpc m.data (y * m.width + x) = true ↔ IsBlack m x y := by
  have hb3 : m.bpp = 3 := by
    rw [hm.bpp]
    rcases h3 with h | h <;> rw [h] <;> rfl
  have hz : ∀ c, ((((comps m.bpc m.data)[(y * m.width + x) * 3 + c]?).map (zeroVal m.type)).getD false = true) ↔
      ∃ v, cval m x y 0 c = some v ∧ Zero m.type v := by
    intro c
    unfold cval
    rw [hb3, Nat.zero_mul, Nat.zero_add]
    cases (comps m.bpc m.data)[(y * m.width + x) * 3 + c]? with
    | none => simp
    | some v => simp [zeroVal_iff]
  unfold Black
  simp only [show List.range 3 = [0, 1, 2] from rfl, List.all_cons, List.all_nil, Bool.and_true, Bool.and_eq_true, hz]
  unfold IsBlack channel
  rcases h3 with h | h
  · rw [h]
    constructor
    · rintro ⟨h0, h1, h2⟩ ch hch
      cases ch
      · exact h0
      · exact h1
      · exact h2
      · exact absurd rfl hch
    · intro hall
      exact ⟨hall .red (by decide), hall .green (by decide), hall .blue (by decide)⟩
  · rw [h]
    constructor
    · rintro ⟨h0, h1, h2⟩ ch hch
      cases ch
      · exact h2
      · exact h1
      · exact h0
      · exact absurd rfl hch
    · intro hall
      exact ⟨hall .blue (by decide), hall .green (by decide), hall .red (by decide)⟩

/-! ## C170 -/

/-- **C170.**  With `IL_USE_KEY_COLOUR` enabled and black as key colour, converting an RGB or BGR image of one slice and any type
but half to RGBA or BGRA keeps red, green and blue of every pixel (in the new component type, `conv`), makes every black pixel
transparent, and every other pixel opaque.
Missing (and false): every other key colour; opaque alpha for signed types; images of several slices and later frames. -/
theorem C170_black_partial {fl : FloatOps} {j : Junk} {junk : Nat → UInt8} {key : Colour} {m : Img} {df dt : Nat}
    {conv : Nat → Nat} (hfl : Sane fl) (_hkey : key.IsBlack)
    (hm : Plain m) (hf : m.format = IL_RGB ∨ m.format = IL_BGR) (hh : m.type ≠ IL_HALF) (hd : m.depth = 1)
    (h4 : 4 * m.size < 2 ^ 32) (hdf : df = IL_RGBA ∨ df = IL_BGRA) (hdt : IsType dt)
    (hfit : 12 * (pixels m * ilGetBpcType dt) < 4294967296) (hconv : compFn fl m.type dt = some conv) :
    ∃ m', ilConvertImage fl j junk df dt (ilKeyColour key ⟨true, [m]⟩) = .ok (true, ⟨true, [m']⟩) ∧
      Plain m' ∧ SameDims m m' ∧ m'.format = df ∧ m'.type = dt ∧
      ∀ x y, x < m.width → y < m.height →
        (∀ ch, ch ≠ .alpha → channel m' x y 0 ch = (channel m x y 0 ch).map conv) ∧
        (IsBlack m x y → channel m' x y 0 .alpha = some (conv 0)) ∧
        (¬ IsBlack m x y → m.type ∈ opaqueTypes → channel m' x y 0 .alpha = some (conv (opaqueOf m.type))) := by
  obtain ⟨k, ek, hp, hs, kt, kf, hc⟩ := addKey (junk := junk) hm hf hh hd h4
  have hfg : (k.format, df) ∈ direct := by
    rw [kf]
    rcases hdf with h | h <;> subst h <;> split <;> decide
  have hpx : pixels k = pixels m := by unfold pixels; rw [hs.1, hs.2.1, hs.2.2.1]
  obtain ⟨m', e, hp', hs', ef, et, car⟩ := iConvertImage_direct (j := j) hfl hp hfg hdt (by rw [hpx]; exact hfit)
    (by rw [kt]; exact hconv)
  refine ⟨m', ?_, hp', ⟨hs'.1.trans hs.1, hs'.2.1.trans hs.2.1, hs'.2.2.1.trans hs.2.2.1, hs'.2.2.2.trans hs.2.2.2⟩, ef, et,
    fun x y hx hy => ?_⟩
  · unfold ilConvertImage ilKeyColour
    have hne : ¬ (df = m.format ∧ dt = m.type) := by
      rintro ⟨h, -⟩
      rcases hdf with h' | h' <;> rcases hf with h'' | h'' <;> rw [h', h''] at h <;> exact absurd h (by decide)
    have hfast : tryFast m df dt = .ok none := by
      unfold tryFast
      split
      · refine C20_refused m df ?_
        rintro (⟨-, h⟩ | ⟨h, -⟩)
        · rcases hdf with h' | h' <;> rw [h'] at h <;> exact absurd h (by decide)
        · rcases hf with h' | h' <;> rw [h'] at h <;> exact absurd h (by decide)
      · rfl
    simp only []
    rw [if_neg hne, hfast]
    simp only [bind_ok, keyed, if_true, ek, pure_eq_ok, Option.getD_some, chain_one e]
  · have hz : 0 < k.depth := hp.d0
    have hcar : ∀ ch kc, place k.format ch = some kc → channel m' x y 0 ch = (cval k x y 0 kc).map conv := by
      intro ch kc hkc
      have hall : ∀ f, f = IL_RGBA ∨ f = IL_BGRA → ∀ ch, place f ch ≠ none := by
        rintro f (h | h) ch <;> subst h <;> cases ch <;> exact fun h => nomatch h
      obtain ⟨o, ho⟩ := Option.ne_none_iff_exists'.mp (hall _ hdf ch)
      have := car x y 0 (by rw [hs.1]; exact hx) (by rw [hs.2.1]; exact hy) hz ch o (by rw [ef]; exact ho)
      rw [hkc] at this
      unfold channel
      rw [ef, ho]
      exact this
    have ha : place k.format .alpha = some 3 := by rw [kf]; split <;> rfl
    obtain ⟨c1, c2, c3⟩ := hc x y hx hy
    refine ⟨fun ch hch => ?_, fun hb => ?_, fun hb ht => ?_⟩
    · obtain ⟨o, ho, ho', ho3⟩ : ∃ o, place m.format ch = some o ∧ place k.format ch = some o ∧ o < 3 := by
        rw [kf]
        rcases hf with h | h <;> rw [h] <;> cases ch <;>
          first
            | exact absurd rfl hch
            | exact ⟨_, rfl, rfl, by decide⟩
      rw [hcar ch o ho', c1 o ho3]
      unfold channel
      rw [ho]
      rfl
    · rw [hcar .alpha 3 ha, c2 ((black_iff hm hf).mpr hb)]
      rfl
    · rw [hcar .alpha 3 ha, c3 (by
        cases hB : Black m.type m.bpc m.data (y * m.width + x) with
        | false => rfl
        | true => exact absurd ((black_iff hm hf).mp hB) hb) ht]
      rfl

/-- A black and a white pixel. -/
def keyDemo : Img :=
  { width := 2, height := 1, depth := 1, bpp := 3, bpc := 1, bps := 6, plane := 6, size := 6, format := IL_RGB,
    type := IL_UNSIGNED_BYTE, origin := IL_ORIGIN_UPPER_LEFT, data := [0, 0, 0, 255, 255, 255] }

def noJunk : Junk := ⟨fun _ => 0, fun _ => 0⟩

/-- White: the bits of 1.0 in each component. -/
def white : Colour := ⟨0x3F800000, 0x3F800000, 0x3F800000, 0x3F800000⟩

example : Plain keyDemo := by
  refine ⟨⟨rfl, rfl, rfl, rfl⟩, ?_, ?_, ?_, ?_, ?_, rfl, ?_, rfl⟩ <;> decide
example : IsBlack keyDemo 0 0 ∧ ¬ IsBlack keyDemo 1 0 := by
  constructor
  · intro ch hch
    cases ch
    · exact ⟨0, by decide, .inl rfl⟩
    · exact ⟨0, by decide, .inl rfl⟩
    · exact ⟨0, by decide, .inl rfl⟩
    · exact absurd rfl hch
  · intro h
    obtain ⟨v, hv, hz⟩ := h .red (by decide)
    have e : v = 255 := Option.some.inj (hv.symm.trans (show channel keyDemo 1 0 0 .red = some 255 by decide))
    subst e
    unfold Zero at hz
    revert hz
    decide

/-- **C170 fails for every key colour**: what `ilKeyColour` is given makes no difference to any later conversion. -/
theorem C170_violated_ignored (fl : FloatOps) (j : Junk) (junk : Nat → UInt8) (df dt : Nat) (key key' : Colour) (s : St) :
    ilConvertImage fl j junk df dt (ilKeyColour key s) = ilConvertImage fl j junk df dt (ilKeyColour key' s) := rfl

/-- **C170 fails for white**: the black pixel becomes transparent, and the white one stays opaque. -/
theorem C170_violated_white : ilConvertImage zeroFloats noJunk (fun _ => 0) IL_RGBA IL_UNSIGNED_BYTE
    (ilKeyColour white ⟨true, [keyDemo]⟩) = .ok (true, ⟨true, [{ keyDemo with
      format := IL_RGBA, bpp := 4, bps := 8, plane := 8, size := 8, data := [0, 0, 0, 0, 255, 255, 255, 255] }]⟩) := by
  decide +kernel

/-- **C170 fails for later frames**: only the current image gets the key. -/
theorem C170_violated_frames : ilConvertImage zeroFloats noJunk (fun _ => 0) IL_RGBA IL_UNSIGNED_BYTE
    ⟨true, [keyDemo, keyDemo]⟩ = .ok (true, ⟨true,
      [{ keyDemo with format := IL_RGBA, bpp := 4, bps := 8, plane := 8, size := 8,
                      data := [0, 0, 0, 0, 255, 255, 255, 255] },
       { keyDemo with format := IL_RGBA, bpp := 4, bps := 8, plane := 8, size := 8,
                      data := [0, 0, 0, 255, 255, 255, 255, 255] }]⟩) := by
  decide +kernel

/-- The two pixels as two slices. -/
def deepDemo : Img := { keyDemo with width := 1, depth := 2, bps := 3, plane := 3 }

/-- **C170 fails for several slices**: only the first slice is copied, and the conversion reads beyond the new buffer. -/
theorem C170_violated_slices : ilConvertImage zeroFloats noJunk (fun _ => 0) IL_RGBA IL_UNSIGNED_BYTE
    ⟨true, [deepDemo]⟩ = .error .oobRead := by decide +kernel

/-! ## C171 -/

/-- **C171.**  A conversion that fails leaves an image without later frames as it was, if `IL_USE_KEY_COLOUR` is not enabled.
Missing (and false): with it enabled; with later frames (`C72_violated_failure`). -/
theorem C171_kept_partial {fl : FloatOps} {j : Junk} {junk : Nat → UInt8} {df dt : Nat} {m : Img} {s : St}
    (h : ilConvertImage fl j junk df dt ⟨false, [m]⟩ = .ok (false, s)) : s = ⟨false, [m]⟩ := by
  unfold ilConvertImage at h
  simp only [] at h
  split at h
  · cases h
  · cases hf : tryFast m df dt with
    | error f => rw [hf] at h; cases h
    | ok r =>
      rw [hf] at h
      simp only [bind_ok] at h
      cases r with
      | some m' => cases h
      | none =>
        simp only [keyed, pure_eq_ok, bind_ok, Bool.false_eq_true, if_false, convertChain] at h
        cases hc : iConvertImage fl j m df dt with
        | error f => rw [hc] at h; cases h
        | ok q =>
          rw [hc] at h
          simp only [bind_ok] at h
          cases q with
          | some m' => cases h
          | none =>
            simp only [bind_ok] at h
            cases h
            rfl

example : ilConvertImage zeroFloats noJunk (fun _ => 0) 0 IL_UNSIGNED_BYTE ⟨false, [keyDemo]⟩ =
    .ok (false, ⟨false, [keyDemo]⟩) := by decide +kernel

/-- **C171 fails with the key colour enabled**: a conversion to a format that does not exist fails, and the image has become an
RGBA image. -/
theorem C171_violated_key : ilConvertImage zeroFloats noJunk (fun _ => 0) 0 IL_UNSIGNED_BYTE ⟨true, [keyDemo]⟩ =
    .ok (false, ⟨true, [{ keyDemo with
      format := IL_RGBA, bpp := 4, bps := 8, plane := 8, size := 8, data := [0, 0, 0, 0, 255, 255, 255, 255] }]⟩) := by
  decide +kernel

/-! ## C172 -/

theorem mod_loop {a : AlphaVal} {m : Img} {off : Nat} {word : Nat → UInt8} (hm : Plain m) (hoff : off = m.bpp)
    (hw : modWord a m.type = some (m.bpc, word)) :
    ∃ m', modLoop a m off = .ok m' ∧ Plain m' ∧ SameDims m m' ∧ m'.format = m.format ∧
      m'.type = m.type ∧ ∀ x y z, x < m.width → y < m.height → z < m.depth →
        (∀ c, c < m.bpp - 1 → cval m' x y z c = cval m x y z c) ∧
        (∀ b, b < m.bpc → comp m' x y z (m.bpp - 1) b = some (word b)) := by
  have hb0 : 0 < m.bpp := by rw [hm.bpp]; exact width_pos _
  have hlen : m.data.length = pixels m * m.bpp * m.bpc := by rw [hm.cons.2.2.2, hm.size]
  have hsz : u32 (m.width * m.height * m.depth * m.bpp) = pixels m * m.bpp := by
    have e : m.width * m.height * m.depth * m.bpp = pixels m * m.bpp := by unfold pixels; grind
    rw [e]
    refine u32_of_lt ?_
    have h1 := hm.fits
    rw [hm.size] at h1
    have := Nat.le_mul_of_pos_right (pixels m * m.bpp) hm.bpc0
    omega
  obtain ⟨d', e, l, s⟩ := put_spec (N := pixels m) (n := m.bpp) (k := m.bpc) (word := word) (d := m.data) hm.bpc0 hb0 hlen
  refine ⟨{ m with data := d' }, ?_, ?_, ⟨rfl, rfl, rfl, rfl⟩, rfl, rfl, fun x y z hx hy hz => ⟨fun c hc => ?_, fun b hb => ?_⟩⟩
  · unfold modLoop
    rw [hw]
    simp only [hsz, hoff, e, bind_ok, pure_eq_ok]
  · exact ⟨⟨hm.cons.1, hm.cons.2.1, hm.cons.2.2.1, l.trans hm.cons.2.2.2⟩, hm.fits, hm.w0, hm.h0, hm.d0, hm.type, hm.bpc,
      hm.format, hm.bpp⟩
  · have hdiv : m.data.length / m.bpc = pixels m * m.bpp := by rw [hlen, Nat.mul_div_cancel _ hm.bpc0]
    have hlt := idx_lt (pix_lt hx hy hz) (by omega : c < m.bpp)
    refine cval_bytes (m' := { m with data := d' }) rfl rfl rfl rfl l (by rw [hdiv]; exact hlt) (by rw [hdiv]; exact hlt)
      (fun b hb => ?_)
    rw [comp_eq, comp_eq]
    have := s _ c b (pix_lt hx hy hz) (by omega) hb
    rw [if_neg (by omega)] at this
    exact this
  · rw [comp_eq]
    have := s _ (m.bpp - 1) b (pix_lt hx hy hz) (by omega) hb
    rw [if_pos rfl] at this
    exact this

/-- The bytes that store the alpha in a component of the given type: the alpha scaled to the largest value and rounded, or the
number itself. -/
def stored (a : AlphaVal) (t b : Nat) : UInt8 :=
  if t = IL_UNSIGNED_BYTE then UInt8.ofNat (a.scaled 255 / 256 ^ b)
  else if t = IL_UNSIGNED_SHORT then UInt8.ofNat (a.scaled 65535 / 256 ^ b)
  else if t = IL_UNSIGNED_INT then UInt8.ofNat (a.scaled 4294967295 / 256 ^ b)
  else if t = IL_FLOAT then a.f32 b else a.f64 b

theorem modWord_of {a : AlphaVal} {t : Nat} (ht : IsType t) (hh : t ≠ IL_HALF) :
    ∃ word, modWord a t = some (ilGetBpcType t, word) ∧ (t ∈ opaqueTypes → ∀ b, word b = stored a t b) := by
  unfold IsType at ht
  simp only [List.mem_cons, List.not_mem_nil, or_false] at ht
  rcases ht with h | h | h | h | h | h | h | h | h <;> subst h
  · exact ⟨_, rfl, fun h => absurd h (by decide)⟩
  · exact ⟨_, rfl, fun _ _ => rfl⟩
  · exact ⟨_, rfl, fun h => absurd h (by decide)⟩
  · exact ⟨_, rfl, fun _ _ => rfl⟩
  · exact ⟨_, rfl, fun h => absurd h (by decide)⟩
  · exact ⟨_, rfl, fun _ _ => rfl⟩
  · exact ⟨_, rfl, fun _ _ => rfl⟩
  · exact ⟨_, rfl, fun _ _ => rfl⟩
  · exact absurd rfl hh

/-- **C172.**  `ilModAlpha` on an RGB, BGR or luminance image of any type but half gives an image with an alpha channel in which every
pixel has its colours unchanged and the alpha asked for.
Missing (and false): images that have an alpha channel; signed and half components. -/
theorem C172_mod_partial {fl : FloatOps} {j : Junk} {a : AlphaVal} {m : Img} (hfl : Sane fl) (hm : Plain m)
    (hf : m.format = IL_RGB ∨ m.format = IL_BGR ∨ m.format = IL_LUMINANCE) (hh : m.type ≠ IL_HALF)
    (hfit : 12 * (pixels m * m.bpc) < 4294967296) :
    ∃ m' o, ilModAlpha fl j a m = .ok m' ∧ Plain m' ∧ SameDims m m' ∧ m'.type = m.type ∧
      place m'.format .alpha = some o ∧
      ∀ x y z, x < m.width → y < m.height → z < m.depth →
        (∀ ch, ch ≠ .alpha → channel m' x y z ch = channel m x y z ch) ∧
        (m.type ∈ opaqueTypes → ∀ b, b < m.bpc → comp m' x y z o b = some (stored a m.type b)) := by
  obtain ⟨g, off, htg, hoff, hdir, hal, hch⟩ : ∃ g off, modTarget m.format = some g ∧
      (if m.format = IL_LUMINANCE then 2 else 4) = off ∧ (m.format, g) ∈ direct ∧
      (width g = off ∧ place g .alpha = some (off - 1)) ∧
      ∀ ch, ch ≠ .alpha → ∃ k o, place m.format ch = some k ∧ place g ch = some o ∧ o < off - 1 := by
    rcases hf with h | h | h <;> rw [h] <;> refine ⟨_, _, rfl, rfl, by decide, ⟨rfl, rfl⟩, fun ch hch => ?_⟩ <;> cases ch <;>
      first
        | exact absurd rfl hch
        | exact ⟨_, _, rfl, rfl, by decide⟩
  obtain ⟨m1, e, hp, hs, e1, e2, hc⟩ := convert_direct (j := j) (conv := id) hfl hm hdir hm.type (by rw [← hm.bpc]; exact hfit)
    (by simp [compFn])
  obtain ⟨word, hw, hword⟩ := modWord_of (a := a) hm.type hh
  have hbpc : m1.bpc = m.bpc := by rw [hp.bpc, hm.bpc, e2]
  have hbpp : off = m1.bpp := by rw [hp.bpp, e1, hal.1]
  obtain ⟨m', e', hp', hs', ef, et, hv⟩ := mod_loop (a := a) (word := word) hp hbpp (by rw [e2, hw, hbpc, hm.bpc])
  refine ⟨m', off - 1, ?_, hp', ⟨hs'.1.trans hs.1, hs'.2.1.trans hs.2.1, hs'.2.2.1.trans hs.2.2.1, hs'.2.2.2.trans hs.2.2.2⟩,
    et.trans e2, by rw [ef, e1]; exact hal.2, fun x y z hx hy hz => ?_⟩
  · unfold ilModAlpha
    rw [htg]
    simp only [e, bind_ok, hoff]
    exact e'
  · obtain ⟨v1, v2⟩ := hv x y z (by rw [hs.1]; exact hx) (by rw [hs.2.1]; exact hy) (by rw [hs.2.2.1]; exact hz)
    refine ⟨fun ch hch' => ?_, fun ht b hb => ?_⟩
    · obtain ⟨k, o, hk, ho, hlt⟩ := hch ch hch'
      have := hc x y z hx hy hz ch o (by rw [e1]; exact ho)
      rw [hk] at this
      unfold channel
      rw [ef, e1, ho, hk]
      show cval m' x y z o = cval m x y z k
      rw [v1 o (by omega), this]
      simp
    · rw [hbpp, v2 b (by omega), hword ht]

example : ilModAlpha zeroFloats noJunk halfAlpha keyDemo = .ok { keyDemo with
    format := IL_RGBA, bpp := 4, bps := 8, plane := 8, size := 8, data := [0, 0, 0, 128, 255, 255, 255, 128] } := by
  decide +kernel

/-- **C172 fails for every image that has an alpha channel already**: nothing is changed, whatever the alpha. -/
theorem C172_violated_alpha (fl : FloatOps) (j : Junk) (a : AlphaVal) (m : Img)
    (h : m.format = IL_RGBA ∨ m.format = IL_BGRA ∨ m.format = IL_LUMINANCE_ALPHA ∨ m.format = IL_ALPHA) :
    ilModAlpha fl j a m = .ok m := by
  unfold ilModAlpha
  rcases h with h | h | h | h <;> rw [h] <;> rfl

/-! ## C173 -/

/-- **C173.**  A call of `ilApplyPal` that fails leaves the current image as it was: every call does.
Missing (and false): that the image gets the palette. -/
theorem C173_kept_partial {φ : Type} (rest : φ → Img → C (Bool × Option Img)) (file : φ) (cur : Option Img) :
    ∃ ok, ilApplyPal rest file cur = .ok (ok, cur) := by
  refine ⟨false, ?_⟩
  cases cur with
  | none => rfl
  | some m =>
    unfold ilApplyPal applyGuard
    have : (m.format != IL_BYTE || m.format != IL_UNSIGNED_BYTE) = true := by
      rw [Bool.or_eq_true, bne_iff_ne, bne_iff_ne]
      by_cases h : m.format = IL_BYTE
      · right; rw [h]; decide
      · exact .inl h
    simp only [this, if_true]
    rfl

/-- **C173 fails for every image**: no palette file and no image make the call succeed. -/
theorem C173_violated_always {φ : Type} (rest : φ → Img → C (Bool × Option Img)) (file : φ) (cur : Option Img)
    (m : Option Img) : ilApplyPal rest file cur ≠ .ok (true, m) := by
  cases cur with
  | none => intro h; cases h
  | some i =>
    unfold ilApplyPal applyGuard
    have : (i.format != IL_BYTE || i.format != IL_UNSIGNED_BYTE) = true := by
      rw [Bool.or_eq_true, bne_iff_ne, bne_iff_ne]
      by_cases h : i.format = IL_BYTE
      · right; rw [h]; decide
      · exact .inl h
    simp only [this, if_true]
    intro h
    cases h

/-! ## C174 -/

/-- **C174.**  With an image bound, `ilSetPal` with a palette of the caller gives the image a copy of that palette: its bytes, size
and type; without one it leaves the image without a palette.
Missing (and false): no image bound; NULL; the palette of the current image itself. -/
theorem C174_set_partial {junk : Nat → UInt8} {p old : Pal} (hl : p.data.length = p.size) :
    ilSetPal junk (.caller p) (some old) =
      .ok (if p.size ≠ 0 ∧ p.type ≠ IL_PAL_NONE then p else ⟨[], 0, IL_PAL_NONE⟩) := by
  unfold ilSetPal
  simp only []
  have hp : present p = true ↔ p.size ≠ 0 ∧ p.type ≠ IL_PAL_NONE := by
    unfold present
    simp only [Bool.and_eq_true, decide_eq_true_eq, bne_iff_ne]
    constructor
    · rintro ⟨⟨-, h⟩, h'⟩; exact ⟨h, h'⟩
    · rintro ⟨h, h'⟩
      refine ⟨⟨?_, h⟩, h'⟩
      intro e
      rw [e] at hl
      exact h hl.symm
  by_cases h : p.size ≠ 0 ∧ p.type ≠ IL_PAL_NONE
  · rw [if_pos (hp.mpr h), if_pos h]
    have e := Palette.memcpy_all (junk := junk) hl
    rw [e]
    rfl
  · rw [if_neg (fun hh => h (hp.mp hh)), if_neg h]
    rfl

/-- A palette of one colour. -/
def palDemo : Pal := ⟨[1, 2, 3], 3, IL_PAL_RGB24⟩

example : palDemo.data.length = palDemo.size ∧
    ilSetPal (fun _ => 0) (.caller palDemo) (some ⟨[], 0, IL_PAL_NONE⟩) = .ok palDemo := ⟨rfl, by decide +kernel⟩

/-- **C174 fails without an image**: the current image is used without a check, whatever the palette. -/
theorem C174_violated_unbound (junk : Nat → UInt8) (arg : PalArg) : ilSetPal junk arg none = .error .nullDeref := rfl

/-- **C174 fails for the image's own palette**: it is freed and then copied. -/
theorem C174_violated_own (junk : Nat → UInt8) (p : Pal) (hp : present p = true) :
    ilSetPal junk .own (some p) = .error .useAfterFree := by
  unfold ilSetPal
  simp only [hp, if_true]

example : present palDemo = true := by decide

/-! ## C175 -/

/-- The formats in the two orders of red and blue. -/
def swapped (f : Nat) : Nat :=
  if f = IL_RGB then IL_BGR else if f = IL_BGR then IL_RGB else if f = IL_RGBA then IL_BGRA else IL_RGBA

/-- **C175.**  If the last toolkit function looked at an existing image of several components, `iluSwapColours` on an RGB, BGR, RGBA or
BGRA image stores the same red, green, blue and alpha in the other order.
Missing (and false): no toolkit function before; an image closed since; one of a single component. -/
theorem C175_swap_partial {fl : FloatOps} {j : Junk} {m l : Img} (hfl : Sane fl) (hm : Plain m) (hf : m.format ∈ colour)
    (hl : l.bpp ≠ 1) (hfit : 12 * (pixels m * m.bpc) < 4294967296) :
    ∃ m', iluSwapColours fl j (.image l) m = .ok (true, m') ∧ Plain m' ∧ SameDims m m' ∧ m'.format = swapped m.format ∧
      m'.type = m.type ∧ ∀ x y z ch, x < m.width → y < m.height → z < m.depth → channel m' x y z ch = channel m x y z ch := by
  obtain ⟨g, hg, hsw, hdir, hpl⟩ : ∃ g, swapFormat m.format = some g ∧ g = swapped m.format ∧ (m.format, g) ∈ direct ∧
      ∀ ch, place m.format ch = none ↔ place g ch = none := by
    simp only [colour, List.mem_cons, List.not_mem_nil, or_false] at hf
    rcases hf with h | h | h | h <;> rw [h] <;> refine ⟨_, rfl, rfl, by decide, fun ch => ?_⟩ <;> cases ch <;>
      simp [place, IL_RGB, IL_RGBA, IL_BGR, IL_BGRA]
  obtain ⟨m', e, hp, hs, e1, e2, hc⟩ := convert_direct (j := j) (conv := id) hfl hm hdir hm.type (by rw [← hm.bpc]; exact hfit)
    (by simp [compFn])
  refine ⟨m', ?_, hp, hs, by rw [e1, hsw], e2, fun x y z ch hx hy hz => ?_⟩
  · unfold iluSwapColours
    simp only []
    rw [if_neg (fun h => hl h.1), hg]
    simp only [e, bind_ok]
    rfl
  · unfold channel
    cases hk : place m.format ch with
    | none => rw [e1, (hpl ch).mp hk]; rfl
    | some k =>
      obtain ⟨o, ho⟩ := Option.ne_none_iff_exists'.mp (fun h => by
        have := (hpl ch).mpr h; rw [hk] at this; cases this)
      have := hc x y z hx hy hz ch o (by rw [e1]; exact ho)
      rw [hk] at this
      rw [e1, ho]
      show cval m' x y z o = cval m x y z k
      rw [this]
      simp

example : iluSwapColours zeroFloats noJunk (.image rgbDemo) rgbDemo = .ok (true,
    { rgbDemo with format := IL_BGR, data := [30, 20, 10, 60, 50, 40] }) := by decide +kernel

/-- **C175 fails if no toolkit function was called before**: for every image, a null pointer is followed. -/
theorem C175_violated_first (fl : FloatOps) (j : Junk) (m : Img) : iluSwapColours fl j .null m = .error .nullDeref := rfl

/-- **C175 fails if the image the toolkit looked at last was closed since.** -/
theorem C175_violated_closed (fl : FloatOps) (j : Junk) (m : Img) : iluSwapColours fl j .freed m = .error .useAfterFree := rfl

/-- **C175 fails if that image has a single component**: the call is refused for every current image. -/
theorem C175_violated_other (fl : FloatOps) (j : Junk) (m l : Img) (h1 : l.bpp = 1) (hf : l.format = IL_LUMINANCE) :
    iluSwapColours fl j (.image l) m = .ok (false, m) := by
  unfold iluSwapColours
  simp only []
  rw [if_pos ⟨h1, by rw [hf]; decide⟩]
  rfl

end DevIL.Key
