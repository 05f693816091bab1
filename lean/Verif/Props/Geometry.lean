import Verif.Props.ConvImage
import Verif.Model.Image
/-! Geometry under sequences of image operations (C15). -/
set_option autoImplicit false
namespace DevIL.ConvImage
open Utility Conv Channels

/-! ## Specification vocabulary

`Plain m` (Lemmas/ConvImage.lean) says that the reported width, height, depth, components per pixel, bytes per component,
bytes per row, plane and image agree with each other and with the format, type and real length of the data. -/

/-- An operation on the current image. -/
inductive Op where
  | resize (w h d : Nat)
  | convert (format type : Nat)
  | flip
  | mirror
  | swapColours
  | addAlpha
  | removeAlpha

/-- A failing call leaves the image as it is. -/
def orSame (m : Img) : Option Img → Img
  | none => m
  | some m' => m'

/-- One call of the API; `w` is the unknown content of allocated memory. -/
def step (fl : FloatOps) (j : Junk) (w : Nat → UInt8) (m : Img) : Op → C Img
  | .resize x y z => .ok (Image.ilResizeImage w m x y z m.bpp m.bpc)
  | .convert df dt => do
      let r ← ilConvertImage fl j df dt [m]
      pure (match r.2 with | [m'] => m' | _ => m)
  | .flip => Manip.ilFlipImage m
  | .mirror => Manip.iMirror w m
  | .swapColours => do let r ← ilSwapColours m; pure (orSame m r)
  | .addAlpha => do let r ← ilAddAlpha w m; pure (orSame m r)
  | .removeAlpha => do let r ← ilRemoveAlpha w m; pure (orSame m r)

/-- A sequence of calls. -/
def run (fl : FloatOps) (j : Junk) (w : Nat → UInt8) : List Op → Img → C Img
  | [], m => pure m
  | o :: os, m => do let m ← step fl j w m o; run fl j w os m

/-- The calls covered: sizes stay below 4 GB, alpha is added to images of one slice and removed from images of one slice of
bytes, and `IL_RGB` and `IL_LUMINANCE_ALPHA` are not converted to `IL_ALPHA`. -/
def Allowed (m : Img) : Op → Prop
  | .resize w h d => 0 < w ∧ 0 < h ∧ 0 < d ∧ w * h * d * m.bpp * m.bpc < 2 ^ 32
  | .convert df dt => df ∈ formats ∧ IsType dt ∧ 12 * (pixels m * ilGetBpcType dt) < 2 ^ 32 ∧
      ¬ (m.format = IL_RGB ∧ df = IL_ALPHA) ∧ ¬ (m.format = IL_LUMINANCE_ALPHA ∧ df = IL_ALPHA)
  | .flip => True
  | .mirror => m.width * m.bpp < 2 ^ 31
  | .swapColours => True
  | .addAlpha => m.depth = 1 ∧ 4 * m.size < 2 ^ 32
  | .removeAlpha => m.depth = 1 ∧ m.bpc = 1

/-- Every call of the sequence is covered, in the state in which it is made. -/
def AllAllowed (fl : FloatOps) (j : Junk) (w : Nat → UInt8) : List Op → Img → Prop
  | [], _ => True
  | o :: os, m => Allowed m o ∧ ∀ m', step fl j w m o = .ok m' → AllAllowed fl j w os m'

/-! ## Proof -/

theorem Plain.of_same {m m' : Img} (hm : Plain m) (s : m.SameShape m') : Plain m' := by
  have hcons := hm.cons.of_same s
  have ew : m'.width = m.width := by rw [s.1]
  have eh : m'.height = m.height := by rw [s.1]
  have ed : m'.depth = m.depth := by rw [s.1]
  have ep : m'.bpp = m.bpp := by rw [s.1]
  have ec : m'.bpc = m.bpc := by rw [s.1]
  have et : m'.type = m.type := by rw [s.1]
  have es : m'.size = m.size := by rw [s.1]
  have ef : m'.format = m.format := by rw [s.1]
  exact ⟨hcons, by rw [es]; exact hm.fits, by rw [ew]; exact hm.w0, by rw [eh]; exact hm.h0, by rw [ed]; exact hm.d0,
    by rw [et]; exact hm.type, by rw [ec, et]; exact hm.bpc, by rw [ef]; exact hm.format, by rw [ep, ef]; exact hm.bpp⟩

theorem plain_of_coloured {m : Img} (h : Coloured m) (w0 : 0 < m.width) (h0 : 0 < m.height) (d0 : 0 < m.depth) : Plain m := by
  have : m.format ∈ formats ∧ m.bpp = width m.format := by
    have hb := h.bpp
    unfold Is3 Is4 at hb
    rcases hb with ⟨hf | hf, hb⟩ | ⟨hf | hf, hb⟩ <;> rw [hf, hb] <;> decide
  exact ⟨h.cons, h.fits, w0, h0, d0, h.type, h.bpc, this.1, this.2⟩

theorem bpc_cases {t : Nat} (ht : IsType t) :
    ilGetBpcType t = 1 ∨ ilGetBpcType t = 2 ∨ ilGetBpcType t = 4 ∨ ilGetBpcType t = 8 := by
  unfold IsType at ht
  simp only [List.mem_cons, List.not_mem_nil, or_false] at ht
  rcases ht with h | h | h | h | h | h | h | h | h <;> rw [h] <;> decide

theorem plain_swap {m : Img} (hm : Plain m) : ∃ r, ilSwapColours m = .ok r ∧ Plain (orSame m r) := by
  unfold ilSwapColours
  split
  · exact ⟨none, rfl, hm⟩
  · cases hf : swapFormat m.format with
    | none =>
      simp only
      split
      · exact ⟨some m, rfl, hm⟩
      · exact ⟨none, rfl, hm⟩
    | some f =>
      simp only
      have hw : f ∈ formats ∧ width f = width m.format ∧ 3 ≤ width f := by
        have := hm.format
        simp only [formats, List.mem_cons, List.not_mem_nil, or_false] at this
        rcases this with h | h | h | h | h | h | h <;> rw [h] at hf ⊢ <;>
          first
            | (exfalso; exact absurd (show none = some f from hf) (fun h => nomatch h))
            | (have := Option.some.inj (show some _ = some f from hf); subst this; decide)
      have hbpc : m.bpc = 1 ∨ m.bpc = 2 ∨ m.bpc = 4 ∨ m.bpc = 8 := by rw [hm.bpc]; exact bpc_cases hm.type
      have hn : 3 ≤ m.bpp := by rw [hm.bpp, ← hw.2.1]; exact hw.2.2
      have hle : m.height * m.width * m.bpp * m.bpc ≤ m.size := by
        rw [hm.size]
        unfold pixels
        refine Nat.mul_le_mul_right _ (Nat.mul_le_mul_right _ (Nat.mul_le_mul_right _ ?_))
        exact Nat.le_mul_of_pos_left _ hm.d0
      have hlt : m.height * m.width * m.bpp < 4294967296 := by
        have := hm.fits
        have := Nat.le_mul_of_pos_right (m.height * m.width * m.bpp) hm.bpc0
        omega
      obtain ⟨d', e, l, -⟩ := swap_spec (N := m.height * m.width) (n := m.bpp) (k := m.bpc) (d := m.data) hm.bpc0 hn
        (by rw [hm.cons.2.2.2]; exact hle)
      refine ⟨some { m with format := f, data := d' }, ?_, ?_⟩
      · rw [if_pos hbpc, show m.bpp * m.width * m.height = m.height * m.width * m.bpp by grind, u32_of_lt hlt,
          forStep_mul (by omega), e]
        rfl
      · exact ⟨⟨hm.cons.1, hm.cons.2.1, hm.cons.2.2.1, l.trans hm.cons.2.2.2⟩, hm.fits, hm.w0, hm.h0, hm.d0, hm.type, hm.bpc,
          hw.1, hm.bpp.trans hw.2.1.symm⟩

theorem is3_of_bpp {m : Img} (hm : Plain m) (h : m.bpp = 3) : Is3 m.format := by
  have := hm.format
  have hb := hm.bpp
  rw [h] at hb
  simp only [formats, List.mem_cons, List.not_mem_nil, or_false] at this
  rcases this with h | h | h | h | h | h | h <;> rw [h] at hb ⊢ <;> revert hb <;> decide

theorem is4_of_bpp {m : Img} (hm : Plain m) (h : m.bpp = 4) : Is4 m.format := by
  have := hm.format
  have hb := hm.bpp
  rw [h] at hb
  simp only [formats, List.mem_cons, List.not_mem_nil, or_false] at this
  rcases this with h | h | h | h | h | h | h <;> rw [h] at hb ⊢ <;> revert hb <;> decide

theorem plain_add {m : Img} {w : Nat → UInt8} (hm : Plain m) (hd : m.depth = 1) (h4 : 4 * m.size < 2 ^ 32) :
    ∃ r, ilAddAlpha w m = .ok r ∧ Plain (orSame m r) := by
  by_cases hb : m.bpp = 3
  · by_cases hh : m.type = IL_HALF
    · refine ⟨none, ?_, hm⟩
      unfold ilAddAlpha
      rw [if_neg (by omega), hh]
      rfl
    · have h3 := is3_of_bpp hm hb
      obtain ⟨m', e, hc, e1, e2, e3, -⟩ := C26_add_partial w m (hm.coloured (.inl h3)) hh hd hm.h0 h3 h4
      exact ⟨_, e, show Plain m' from plain_of_coloured hc (e1 ▸ hm.w0) (e2 ▸ hm.h0) (e3 ▸ hm.d0)⟩
  · exact ⟨none, by unfold ilAddAlpha; rw [if_pos hb]; rfl, hm⟩

theorem plain_remove {m : Img} {w : Nat → UInt8} (hm : Plain m) (hd : m.depth = 1) (h1 : m.bpc = 1) :
    ∃ r, ilRemoveAlpha w m = .ok r ∧ Plain (orSame m r) := by
  by_cases hb : m.bpp = 4
  · have h4 := is4_of_bpp hm hb
    obtain ⟨m', e, hc, e1, e2, e3, -⟩ := C26_remove_partial w m (hm.coloured (.inr h4)) h1 hd hm.h0 h4
    exact ⟨_, e, show Plain m' from plain_of_coloured hc (e1 ▸ hm.w0) (e2 ▸ hm.h0) (e3 ▸ hm.d0)⟩
  · exact ⟨none, by unfold ilRemoveAlpha; rw [if_pos hb]; rfl, hm⟩

theorem plain_resize {m : Img} {junk : Nat → UInt8} {w h d : Nat} (hm : Plain m) (hw : 0 < w) (hh : 0 < h) (hd : 0 < d)
    (hf : w * h * d * m.bpp * m.bpc < 2 ^ 32) : Plain (Image.ilResizeImage junk m w h d m.bpp m.bpc) := by
  have hb0 : 0 < m.bpp := by rw [hm.bpp]; exact width_pos _
  have e0 : m.bpp * m.bpc * w * h * d = w * h * d * m.bpp * m.bpc := by grind
  have l2 : m.bpp * m.bpc * w * h ≤ m.bpp * m.bpc * w * h * d := Nat.le_mul_of_pos_right _ hd
  have l1 : m.bpp * m.bpc * w ≤ m.bpp * m.bpc * w * h := Nat.le_mul_of_pos_right _ hh
  have l0 : m.bpp * m.bpc ≤ m.bpp * m.bpc * w := Nat.le_mul_of_pos_right _ hw
  have u0 : u32 (m.bpp * m.bpc) = m.bpp * m.bpc := u32_of_lt (by omega)
  have u1 : u32 (m.bpp * m.bpc * w) = m.bpp * m.bpc * w := u32_of_lt (by omega)
  have u2 : u32 (m.bpp * m.bpc * w * h) = m.bpp * m.bpc * w * h := u32_of_lt (by omega)
  have u3 : u32 (m.bpp * m.bpc * w * h * d) = m.bpp * m.bpc * w * h * d := u32_of_lt (by omega)
  refine ⟨⟨?_, ?_, ?_, ?_⟩, ?_, hw, hh, hd, hm.type, hm.bpc, hm.format, hm.bpp⟩ <;>
    simp only [Image.ilResizeImage, u0, u1, u2, u3]
  · grind
  · grind
  · grind
  · rw [alloc_length]
  · omega

theorem plain_convert {fl : FloatOps} {j : Junk} {m : Img} {df dt : Nat} (hm : Plain m) (hdf : df ∈ formats)
    (hdt : IsType dt) (hfit : 12 * (pixels m * ilGetBpcType dt) < 4294967296)
    (h1 : ¬ (m.format = IL_RGB ∧ df = IL_ALPHA)) (h2 : ¬ (m.format = IL_LUMINANCE_ALPHA ∧ df = IL_ALPHA)) :
    OkOr (ilConvertImage fl j df dt [m]) (fun r => ∃ m', r.2 = [m'] ∧ Plain m') := by
  unfold ilConvertImage
  simp only []
  split
  · exact .inl ⟨_, rfl, m, rfl, hm⟩
  · rename_i hsame
    have hslow : OkOr (convertChain fl j df dt [m]) (fun r => ∃ m', r.2 = [m'] ∧ Plain m') := by
      have hc := convert_okOr (fl := fl) (junk := j.a) (junk' := j.b) (st := m.type) (f := m.format) (g := df) hdt hm.comps_length
        hfit h1 h2
      have htake : m.data.take m.size = m.data := by rw [← hm.cons.2.2.2, List.take_length]
      unfold convertChain
      refine OkOr.bind (P := fun r => ∀ m', r = some m' → Plain m') ?_ ?_
      · unfold iConvertImage
        split
        · exact .inl ⟨none, rfl, fun _ h => nomatch h⟩
        · rw [if_neg (by rw [hm.cons.2.2.2]; omega), htake, ← hm.bpc]
          refine hc.bind fun r hr => ?_
          cases r with
          | none => exact .inl ⟨none, rfl, fun _ h => nomatch h⟩
          | some cs =>
            refine .inl ⟨_, rfl, fun m' h => ?_⟩
            cases h
            exact setFormat_plain hm hdt hdf hfit (hr cs rfl)
      · intro r hr
        cases r with
        | none => exact .inl ⟨_, rfl, m, rfl, hm⟩
        | some m' => exact .inl ⟨_, rfl, m', rfl, hr m' rfl⟩
    by_cases ht : dt = m.type
    · by_cases hh : m.type = IL_HALF
      · unfold tryFast
        rw [if_pos ht, fast_half hh, bind_ok]
        exact hslow
      · by_cases hd : (Is3 m.format ∧ Is3 df) ∨ (Is4 m.format ∧ Is4 df)
        · obtain ⟨m', e, hp, -⟩ := fast_direct hm hh hd (fun h => hsame ⟨h, ht⟩)
          unfold tryFast
          rw [if_pos ht, e, bind_ok]
          exact .inl ⟨_, rfl, _, rfl, hp⟩
        · unfold tryFast
          rw [if_pos ht, C20_refused m df hd, bind_ok]
          exact hslow
    · unfold tryFast
      rw [if_neg ht]
      exact hslow

theorem plain_step {fl : FloatOps} {j : Junk} {w : Nat → UInt8} {m : Img} {o : Op} (hm : Plain m) (ho : Allowed m o) :
    OkOr (step fl j w m o) Plain := by
  cases o with
  | resize x y z => exact .inl ⟨_, rfl, plain_resize hm ho.1 ho.2.1 ho.2.2.1 ho.2.2.2⟩
  | convert df dt =>
    refine (plain_convert hm ho.1 ho.2.1 ho.2.2.1 ho.2.2.2.1 ho.2.2.2.2).bind ?_
    rintro ⟨b, l⟩ ⟨m', h, hp⟩
    simp only at h
    subst h
    exact .inl ⟨m', rfl, hp⟩
  | flip =>
    obtain ⟨m', e, s, -⟩ := Manip.C16_flip m hm.cons hm.fits
    exact .inl ⟨m', e, hm.of_same s⟩
  | mirror =>
    obtain ⟨m', e, s, -⟩ := Manip.C17_mirror w m hm.cons hm.fits ho (by rw [hm.bpc]; exact bpc_cases hm.type)
    exact .inl ⟨m', e, hm.of_same s⟩
  | swapColours =>
    obtain ⟨r, e, hp⟩ := plain_swap hm
    exact .inl ⟨_, by simp only [step, e, bind_ok, pure_eq_ok], hp⟩
  | addAlpha =>
    obtain ⟨r, e, hp⟩ := plain_add (w := w) hm ho.1 ho.2
    exact .inl ⟨_, by simp only [step, e, bind_ok, pure_eq_ok], hp⟩
  | removeAlpha =>
    obtain ⟨r, e, hp⟩ := plain_remove (w := w) hm ho.1 ho.2
    exact .inl ⟨_, by simp only [step, e, bind_ok, pure_eq_ok], hp⟩

/-- **C15.**  Any sequence of resizing, converting, flipping, mirroring, swapping colours, adding and removing alpha, in any
order, leaves an image whose reported geometry agrees with its data, without ever leaving a buffer; the only other outcome
is the undefined float-to-integer conversion of a luminance (see C23).
Missing: the calls that `Allowed` excludes; for adding and removing alpha on several slices and for resizing to another
number of components it is false (`C15_violated_*`). -/
theorem C15_partial {fl : FloatOps} {j : Junk} {w : Nat → UInt8} (os : List Op) (m : Img) (hm : Plain m)
    (ha : AllAllowed fl j w os m) :
    (∃ m', run fl j w os m = .ok m' ∧ Plain m') ∨ run fl j w os m = .error .overflow := by
  induction os generalizing m with
  | nil => exact .inl ⟨m, rfl, hm⟩
  | cons o os ih =>
    rcases plain_step (fl := fl) (j := j) (w := w) hm ha.1 with ⟨m', e, hp⟩ | e
    · rcases ih m' hp (ha.2 m' e) with ⟨m2, e2, h2⟩ | e2
      · exact .inl ⟨m2, by rw [run, e, bind_ok]; exact e2, h2⟩
      · exact .inr (by rw [run, e, bind_ok]; exact e2)
    · exact .inr (by rw [run, e]; rfl)

example : run zeroFloats ⟨fun _ => 0, fun _ => 0⟩ (fun _ => 0)
    [.flip, .convert IL_BGRA IL_UNSIGNED_BYTE, .swapColours, .removeAlpha, .mirror, .addAlpha, .convert IL_RGBA IL_UNSIGNED_SHORT]
      rgbDemo = .ok
      { rgbDemo with format := IL_RGBA, bpp := 4, bpc := 2, bps := 16, plane := 16, size := 16, type := IL_UNSIGNED_SHORT,
                     origin := IL_ORIGIN_LOWER_LEFT,
                     data := [40, 40, 50, 50, 60, 60, 255, 255, 10, 10, 20, 20, 30, 30, 255, 255] } := by decide +kernel

example : AllAllowed zeroFloats ⟨fun _ => 0, fun _ => 0⟩ (fun _ => 0) [.flip, .addAlpha] rgbDemo := by
  refine ⟨trivial, fun m' h => ⟨?_, fun _ _ => trivial⟩⟩
  have : Manip.ilFlipImage rgbDemo = .ok { rgbDemo with origin := IL_ORIGIN_LOWER_LEFT } := by decide +kernel
  have h' : Manip.ilFlipImage rgbDemo = .ok m' := h
  rw [this] at h'
  cases h'
  exact ⟨by decide, by decide⟩

/-- **C15 fails when alpha is removed from an image of several slices**: the reported size is that of both slices, the
data that of one. -/
theorem C15_violated_remove : ∃ m m', Plain m ∧
    run zeroFloats ⟨fun _ => 0, fun _ => 0⟩ (fun _ => 0) [.convert IL_RGBA IL_UNSIGNED_BYTE, .removeAlpha] m = .ok m' ∧
    m'.size = 6 ∧ m'.data.length = 3 ∧ ¬ m'.Consistent := by
  refine ⟨twoSlices, { twoSlices with data := [1, 2, 3] }, ?_, by decide +kernel, rfl, rfl, ?_⟩
  · exact ⟨⟨by decide, by decide, by decide, by decide⟩, by decide, by decide, by decide, by decide, by decide, by decide,
      by decide, by decide⟩
  · rintro ⟨_, _, _, h⟩
    exact absurd h (by decide)

/-- **C15 fails when the number of components is changed by resizing**: the format is still RGB, so the number of
components no longer is that of the format. -/
theorem C15_violated_resize (junk : Nat → UInt8) :
    Plain rgbDemo ∧ (Image.ilResizeImage junk rgbDemo 2 1 1 4 1).bpp = 4 ∧
    (Image.ilResizeImage junk rgbDemo 2 1 1 4 1).format = IL_RGB ∧ ¬ Plain (Image.ilResizeImage junk rgbDemo 2 1 1 4 1) := by
  refine ⟨⟨⟨by decide, by decide, by decide, by decide⟩, by decide, by decide, by decide, by decide, by decide, by decide,
      by decide, by decide⟩, rfl, rfl, fun h => ?_⟩
  exact absurd h.bpp (by decide : (4 : Nat) ≠ width IL_RGB)

end DevIL.ConvImage
