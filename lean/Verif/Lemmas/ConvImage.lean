import Verif.Model.ConvImage
import Verif.Props.Channels
/-! Lemmas on image conversion. -/
set_option autoImplicit false
namespace DevIL.ConvImage
open Utility Conv Channels

/-- An image as the API produces it: consistent geometry that fits 32 bits, at least one pixel, and as many components and
bytes per component as its format (not colour index) and type say. -/
structure Plain (m : Img) : Prop where
  cons : m.Consistent
  fits : m.size < 2 ^ 32
  w0 : 0 < m.width
  h0 : 0 < m.height
  d0 : 0 < m.depth
  type : IsType m.type
  bpc : m.bpc = ilGetBpcType m.type
  format : m.format ∈ formats
  bpp : m.bpp = width m.format

/-- Number of pixels. -/
def pixels (m : Img) : Nat := m.depth * m.height * m.width

/-- The value of component `c` of the pixel in column `x`, row `y`, slice `z`. -/
def cval (m : Img) (x y z c : Nat) : Option Nat := (comps m.bpc m.data)[((z * m.height + y) * m.width + x) * m.bpp + c]?

theorem Plain.bpc0 {m : Img} (h : Plain m) : 0 < m.bpc := by rw [h.bpc]; exact Nat.pos_of_ne_zero h.type.bpc

theorem Plain.pix0 {m : Img} (h : Plain m) : 0 < pixels m := Nat.mul_pos (Nat.mul_pos h.d0 h.h0) h.w0

theorem Plain.size {m : Img} (h : Plain m) : m.size = pixels m * m.bpp * m.bpc := px_count h.cons

theorem Plain.comps_length {m : Img} (h : Plain m) : (comps m.bpc m.data).length = pixels m * width m.format := by
  rw [DevIL.comps_length, h.cons.2.2.2, h.size, Nat.mul_div_cancel _ h.bpc0, h.bpp]

theorem bppFormat_eq {f : Nat} (h : f ∈ formats) : ilGetBppFormat f = width f := by
  simp only [formats, List.mem_cons, List.not_mem_nil, or_false] at h
  rcases h with h | h | h | h | h | h | h <;> subst h <;> rfl

theorem setFormat_plain {m : Img} {df dt : Nat} {cs : List Nat} (hm : Plain m) (hdt : IsType dt) (hdf : df ∈ formats)
    (hfit : 12 * (pixels m * ilGetBpcType dt) < 4294967296) (hl : cs.length = pixels m * width df) :
    Plain (setFormat m df dt (bytesOf (ilGetBpcType dt) cs)) := by
  have hbpp := bppFormat_eq hdf
  have hw : width df ≤ 4 := width_le df
  have hk : 0 < ilGetBpcType dt := Nat.pos_of_ne_zero hdt.bpc
  have htot : pixels m * ilGetBpcType dt * width df < 2 ^ 32 := by
    have := Nat.mul_le_mul_left (pixels m * ilGetBpcType dt) hw
    omega
  have hdh : 0 < m.depth * m.height := Nat.mul_pos hm.d0 hm.h0
  have e1 : m.width * ilGetBpcType dt * width df ≤ pixels m * ilGetBpcType dt * width df := by
    have := Nat.le_mul_of_pos_left (m.width * ilGetBpcType dt * width df) hdh
    have e : m.depth * m.height * (m.width * ilGetBpcType dt * width df) = pixels m * ilGetBpcType dt * width df := by
      unfold pixels; grind
    omega
  have e0 : m.width * ilGetBpcType dt ≤ m.width * ilGetBpcType dt * width df :=
    Nat.le_mul_of_pos_right _ (width_pos df)
  have e2 : m.width * ilGetBpcType dt * width df * m.height ≤ pixels m * ilGetBpcType dt * width df := by
    have := Nat.le_mul_of_pos_left (m.width * ilGetBpcType dt * width df * m.height) hm.d0
    have e : m.depth * (m.width * ilGetBpcType dt * width df * m.height) = pixels m * ilGetBpcType dt * width df := by
      unfold pixels; grind
    omega
  have u1 : u32 (m.width * ilGetBpcType dt) = m.width * ilGetBpcType dt := u32_of_lt (by omega)
  have u2 : u32 (m.width * ilGetBpcType dt * width df) = m.width * ilGetBpcType dt * width df := u32_of_lt (by omega)
  have u3 : u32 (m.width * ilGetBpcType dt * width df * m.height) = m.width * ilGetBpcType dt * width df * m.height :=
    u32_of_lt (by omega)
  have e4 : m.depth * (m.width * ilGetBpcType dt * width df * m.height) = pixels m * ilGetBpcType dt * width df := by
    unfold pixels; grind
  have u4 : u32 (m.depth * (m.width * ilGetBpcType dt * width df * m.height)) = pixels m * ilGetBpcType dt * width df := by
    rw [e4]; exact u32_of_lt htot
  refine ⟨⟨?_, ?_, ?_, ?_⟩, ?_, hm.w0, hm.h0, hm.d0, hdt, rfl, hdf, hbpp⟩ <;>
    simp only [setFormat, hbpp, u1, u2, u3, u4]
  · grind
  · grind
  · unfold pixels; grind
  · rw [bytesOf_length, hl]; grind
  · exact htot

/-- Component values after storing components. -/
theorem cval_setFormat {m : Img} {df dt : Nat} {cs : List Nat} (hdt : IsType dt) (hdf : df ∈ formats)
    (hv : ∀ v ∈ cs, v < 256 ^ ilGetBpcType dt) (x y z c : Nat) :
    cval (setFormat m df dt (bytesOf (ilGetBpcType dt) cs)) x y z c =
      cs[((z * m.height + y) * m.width + x) * width df + c]? := by
  unfold cval
  simp only [setFormat, bppFormat_eq hdf]
  rw [comps_bytesOf (Nat.pos_of_ne_zero hdt.bpc) hv]

/-- The values a float conversion produces fit the destination type. -/
def Sane (fl : FloatOps) : Prop := ∀ s t v, fl.cast s t v < 256 ^ ilGetBpcType t

theorem conv_lt {fl : FloatOps} {s t v : Nat} {conv : Nat → Nat} (hfl : Sane fl) (hs : IsType s) (ht : IsType t)
    (hc : compFn fl s t = some conv) (hv : v < 256 ^ ilGetBpcType s) : conv v < 256 ^ ilGetBpcType t := by
  by_cases hst : s = t
  · subst hst
    simp only [compFn, if_true, Option.some.injEq] at hc
    subst hc
    exact hv
  · by_cases hi : IsInt s ∧ IsInt t
    · have p8 : ∀ {u}, IsInt u → 256 ^ ilGetBpcType u = 2 ^ bits u := by
        intro u hu
        unfold IsInt at hu
        simp only [List.mem_cons, List.not_mem_nil, or_false] at hu
        rcases hu with h | h | h | h | h | h <;> subst h <;> decide
      rw [p8 hi.1] at hv
      rw [p8 hi.2]
      rcases Nat.lt_trichotomy (bits s) (bits t) with h | h | h
      · obtain ⟨f, ef, hf⟩ := widen_fn (fl := fl) hi.1 hi.2 h
        rw [hc] at ef
        cases ef
        rw [hf v hv]
        rcases bits_cases (t := s) with e | e | e <;> rcases bits_cases (t := t) with e' | e' | e' <;>
          rw [e, e'] at h ⊢ <;> rw [e] at hv <;> simp only [Nat.reducePow, Nat.reduceSub, Nat.reduceDiv] at hv ⊢ <;> omega
      · exfalso
        have : switchOne fl s t = none := by
          have h1 := hi.1
          have h2 := hi.2
          unfold IsInt at h1 h2
          simp only [List.mem_cons, List.not_mem_nil, or_false] at h1 h2
          rcases h1 with hs | hs | hs | hs | hs | hs <;> rcases h2 with ht | ht | ht | ht | ht | ht <;> subst hs <;> subst ht <;>
            first
              | rfl
              | (exfalso; revert hst; decide)
              | (exfalso; revert h; decide)
        rw [compFn, if_neg hst, this] at hc
        cases hc
      · obtain ⟨f, ef, hf⟩ := narrow_fn (fl := fl) hi.1 hi.2 h
        rw [hc] at ef
        cases ef
        rw [hf v]
        rcases bits_cases (t := s) with e | e | e <;> rcases bits_cases (t := t) with e' | e' | e' <;>
          rw [e, e'] at h ⊢ <;> rw [e] at hv <;> simp only [Nat.reducePow, Nat.reduceSub, Nat.reduceDiv] at hv ⊢ <;> omega
    · have : conv = fl.cast s t := by
        unfold IsType at hs ht
        simp only [List.mem_cons, List.not_mem_nil, or_false] at hs ht
        rcases hs with hs | hs | hs | hs | hs | hs | hs | hs | hs <;>
          rcases ht with ht | ht | ht | ht | ht | ht | ht | ht | ht <;> subst hs <;> subst ht <;>
          first
            | (exfalso; apply hi; unfold IsInt; decide)
            | (exfalso; exact hst rfl)
            | exact (Option.some.inj (show some _ = some conv from hc)).symm
      rw [this]
      exact hfl s t v

theorem full_lt {t : Nat} (h : IsType t) : fullOf t < 256 ^ ilGetBpcType t := by
  unfold IsType at h
  simp only [List.mem_cons, List.not_mem_nil, or_false] at h
  rcases h with h | h | h | h | h | h | h | h | h <;> subst h <;> decide

/-- Every component of a format shows some channel. -/
theorem place_surj {f : Nat} (h : f ∈ formats) {o : Nat} (ho : o < width f) : ∃ ch, place f ch = some o := by
  simp only [formats, List.mem_cons, List.not_mem_nil, or_false] at h
  rcases h with h | h | h | h | h | h | h <;> subst h
  · have : o < 3 := ho
    obtain h | h | h : o = 0 ∨ o = 1 ∨ o = 2 := by omega
    all_goals subst h
    · exact ⟨.red, rfl⟩
    · exact ⟨.green, rfl⟩
    · exact ⟨.blue, rfl⟩
  · have : o < 4 := ho
    obtain h | h | h | h : o = 0 ∨ o = 1 ∨ o = 2 ∨ o = 3 := by omega
    all_goals subst h
    · exact ⟨.red, rfl⟩
    · exact ⟨.green, rfl⟩
    · exact ⟨.blue, rfl⟩
    · exact ⟨.alpha, rfl⟩
  · have : o < 3 := ho
    obtain h | h | h : o = 0 ∨ o = 1 ∨ o = 2 := by omega
    all_goals subst h
    · exact ⟨.blue, rfl⟩
    · exact ⟨.green, rfl⟩
    · exact ⟨.red, rfl⟩
  · have : o < 4 := ho
    obtain h | h | h | h : o = 0 ∨ o = 1 ∨ o = 2 ∨ o = 3 := by omega
    all_goals subst h
    · exact ⟨.blue, rfl⟩
    · exact ⟨.green, rfl⟩
    · exact ⟨.red, rfl⟩
    · exact ⟨.alpha, rfl⟩
  · have : o < 1 := ho
    obtain rfl : o = 0 := by omega
    exact ⟨.red, rfl⟩
  · have : o < 2 := ho
    obtain h | h : o = 0 ∨ o = 1 := by omega
    all_goals subst h
    · exact ⟨.red, rfl⟩
    · exact ⟨.alpha, rfl⟩
  · have : o < 1 := ho
    obtain rfl : o = 0 := by omega
    exact ⟨.alpha, rfl⟩

theorem place_lt {f o : Nat} {ch : Chan} (h : f ∈ formats) (ho : place f ch = some o) : o < width f := by
  simp only [formats, List.mem_cons, List.not_mem_nil, or_false] at h
  rcases h with h | h | h | h | h | h | h <;> subst h <;> cases ch <;>
    first
      | (exfalso; cases ho; done)
      | (have := Option.some.inj (show some _ = some o from ho); subst this; decide)

/-- How the channels of the pixels of `m'` come from those of `m`. -/
def Carried (conv : Nat → Nat) (m m' : Img) : Prop :=
  ∀ x y z, x < m.width → y < m.height → z < m.depth → ∀ ch o, place m'.format ch = some o →
    cval m' x y z o = (match place m.format ch with
      | some k => (cval m x y z k).map conv
      | none => some (if ch = .alpha then fullOf m'.type else 0))

/-- `m'` has the dimensions of `m` and shows the same side up. -/
def SameDims (m m' : Img) : Prop :=
  m'.width = m.width ∧ m'.height = m.height ∧ m'.depth = m.depth ∧ m'.origin = m.origin

theorem iConvertImage_direct {fl : FloatOps} {j : Junk} {m : Img} {df dt : Nat} {conv : Nat → Nat} (hfl : Sane fl)
    (hm : Plain m) (hfg : (m.format, df) ∈ direct) (hdt : IsType dt)
    (hfit : 12 * (pixels m * ilGetBpcType dt) < 4294967296) (hconv : compFn fl m.type dt = some conv) :
    ∃ m', iConvertImage fl j m df dt = .ok (some m') ∧ Plain m' ∧ SameDims m m' ∧ m'.format = df ∧ m'.type = dt ∧
      Carried conv m m' := by
  have hdf : df ∈ formats := (formats_of_direct hfg).2
  have htake : m.data.take m.size = m.data := by rw [← hm.cons.2.2.2, List.take_length]
  obtain ⟨out, e, l, h⟩ := direct_channels (junk := j.a) (junk' := j.b) hfg hm.type hdt hm.pix0 hm.comps_length hfit hconv
  have hlt : ∀ v ∈ out, v < 256 ^ ilGetBpcType dt := by
    intro v hv
    obtain ⟨i, hi, rfl⟩ := List.mem_iff_getElem.mp hv
    rw [l] at hi
    have hw := width_pos df
    have h1 : i / width df < pixels m := (Nat.div_lt_iff_lt_mul hw).mpr hi
    have hmod := Nat.mod_lt i hw
    obtain ⟨ch, hch⟩ := place_surj hdf hmod
    have h2 := h _ h1 ch _ hch
    rw [Nat.div_add_mod', List.getElem?_eq_getElem (by omega)] at h2
    cases hp : place m.format ch with
    | some k =>
      rw [hp] at h2
      simp only at h2
      cases hb : (comps m.bpc m.data)[i / width df * width m.format + k]? with
      | none => rw [hb] at h2; simp at h2
      | some v' =>
        rw [hb] at h2
        simp only [Option.map_some, Option.some.injEq] at h2
        rw [h2]
        refine conv_lt hfl hm.type hdt hconv ?_
        rw [← hm.bpc]
        exact comps_lt (List.mem_of_getElem? hb)
    | none =>
      rw [hp] at h2
      simp only [Option.some.injEq] at h2
      rw [h2]
      split
      · exact full_lt hdt
      · exact Nat.pow_pos (by omega)
  refine ⟨setFormat m df dt (bytesOf (ilGetBpcType dt) out), ?_, setFormat_plain hm hdt hdf hfit l, ⟨rfl, rfl, rfl, rfl⟩, rfl,
    rfl, fun x y z hx hy hz ch o ho => ?_⟩
  · unfold iConvertImage
    rw [if_neg (by rw [bppFormat_eq hdf]; have := width_pos df; omega), if_neg (by rw [hm.cons.2.2.2]; omega), htake,
      ← hm.bpc, e, bind_ok]
    rfl
  · rw [cval_setFormat hdt hdf hlt, h _ (pix_lt hx hy hz) ch o ho]
    unfold cval
    rw [hm.bpp]
    rfl

theorem cval_bytes {m m' : Img} {x y z c c' : Nat} (hw : m'.width = m.width) (hh : m'.height = m.height) (hb : m'.bpp = m.bpp)
    (hc : m'.bpc = m.bpc) (hl : m'.data.length = m.data.length)
    (hlt : ((z * m.height + y) * m.width + x) * m.bpp + c < m.data.length / m.bpc)
    (hlt' : ((z * m.height + y) * m.width + x) * m.bpp + c' < m.data.length / m.bpc)
    (h : ∀ b, b < m.bpc → comp m' x y z c b = comp m x y z c' b) : cval m' x y z c = cval m x y z c' := by
  unfold cval
  rw [hw, hh, hb, hc, comps_get (by rw [hl]; exact hlt), comps_get hlt']
  congr 2
  apply List.ext_getElem?
  intro b
  rw [List.getElem?_take, List.getElem?_take]
  split
  · rename_i hb'
    have := h b hb'
    rw [comp_eq, comp_eq, hw, hh, hb, hc] at this
    rw [List.getElem?_drop, List.getElem?_drop, this]
  · rfl

theorem Plain.coloured {m : Img} (hm : Plain m) (h : Is3 m.format ∨ Is4 m.format) : Coloured m := by
  refine ⟨hm.cons, hm.fits, hm.bpc, hm.type, ?_⟩
  rcases h with h | h
  · refine .inl ⟨h, ?_⟩
    rw [hm.bpp]
    rcases h with h | h <;> rw [h] <;> rfl
  · refine .inr ⟨h, ?_⟩
    rw [hm.bpp]
    rcases h with h | h <;> rw [h] <;> rfl

theorem fast_direct {m : Img} {df : Nat} (hm : Plain m) (hh : m.type ≠ IL_HALF)
    (hd : (Is3 m.format ∧ Is3 df) ∨ (Is4 m.format ∧ Is4 df)) (hne : df ≠ m.format) :
    ∃ m', iFastConvert m df = .ok (some m') ∧ Plain { m' with format := df } ∧ SameDims m m' ∧ m'.type = m.type ∧
      Carried id m { m' with format := df } := by
  have hcol := hm.coloured (by rcases hd with h | h; exact .inl h.1; exact .inr h.1)
  obtain ⟨m', e, s, ho, hc⟩ := C20_swap m df hcol hh hd
  have hcons := hm.cons.of_same s
  have ew : m'.width = m.width := by rw [s.1]
  have eh : m'.height = m.height := by rw [s.1]
  have ed : m'.depth = m.depth := by rw [s.1]
  have ep : m'.bpp = m.bpp := by rw [s.1]
  have ec : m'.bpc = m.bpc := by rw [s.1]
  have et : m'.type = m.type := by rw [s.1]
  have es : m'.size = m.size := by rw [s.1]
  have hdf : df ∈ formats ∧ width df = width m.format := by
    unfold Is3 Is4 at hd
    rcases hd with ⟨h | h, h' | h'⟩ | ⟨h | h, h' | h'⟩ <;> rw [h, h'] <;> decide
  refine ⟨m', e, ?_, ⟨ew, eh, ed, ho⟩, et, fun x y z hx hy hz ch o hpo => ?_⟩
  · exact ⟨hcons, by simp only [es]; exact hm.fits, by simp only [ew]; exact hm.w0, by simp only [eh]; exact hm.h0,
      by simp only [ed]; exact hm.d0, by simp only [et]; exact hm.type, by simp only [ec, et]; exact hm.bpc, hdf.1,
      by simp only [ep, hdf.2]; exact hm.bpp⟩
  · have hpl : place m.format ch = some (swap02 o) := by
      unfold Is3 Is4 at hd
      simp only at hpo
      rcases hd with ⟨h | h, h' | h'⟩ | ⟨h | h, h' | h'⟩ <;> rw [h, h'] at hne <;>
        first
          | exact absurd rfl hne
          | (rw [h'] at hpo
             rw [h]
             cases ch <;>
             first
               | (exfalso; cases hpo; done)
               | (have := Option.some.inj (show some _ = some o from hpo); subst this; rfl))
    rw [hpl]
    simp only [Option.map_id_fun, id_eq]
    have hmf := hm.format
    have ho' : o < m.bpp := by rw [hm.bpp, ← hdf.2]; exact place_lt hdf.1 hpo
    have hs' : swap02 o < m.bpp := by rw [hm.bpp]; exact place_lt hm.format hpl
    have hlen : m.data.length / m.bpc = pixels m * m.bpp := by
      rw [hm.cons.2.2.2, hm.size, Nat.mul_div_cancel _ hm.bpc0]
    refine cval_bytes (m' := { m' with format := df }) ew eh ep ec s.2 ?_ ?_ (fun b hb => ?_)
    · rw [hlen]; exact idx_lt (pix_lt hx hy hz) ho'
    · rw [hlen]; exact idx_lt (pix_lt hx hy hz) hs'
    · exact hc x y z o b hx hy hz ho' hb

theorem fast_half {m : Img} {df : Nat} (h : m.type = IL_HALF) : iFastConvert m df = .ok none := by
  have : ∀ n, fastSwap m n = .ok none := fun n => by
    unfold fastSwap
    rw [h, show caseBpc IL_HALF = none from rfl]
    rfl
  unfold iFastConvert
  rw [this, this]
  split
  · split <;> rfl
  · split
    · split <;> rfl
    · rfl

theorem chain_one {fl : FloatOps} {j : Junk} {m m' : Img} {df dt : Nat} (e : iConvertImage fl j m df dt = .ok (some m')) :
    convertChain fl j df dt [m] = .ok (true, [m']) := by
  unfold convertChain
  rw [e, bind_ok]
  rfl

/-- Image conversion between formats that carry channels over. -/
theorem convert_direct {fl : FloatOps} {j : Junk} {m : Img} {df dt : Nat} {conv : Nat → Nat} (hfl : Sane fl)
    (hm : Plain m) (hfg : (m.format, df) ∈ direct) (hdt : IsType dt)
    (hfit : 12 * (pixels m * ilGetBpcType dt) < 4294967296) (hconv : compFn fl m.type dt = some conv) :
    ∃ m', ilConvertImage fl j df dt [m] = .ok (true, [m']) ∧ Plain m' ∧ SameDims m m' ∧ m'.format = df ∧ m'.type = dt ∧
      Carried conv m m' := by
  unfold ilConvertImage
  simp only []
  by_cases hsame : df = m.format ∧ dt = m.type
  · rw [if_pos hsame]
    refine ⟨m, rfl, hm, ⟨rfl, rfl, rfl, rfl⟩, hsame.1.symm, hsame.2.symm, fun x y z _ _ _ ch o ho => ?_⟩
    rw [hsame.2] at hconv
    simp only [compFn, if_true, Option.some.injEq] at hconv
    rw [ho, ← hconv]
    simp
  · rw [if_neg hsame]
    have hslow : tryFast m df dt = .ok none → ∃ m', (tryFast m df dt >>= fun r => match r with
        | some m' => pure (true, [{ m' with format := df }])
        | none => convertChain fl j df dt [m]) = Except.ok (true, [m']) ∧ Plain m' ∧ SameDims m m' ∧ m'.format = df ∧
        m'.type = dt ∧ Carried conv m m' := by
      intro e
      obtain ⟨m', e', r⟩ := iConvertImage_direct (j := j) hfl hm hfg hdt hfit hconv
      refine ⟨m', ?_, r⟩
      rw [e, bind_ok]
      exact chain_one e'
    by_cases ht : dt = m.type
    · by_cases hh : m.type = IL_HALF
      · exact hslow (by unfold tryFast; rw [if_pos ht]; exact fast_half hh)
      · by_cases hd : (Is3 m.format ∧ Is3 df) ∨ (Is4 m.format ∧ Is4 df)
        · obtain ⟨m', e, hp, hdim, hty, hcar⟩ := fast_direct hm hh hd (fun h => hsame ⟨h, ht⟩)
          refine ⟨{ m' with format := df }, ?_, hp, hdim, rfl, hty.trans ht.symm, ?_⟩
          · unfold tryFast
            rw [if_pos ht, e, bind_ok]
            rfl
          · rw [ht] at hconv
            simp only [compFn, if_true, Option.some.injEq] at hconv
            rw [← hconv]
            exact hcar
        · exact hslow (by unfold tryFast; rw [if_pos ht]; exact C20_refused m df hd)
    · exact hslow (by unfold tryFast; rw [if_neg ht]; rfl)

/-! ## Alpha loops -/

/-- Number of turns of `for (i = n-1; i < N * n; i += n)`. -/
theorem alpha_turns {N n : Nat} (hn : 0 < n) : (N * n - (n - 1) + (n - 1)) / n = N := by
  cases N with
  | zero => rw [Nat.zero_mul, Nat.zero_sub, Nat.zero_add]; exact Nat.div_eq_of_lt (by omega)
  | succ N =>
    have : (N + 1) * n - (n - 1) + (n - 1) = (N + 1) * n := by
      have : n ≤ (N + 1) * n := Nat.le_mul_of_pos_left _ (by omega)
      omega
    rw [this, Nat.mul_div_cancel _ hn]

theorem put_spec {N n k : Nat} {word : Nat → UInt8} {d : List UInt8} (hk : 0 < k) (hn : 0 < n) (hd : d.length = N * n * k) :
    ∃ d', forStep (n - 1) (N * n) n (fun i b => putComp k word i b) d = .ok d' ∧ d'.length = d.length ∧
      ∀ p c b, p < N → c < n → b < k →
        d'[(p * n + c) * k + b]? = if c = n - 1 then some (word b) else d[(p * n + c) * k + b]? := by
  rw [forStep_pos hn, alpha_turns hn]
  have hu : Upd (fun b => loopN N (fun p => putComp k word (n - 1 + p * n)) b) d (fun _ => False)
      (fun x => ∃ p, p < N ∧ Slot k (n - 1 + p * n) x) (fun i => some (word (i % k))) := by
    refine Upd.loopW fun p hp => putComp_upd ?_ (fun c hc => ?_)
    · have := idx_lt (idx_lt hp (by omega : n - 1 < n)) (by omega : k - 1 < k)
      rw [Nat.add_comm (n - 1)]
      omega
    · rw [idx_mod hc]
  obtain ⟨d', e, l, s⟩ := hu.apply
  refine ⟨d', e, l, fun p c b hp hc hb => ?_⟩
  have hlt := idx_lt (idx_lt hp hc) hb
  rw [← hd] at hlt
  split
  · rename_i h
    rw [(s _ hlt).1 ⟨p, hp, (slot_iff hk).mpr (by rw [idx_div hb]; omega)⟩, idx_mod hb]
  · rename_i h
    refine (s _ hlt).2 ?_
    rintro ⟨q, hq, h2⟩
    rw [slot_iff hk, idx_div hb, Nat.add_comm (n - 1)] at h2
    exact h (idx_inj hc (by omega) h2).2

theorem get_spec {N n k : Nat} {src d : List UInt8} (hk : 0 < k) (hn : 0 < n) (hs : src.length = N * n * k)
    (hd : d.length = N * k) :
    ∃ d', getAlphaLoop k n (N * n) src d = .ok d' ∧ d'.length = d.length ∧
      ∀ p b, p < N → b < k → d'[p * k + b]? = src[(p * n + (n - 1)) * k + b]? := by
  unfold getAlphaLoop
  rw [alpha_turns hn]
  have hu : Upd (fun b => loopN N (fun p b => copyComp k src (n - 1 + p * n) p b) b) d (fun _ => False)
      (fun x => ∃ p, p < N ∧ Slot k p x) (fun i => src[(n - 1 + i / k * n) * k + i % k]?) := by
    refine Upd.loopW fun p hp => copyComp_upd ?_ ?_ (fun c hc => ?_)
    · have := idx_lt (idx_lt hp (by omega : n - 1 < n)) (by omega : k - 1 < k)
      rw [Nat.add_comm (n - 1)]
      omega
    · have := idx_lt hp (by omega : k - 1 < k)
      omega
    · rw [idx_mod hc, idx_div hc]
  obtain ⟨d', e, l, s⟩ := hu.apply
  refine ⟨d', e, l, fun p b hp hb => ?_⟩
  have hlt := idx_lt hp hb
  rw [← hd] at hlt
  rw [(s _ hlt).1 ⟨p, hp, (slot_iff hk).mpr (by rw [idx_div hb])⟩, idx_div hb, idx_mod hb, Nat.add_comm (n - 1)]

end DevIL.ConvImage
