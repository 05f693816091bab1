import Verif.Lemmas.ConvBuff
import Verif.Lemmas.Lum
/-! Pixel-format conversion: channels, memory safety, luminance (C21, C22, C23). -/
set_option autoImplicit false
namespace DevIL.Conv
open Utility

/-! ## Specification vocabulary -/

/-- The channels of a pixel. -/
inductive Chan where
  | red | green | blue | alpha
  deriving DecidableEq

/-- The pixel formats other than colour index. -/
def formats : List Nat := [IL_RGB, IL_RGBA, IL_BGR, IL_BGRA, IL_LUMINANCE, IL_LUMINANCE_ALPHA, IL_ALPHA]

/-- Components per pixel. -/
def width (f : Nat) : Nat :=
  if f = IL_RGB ∨ f = IL_BGR then 3 else if f = IL_RGBA ∨ f = IL_BGRA then 4 else if f = IL_LUMINANCE_ALPHA then 2 else 1

/-- Where a format keeps a channel, if it has it.  A luminance pixel shows its only colour component in red, green and
blue. -/
def place (f : Nat) (c : Chan) : Option Nat :=
  if f = IL_RGB then (match c with | .red => some 0 | .green => some 1 | .blue => some 2 | .alpha => none)
  else if f = IL_RGBA then (match c with | .red => some 0 | .green => some 1 | .blue => some 2 | .alpha => some 3)
  else if f = IL_BGR then (match c with | .red => some 2 | .green => some 1 | .blue => some 0 | .alpha => none)
  else if f = IL_BGRA then (match c with | .red => some 2 | .green => some 1 | .blue => some 0 | .alpha => some 3)
  else if f = IL_LUMINANCE then (match c with | .alpha => none | _ => some 0)
  else if f = IL_LUMINANCE_ALPHA then (match c with | .alpha => some 1 | _ => some 0)
  else if f = IL_ALPHA then (match c with | .alpha => some 0 | _ => none)
  else none

/-- Channel `c` of pixel `i` of a buffer in format `f`. -/
def chan (f : Nat) (buf : List Nat) (i : Nat) (c : Chan) : Option Nat := (place f c).bind fun o => buf[i * width f + o]?

/-- The fully opaque value of a component type: the largest value of an integer type, 1.0 of a floating-point type
(0x3C00 is 1.0 as a half). -/
def opaqueOf (t : Nat) : Nat :=
  if t = IL_UNSIGNED_BYTE then 255 else if t = IL_BYTE then 127
  else if t = IL_UNSIGNED_SHORT then 65535 else if t = IL_SHORT then 32767
  else if t = IL_UNSIGNED_INT then 4294967295 else if t = IL_INT then 2147483647
  else if t = IL_HALF then 0x3C00 else if t = IL_FLOAT then 0x3F800000 else 0x3FF0000000000000

/-- A component type. -/
def IsType (t : Nat) : Prop :=
  t ∈ [IL_BYTE, IL_UNSIGNED_BYTE, IL_SHORT, IL_UNSIGNED_SHORT, IL_INT, IL_UNSIGNED_INT, IL_FLOAT, IL_DOUBLE, IL_HALF]

theorem IsType.bpc {t : Nat} (h : IsType t) : ilGetBpcType t ≠ 0 := by
  unfold IsType at h
  simp only [List.mem_cons, List.not_mem_nil, or_false] at h
  rcases h with h | h | h | h | h | h | h | h | h <;> subst h <;> decide

theorem IsType.le {t : Nat} (h : IsType t) : ilGetBpcType t ≤ 8 := by
  unfold IsType at h
  simp only [List.mem_cons, List.not_mem_nil, or_false] at h
  rcases h with h | h | h | h | h | h | h | h | h <;> subst h <;> decide

/-! ## Shape of the arms -/

/-- An arm from format `f` to format `g` whose loop visits each pixel once, looks only at it, fills the corresponding
pixel of the result and allocates exactly the result. -/
def Good (f g : Nat) : Arm → Prop
  | .loop bytes s k _ _ cells => s = width f ∧ k = width g ∧ cells.length = k ∧ (∀ c ∈ cells, c.within s) ∧
      ∀ p b, 0 < b → 12 * (p * b) < 4294967296 → bytes (p * s) b / b = p * k
  | .fill bytes set => ∀ p b, 0 < b → 12 * (p * b) < 4294967296 →
      bytes (p * width f) b / b = p * width g ∧ set (p * width f) b / b = p * width g

theorem nb_scale {p s b : Nat} (h : s * (p * b) < 4294967296) : nb (p * s) b = s * (p * b) := by
  rw [nb_of_lt]
  · grind
  · have : p * s * b = s * (p * b) := by grind
    omega

theorem div_scale {p k b : Nat} (hb : 0 < b) : k * (p * b) / b = p * k := by
  rw [show k * (p * b) = p * k * b by grind, Nat.mul_div_cancel _ hb]

theorem arm_good {f g : Nat} {a : Arm} (hf : f ∈ formats) (hg : g ∈ formats)
    (h1 : ¬ (f = IL_RGB ∧ g = IL_ALPHA)) (h2 : ¬ (f = IL_LUMINANCE_ALPHA ∧ g = IL_ALPHA)) (ha : arm f g = some a) :
    Good f g a := by
  simp only [formats, List.mem_cons, List.not_mem_nil, or_false] at hf hg
  rcases hf with hf | hf | hf | hf | hf | hf | hf <;> rcases hg with hg | hg | hg | hg | hg | hg | hg <;>
    subst hf <;> subst hg <;>
    first
      | (exfalso; revert h1; decide)
      | (exfalso; revert h2; decide)
      | (exfalso; cases ha; done)
      | (have e := (Option.some.inj (show some _ = some a from ha)).symm
         subst e
         refine ⟨by decide, by decide, by decide, by decide, fun p b hb h => ?_⟩
         refine Eq.trans ?_ (div_scale (p := p) (b := b) hb)
         congr 1
         simp only [u32, nb_scale (p := p) (b := b) (s := 3) (by omega), nb_scale (p := p) (b := b) (s := 4) (by omega),
           nb_scale (p := p) (b := b) (s := 2) (by omega), nb_scale (p := p) (b := b) (s := 1) (by omega)] <;>
         omega)
      | (have e := (Option.some.inj (show some _ = some a from ha)).symm
         subst e
         intro p b hb h
         refine ⟨?_, ?_⟩ <;>
         (refine Eq.trans ?_ (div_scale (p := p) (b := b) hb)
          congr 1
          simp only [show width IL_RGB = 3 from rfl, show width IL_BGR = 3 from rfl, show width IL_ALPHA = 1 from rfl,
            show width IL_LUMINANCE = 1 from rfl, u32, nb_scale (p := p) (b := b) (s := 3) (by omega),
            nb_scale (p := p) (b := b) (s := 1) (by omega)] <;>
          omega))

/-! ## C21: channels -/

/-- The cells of an arm carry every channel of `g` from where `f` keeps it; a missing alpha becomes the opaque
constant, a missing colour zero. -/
def Carries (f g : Nat) (cells : List Cell) : Prop :=
  ∀ (ch : Chan) (o : Nat), place g ch = some o → cells[o]? = some (match place f ch with
    | some k => .comp k
    | none => if ch = .alpha then .full else .zero)

/-- The pairs of formats whose conversion involves no weighting of colours. -/
def direct : List (Nat × Nat) :=
  [IL_RGB, IL_RGBA, IL_BGR, IL_BGRA, IL_LUMINANCE, IL_LUMINANCE_ALPHA].flatMap
    (fun f => [IL_RGB, IL_RGBA, IL_BGR, IL_BGRA].map fun g => (f, g)) ++
  [(IL_LUMINANCE, IL_LUMINANCE_ALPHA), (IL_LUMINANCE_ALPHA, IL_LUMINANCE), (IL_RGBA, IL_ALPHA), (IL_BGRA, IL_ALPHA),
   (IL_ALPHA, IL_RGBA), (IL_ALPHA, IL_BGRA), (IL_ALPHA, IL_LUMINANCE_ALPHA)]

theorem direct_arm {f g : Nat} (h : (f, g) ∈ direct) (hne : f ≠ g) :
    ∃ bytes s k whole wide cells, arm f g = some (.loop bytes s k whole wide cells) ∧ Carries f g cells ∧
      (∀ c ∈ cells, c.plain = true) := by
  simp only [direct, List.flatMap_cons, List.flatMap_nil, List.map_cons, List.map_nil, List.cons_append, List.nil_append,
    List.mem_cons, List.not_mem_nil, or_false, Prod.mk.injEq] at h
  rcases h with h | h | h | h | h | h | h | h | h | h | h | h | h | h | h | h | h | h | h | h | h | h | h | h | h | h | h | h | h | h | h
  all_goals
    obtain ⟨h1, h2⟩ := h
    subst h1
    subst h2
    first
      | (exfalso; exact hne rfl)
      | (refine ⟨_, _, _, _, _, _, rfl, ?_, by decide⟩
         intro ch o ho
         cases ch <;> first | (cases ho; done) | (cases ho; rfl))

theorem formats_of_direct {f g : Nat} (h : (f, g) ∈ direct) : f ∈ formats ∧ g ∈ formats := by
  revert h
  have : ∀ q ∈ direct, q.1 ∈ formats ∧ q.2 ∈ formats := by decide
  exact this (f, g)

theorem place_lt {f : Nat} {ch : Chan} {o : Nat} (hf : f ∈ formats) (h : place f ch = some o) : o < width f := by
  simp only [formats, List.mem_cons, List.not_mem_nil, or_false] at hf
  rcases hf with hf | hf | hf | hf | hf | hf | hf <;> subst hf <;> cases ch <;>
    first | (cases h; done) | (cases h; decide)

theorem width_pos (f : Nat) : 0 < width f := by
  unfold width; repeat' split
  all_goals decide

theorem width_le (f : Nat) : width f ≤ 4 := by
  unfold width; repeat' split
  all_goals decide

/-- Conversion between formats without weighting of colours, channel by channel. -/
theorem direct_channels {fl : FloatOps} {junk junk' : Nat → Nat} {f g st dt p : Nat} {buf : List Nat} {conv : Nat → Nat}
    (hfg : (f, g) ∈ direct) (hst : IsType st) (hdt : IsType dt) (hp : 0 < p) (hl : buf.length = p * width f)
    (hfit : 12 * (p * ilGetBpcType dt) < 4294967296) (hconv : compFn fl st dt = some conv) :
    ∃ out, ilConvertBuffer fl junk junk' f g st dt buf = .ok (some out) ∧ out.length = p * width g ∧
      ∀ i, i < p → ∀ ch o, place g ch = some o → out[i * width g + o]? = (match place f ch with
        | some k => buf[i * width f + k]?.map conv
        | none => some (if ch = .alpha then fullOf dt else 0)) := by
  obtain ⟨hf, hg⟩ := formats_of_direct hfg
  have hne : buf ≠ [] := by
    intro h
    rw [h] at hl
    have := Nat.mul_pos hp (width_pos f)
    simp at hl; omega
  have hw4 : p * width f ≤ p * 4 := Nat.mul_le_mul_left _ (width_le f)
  have hlen : buf.length * ilGetBpcType dt < 4294967296 := by
    have h1 : buf.length * ilGetBpcType dt ≤ p * 4 * ilGetBpcType dt := Nat.mul_le_mul_right _ (by omega)
    have h2 : p * 4 * ilGetBpcType dt = 4 * (p * ilGetBpcType dt) := by grind
    omega
  by_cases e : f = g
  · subst e
    refine ⟨buf.map conv, convert_same hne hst.bpc hdt.bpc hlen hconv, by simpa using hl, fun i hi ch o ho => ?_⟩
    simp [ho]
  · obtain ⟨bytes, s, k, whole, wide, cells, ha, hcar, hpl⟩ := direct_arm hfg e
    have hd : ¬ (f = IL_RGB ∧ g = IL_ALPHA) ∧ ¬ (f = IL_LUMINANCE_ALPHA ∧ g = IL_ALPHA) := by
      have : ∀ q ∈ direct, ¬ (q.1 = IL_RGB ∧ q.2 = IL_ALPHA) ∧ ¬ (q.1 = IL_LUMINANCE_ALPHA ∧ q.2 = IL_ALPHA) := by
        decide
      exact this (f, g) hfg
    obtain ⟨e1, e2, e3, e4, e5⟩ := arm_good hf hg hd.1 hd.2 ha
    subst e1
    subst e2
    obtain ⟨out, eo, lo, ho⟩ := loop_plain (fl := fl) (junk := junk') (type := dt) (p := p) (s := width f) (k := width g)
      (src := buf.map conv) (bytes := bytes) (whole := whole) (wide := wide) (cells := cells) (width_pos f)
      (by simpa using hl) (by
        rw [List.length_map, hl]
        exact e5 p _ (bpc_pos hdt.bpc) hfit) e3 (fun c hc => ⟨e4 c hc, hpl c hc⟩)
    refine ⟨out, ?_, lo, fun i hi ch o hpo => ?_⟩
    · rw [convert_run hne hst.bpc hdt.bpc hlen hconv (fun h => e h.symm) ha, eo]
      rfl
    · rw [ho i o _ hi (hcar ch o hpo)]
      cases hpf : place f ch with
      | some k => simp [cellVal]
      | none =>
        by_cases hch : ch = .alpha
        · simp [hch, cellVal]
        · simp [hch, cellVal]

/-- **C21.**  Converting a buffer of `p` pixels between RGB, RGBA, BGR and BGRA, with or without a change of component
type, delivers every pixel's red, green and blue (each converted to the new type and otherwise unchanged), and its
alpha when both formats have one; when only the destination has alpha it is fully opaque, for the unsigned and
floating-point types.  `conv` is the component conversion (`id` when the types agree).
Missing (and false, see below): opacity for `IL_HALF` and the signed types.  The bound excludes buffers for which the
byte count of the result, times three, does not fit 32 bits (see `C22_violated_large`). -/
theorem C21_channels_partial {fl : FloatOps} {junk junk' : Nat → Nat} {f g st dt p : Nat} {buf : List Nat}
    {conv : Nat → Nat} (hf : f ∈ [IL_RGB, IL_RGBA, IL_BGR, IL_BGRA]) (hg : g ∈ [IL_RGB, IL_RGBA, IL_BGR, IL_BGRA])
    (hst : IsType st) (hdt : IsType dt) (hp : 0 < p) (hl : buf.length = p * width f)
    (hfit : 12 * (p * ilGetBpcType dt) < 4294967296) (hconv : compFn fl st dt = some conv) :
    ∃ out, ilConvertBuffer fl junk junk' f g st dt buf = .ok (some out) ∧ out.length = p * width g ∧
      ∀ i, i < p →
        (∀ ch, ch ≠ .alpha → chan g out i ch = (chan f buf i ch).map conv) ∧
        (place f .alpha ≠ none → place g .alpha ≠ none → chan g out i .alpha = (chan f buf i .alpha).map conv) ∧
        (place f .alpha = none → place g .alpha ≠ none →
          dt ∈ [IL_UNSIGNED_BYTE, IL_UNSIGNED_SHORT, IL_UNSIGNED_INT, IL_FLOAT, IL_DOUBLE] →
          chan g out i .alpha = some (opaqueOf dt)) := by
  have hfg : (f, g) ∈ direct := by
    have : ∀ f ∈ [IL_RGB, IL_RGBA, IL_BGR, IL_BGRA], ∀ g ∈ [IL_RGB, IL_RGBA, IL_BGR, IL_BGRA], (f, g) ∈ direct := by
      decide
    exact this f hf g hg
  obtain ⟨out, e, l, h⟩ := direct_channels (junk := junk) (junk' := junk') hfg hst hdt hp hl hfit hconv
  have hcol : ∀ f ∈ [IL_RGB, IL_RGBA, IL_BGR, IL_BGRA], ∀ ch, ch ≠ Chan.alpha → place f ch ≠ none := by
    intro f hf ch hch
    simp only [List.mem_cons, List.not_mem_nil, or_false] at hf
    rcases hf with hf | hf | hf | hf <;> subst hf <;> cases ch <;> first | exact absurd rfl hch | decide
  have hboth : ∀ i ch, i < p → place f ch ≠ none → place g ch ≠ none → chan g out i ch = (chan f buf i ch).map conv := by
    intro i ch hi h1 h2
    obtain ⟨k, hk⟩ := Option.ne_none_iff_exists'.mp h1
    obtain ⟨o, ho⟩ := Option.ne_none_iff_exists'.mp h2
    have h3 := h i hi ch o ho
    unfold chan
    rw [ho, hk]
    simp only [hk] at h3
    simpa using h3
  refine ⟨out, e, l, fun i hi => ⟨fun ch hch => hboth i ch hi (hcol f hf ch hch) (hcol g hg ch hch),
    fun h1 h2 => hboth i .alpha hi h1 h2, fun h1 h2 ht => ?_⟩⟩
  obtain ⟨o, ho⟩ := Option.ne_none_iff_exists'.mp h2
  have hfull : fullOf dt = opaqueOf dt := by
    simp only [List.mem_cons, List.not_mem_nil, or_false] at ht
    rcases ht with ht | ht | ht | ht | ht <;> subst ht <;> rfl
  have h3 := h i hi .alpha o ho
  unfold chan
  rw [ho]
  simp only [h1, if_true] at h3
  rw [← hfull]
  simpa using h3

/-- A concrete case of `C21_channels_partial`: three BGR pixels become RGBA. -/
example : ilConvertBuffer ⟨fun _ _ _ => 0, fun _ _ v => v⟩ (fun _ => 9) (fun _ => 9) IL_BGR IL_RGBA IL_UNSIGNED_BYTE
    IL_UNSIGNED_BYTE [1, 2, 3, 4, 5, 6, 7, 8, 9] = .ok (some [3, 2, 1, 255, 6, 5, 4, 255, 9, 8, 7, 255]) := by
  decide +kernel

/-- The hypotheses of `C21_channels_partial` hold of it. -/
example : IsType IL_UNSIGNED_BYTE ∧ [1, 2, 3, 4, 5, 6, 7, 8, 9].length = 3 * width IL_BGR ∧
    12 * (3 * ilGetBpcType IL_UNSIGNED_BYTE) < 4294967296 ∧
    compFn ⟨fun _ _ _ => 0, fun _ _ v => v⟩ IL_UNSIGNED_BYTE IL_UNSIGNED_BYTE = some id ∧
    place IL_BGR .alpha = none ∧ place IL_RGBA .alpha ≠ none := by
  refine ⟨by unfold IsType; decide, by decide, by decide, rfl, by decide, by decide⟩

/-- **C21 fails for half-floats**: the alpha added to an `IL_HALF` pixel is 0xFFFF, a NaN, not 1.0. -/
theorem C21_violated_half : ∃ out, ilConvertBuffer ⟨fun _ _ _ => 0, fun _ _ v => v⟩ (fun _ => 0) (fun _ => 0) IL_RGB
    IL_RGBA IL_HALF IL_HALF [0x3C00, 0, 0] = .ok (some out) ∧ chan IL_RGBA out 0 .alpha = some 0xFFFF ∧
    chan IL_RGBA out 0 .alpha ≠ some (opaqueOf IL_HALF) :=
  ⟨[0x3C00, 0, 0, 0xFFFF], by decide +kernel, by decide, by decide⟩

/-- **C21 fails for signed components**: the alpha added to an `IL_SHORT` pixel is 0xFFFF, i.e. -1, not the largest
value. -/
theorem C21_violated_signed : ∃ out, ilConvertBuffer ⟨fun _ _ _ => 0, fun _ _ v => v⟩ (fun _ => 0) (fun _ => 0) IL_RGB
    IL_RGBA IL_SHORT IL_SHORT [1, 2, 3] = .ok (some out) ∧ chan IL_RGBA out 0 .alpha = some 0xFFFF ∧
    chan IL_RGBA out 0 .alpha ≠ some (opaqueOf IL_SHORT) :=
  ⟨[1, 2, 3, 0xFFFF], by decide +kernel, by decide, by decide⟩

/-- **C69.**  Luminance pixels become grey, luminance and alpha are kept where both formats have them, and alpha-only
pixels become black with their alpha. -/
theorem C69_grey_and_alpha {fl : FloatOps} {junk junk' : Nat → Nat} {f g st dt p : Nat} {buf : List Nat} {conv : Nat → Nat}
    (hfg : (f, g) ∈ [(IL_LUMINANCE, IL_RGB), (IL_LUMINANCE, IL_BGR), (IL_LUMINANCE, IL_RGBA), (IL_LUMINANCE, IL_BGRA),
      (IL_LUMINANCE, IL_LUMINANCE_ALPHA), (IL_LUMINANCE_ALPHA, IL_RGB), (IL_LUMINANCE_ALPHA, IL_BGR),
      (IL_LUMINANCE_ALPHA, IL_RGBA), (IL_LUMINANCE_ALPHA, IL_BGRA), (IL_LUMINANCE_ALPHA, IL_LUMINANCE),
      (IL_RGBA, IL_ALPHA), (IL_BGRA, IL_ALPHA), (IL_ALPHA, IL_RGBA), (IL_ALPHA, IL_BGRA),
      (IL_ALPHA, IL_LUMINANCE_ALPHA)])
    (hst : IsType st) (hdt : IsType dt) (hp : 0 < p) (hl : buf.length = p * width f)
    (hfit : 12 * (p * ilGetBpcType dt) < 4294967296) (hconv : compFn fl st dt = some conv) :
    ∃ out, ilConvertBuffer fl junk junk' f g st dt buf = .ok (some out) ∧ out.length = p * width g ∧
      ∀ i, i < p → ∀ ch, place g ch ≠ none →
        (place f ch ≠ none → chan g out i ch = (chan f buf i ch).map conv) ∧
        (place f ch = none → ch ≠ .alpha → chan g out i ch = some 0) := by
  have hd : (f, g) ∈ direct ∧ f ≠ g := by
    revert hfg
    generalize e : (f, g) = q
    intro hq
    have : ∀ q ∈ [(IL_LUMINANCE, IL_RGB), (IL_LUMINANCE, IL_BGR), (IL_LUMINANCE, IL_RGBA), (IL_LUMINANCE, IL_BGRA),
      (IL_LUMINANCE, IL_LUMINANCE_ALPHA), (IL_LUMINANCE_ALPHA, IL_RGB), (IL_LUMINANCE_ALPHA, IL_BGR),
      (IL_LUMINANCE_ALPHA, IL_RGBA), (IL_LUMINANCE_ALPHA, IL_BGRA), (IL_LUMINANCE_ALPHA, IL_LUMINANCE),
      (IL_RGBA, IL_ALPHA), (IL_BGRA, IL_ALPHA), (IL_ALPHA, IL_RGBA), (IL_ALPHA, IL_BGRA),
      (IL_ALPHA, IL_LUMINANCE_ALPHA)], q ∈ direct ∧ q.1 ≠ q.2 := by decide
    have h := this q hq
    rw [← e] at h
    exact e ▸ h
  obtain ⟨out, e, l, h⟩ := direct_channels (junk := junk) (junk' := junk') hd.1 hst hdt hp hl hfit hconv
  refine ⟨out, e, l, fun i hi ch hg => ?_⟩
  obtain ⟨o, ho⟩ := Option.ne_none_iff_exists'.mp hg
  have h3 := h i hi ch o ho
  refine ⟨fun hf => ?_, fun hf hch => ?_⟩
  · obtain ⟨k, hk⟩ := Option.ne_none_iff_exists'.mp hf
    unfold chan
    rw [ho, hk]
    simp only [hk] at h3
    simpa using h3
  · unfold chan
    rw [ho]
    simp only [hf, if_neg hch] at h3
    simpa using h3

/-- A concrete case of `C69_grey_and_alpha`. -/
example : ilConvertBuffer ⟨fun _ _ _ => 0, fun _ _ v => v⟩ (fun _ => 9) (fun _ => 9) IL_LUMINANCE_ALPHA IL_BGRA
    IL_UNSIGNED_BYTE IL_UNSIGNED_SHORT [1, 2, 3, 4] = .ok (some [257, 257, 257, 514, 771, 771, 771, 1028]) := by
  decide +kernel

/-! ## C22: memory safety -/

theorem iSwitchTypes_len {fl : FloatOps} {junk : Nat → Nat} {st dt : Nat} {src : List Nat}
    (hb : ilGetBpcType dt ≠ 0) (hl : src.length * ilGetBpcType dt < 4294967296) :
    ∃ d, iSwitchTypes fl junk st dt src = .ok d ∧ d.length = src.length := by
  cases h : compFn fl st dt with
  | some f => exact ⟨_, iSwitchTypes_spec hb hl h, by simp⟩
  | none =>
    unfold compFn at h
    unfold iSwitchTypes
    split at h
    · cases h
    · rename_i hne
      rw [if_neg hne]
      simp only [h, nb_div (bpc_pos hb) hl]
      exact ⟨_, rfl, by simp⟩

/-- Conversion of whole pixels ends normally with whole pixels, or with a floating-point overflow. -/
theorem convert_okOr {fl : FloatOps} {junk junk' : Nat → Nat} {f g st dt p : Nat} {buf : List Nat}
    (hdt : IsType dt) (hl : buf.length = p * width f) (hfit : 12 * (p * ilGetBpcType dt) < 4294967296)
    (h1 : ¬ (f = IL_RGB ∧ g = IL_ALPHA)) (h2 : ¬ (f = IL_LUMINANCE_ALPHA ∧ g = IL_ALPHA)) :
    OkOr (ilConvertBuffer fl junk junk' f g st dt buf) (fun o => ∀ out, o = some out → out.length = p * width g) := by
  have hw4 : p * width f ≤ p * 4 := Nat.mul_le_mul_left _ (width_le f)
  have hlen : buf.length * ilGetBpcType dt < 4294967296 := by
    have h1 : buf.length * ilGetBpcType dt ≤ p * 4 * ilGetBpcType dt := Nat.mul_le_mul_right _ (by omega)
    have h2 : p * 4 * ilGetBpcType dt = 4 * (p * ilGetBpcType dt) := by grind
    omega
  unfold ilConvertBuffer
  split
  · exact Or.inl ⟨_, rfl, fun _ h => by cases h⟩
  · obtain ⟨d, ed, ld⟩ := iSwitchTypes_len (fl := fl) (junk := junk) (st := st) hdt.bpc hlen
    rw [ed, bind_ok]
    split
    · rename_i hgf
      obtain ⟨d', e, l', _⟩ := memcpy_get (dst := alloc junk' (nb d.length (ilGetBpcType dt) / ilGetBpcType dt)) (src := d)
        (dOff := 0) (sOff := 0) (n := nb d.length (ilGetBpcType dt) / ilGetBpcType dt)
        (by rw [ld, nb_div (bpc_pos hdt.bpc) hlen]; omega) (by simp)
      rw [e]
      refine Or.inl ⟨_, rfl, fun out h => ?_⟩
      cases h
      rw [l', alloc_length, ld, nb_div (bpc_pos hdt.bpc) hlen, hl, hgf]
    · split
      · exact Or.inl ⟨_, rfl, fun _ h => by cases h⟩
      · rename_i a ha
        have hfg : f ∈ formats ∧ g ∈ formats := by
          apply Classical.byContradiction
          intro hn
          revert ha
          simp only [formats, List.mem_cons, List.not_mem_nil, or_false] at hn
          unfold arm armRGB armRGBA armBGR armBGRA armLum armLumA armAlpha
          grind
        have hgood := arm_good hfg.1 hfg.2 h1 h2 ha
        refine OkOr.bind (P := fun d => d.length = p * width g) ?_
          (fun d hd => Or.inl ⟨_, rfl, fun out h => by cases h; exact hd⟩)
        cases a with
        | loop bytes s k whole wide cells =>
          obtain ⟨e1, e2, e3, e4, e5⟩ := hgood
          subst e1
          subst e2
          exact loop_okOr (fl := fl) (junk := junk') (type := dt) (p := p) (s := width f) (k := width g) (src := d)
            (bytes := bytes) (whole := whole) (wide := wide) (cells := cells) (width_pos f) (by rw [ld, hl])
            (by rw [ld, hl]; exact e5 p _ (bpc_pos hdt.bpc) hfit) e3 e4
        | fill bytes set =>
          obtain ⟨e1, e2⟩ := hgood p _ (bpc_pos hdt.bpc) hfit
          exact Or.inl ⟨_, fill_spec (n := p * width g) (by rw [ld, hl]; exact e1) (by rw [ld, hl]; exact e2), by simp⟩

/-- **C22.**  Converting a buffer of whole pixels between any two formats and any two component types never reads or
writes outside a buffer (the only fault left is the floating-point overflow of `C23_violated_uint`).
Missing (and false, see below): RGB to alpha, luminance-alpha to alpha, and buffers so large that the byte count
computed for the allocation wraps.  Formats the library does not know are refused, so `f` and `g` range over all
numbers; colour-indexed sources are not modelled here (C30). -/
theorem C22_in_bounds_partial {fl : FloatOps} {junk junk' : Nat → Nat} {f g st dt p : Nat} {buf : List Nat}
    (hdt : IsType dt) (hl : buf.length = p * width f) (hfit : 12 * (p * ilGetBpcType dt) < 4294967296)
    (h1 : ¬ (f = IL_RGB ∧ g = IL_ALPHA)) (h2 : ¬ (f = IL_LUMINANCE_ALPHA ∧ g = IL_ALPHA)) :
    ilConvertBuffer fl junk junk' f g st dt buf ≠ .error .oobRead ∧
    ilConvertBuffer fl junk junk' f g st dt buf ≠ .error .oobWrite := by
  rcases convert_okOr (fl := fl) (junk := junk) (junk' := junk') (st := st) hdt hl hfit h1 h2 with ⟨a, e, _⟩ | e <;>
    rw [e] <;> simp

/-- The hypotheses of `C22_in_bounds_partial` hold of a two-pixel image. -/
example : IsType IL_FLOAT ∧ [1, 2, 3, 4, 5, 6, 7, 8].length = 2 * width IL_BGRA ∧
    12 * (2 * ilGetBpcType IL_FLOAT) < 4294967296 ∧ ¬ (IL_BGRA = IL_RGB ∧ IL_LUMINANCE_ALPHA = IL_ALPHA) := by
  refine ⟨by unfold IsType; decide, by decide, by decide, by decide⟩

/-- **C22 fails for RGB to alpha**: the block is allocated for the alpha image and cleared for the length of the RGB
image, so every such conversion writes past its end (il_convbuff.cpp:415-417). -/
theorem C22_violated_rgb_alpha {fl : FloatOps} {junk junk' : Nat → Nat} {t p : Nat} {buf : List Nat} (ht : IsType t)
    (hp : 0 < p) (hl : buf.length = p * 3) (hfit : 12 * (p * ilGetBpcType t) < 4294967296) :
    ilConvertBuffer fl junk junk' IL_RGB IL_ALPHA t t buf = .error .oobWrite := by
  have hb := bpc_pos ht.bpc
  have e : p * 3 * ilGetBpcType t = 3 * (p * ilGetBpcType t) := by grind
  have hne : buf ≠ [] := by
    intro h; rw [h] at hl; simp at hl; omega
  rw [convert_run (a := .fill (fun n b => nb n b / 3) nb) (f := id) hne ht.bpc ht.bpc (by rw [hl]; omega)
    (by simp [compFn]) (by decide) rfl]
  simp only [Arm.run, List.length_map, hl]
  rw [nb_div hb (by omega), nb_scale (by omega), show 3 * (p * ilGetBpcType t) / 3 = p * ilGetBpcType t by omega,
    Nat.mul_div_cancel _ hb]
  rw [loopN_error (k := p) (e := .oobWrite) (by omega) (loopN_fill (fun _ => 0) (by simp))]
  · rfl
  · exact wr_of_ge (by simp)

/-- **C22 fails for luminance-alpha to alpha**: pixel `i` reads component `2*i + 3`, which for the last pixel is past
the end of the source (il_convbuff.cpp:1746-1747). -/
theorem C22_violated_la_alpha : ilConvertBuffer ⟨fun _ _ _ => 0, fun _ _ v => v⟩ (fun _ => 0) (fun _ => 0)
    IL_LUMINANCE_ALPHA IL_ALPHA IL_UNSIGNED_BYTE IL_UNSIGNED_BYTE [10, 20, 30, 40] = .error .oobRead := by
  decide +kernel

/-- **C22 fails for large images**: for 357913942 RGB pixels (1 GB, whose RGBA size still fits 32 bits) the byte count
`NumPix * BpcDest * 4 / 3` wraps to 2 and the first pixel is written past the end of the block
(il_convbuff.cpp:190). -/
theorem C22_violated_large {fl : FloatOps} {junk junk' : Nat → Nat} {buf : List Nat} (hl : buf.length = 357913942 * 3) :
    ilConvertBuffer fl junk junk' IL_RGB IL_RGBA IL_UNSIGNED_BYTE IL_UNSIGNED_BYTE buf = .error .oobWrite := by
  have hne : buf ≠ [] := by
    intro h; rw [h] at hl; simp at hl
  rw [convert_run (a := .loop (fun n b => u32 (nb n b * 4) / 3) 3 4 false false [.comp 0, .comp 1, .comp 2, .full])
    (f := id) hne (by decide) (by decide) (by
      rw [hl, show ilGetBpcType IL_UNSIGNED_BYTE = 1 from rfl]; decide)
    (by simp [compFn]) (by decide) rfl]
  simp only [Arm.run, hl, List.map_id_fun, id_eq]
  rw [show u32 (nb (357913942 * 3) (ilGetBpcType IL_UNSIGNED_BYTE) * 4) / 3 / ilGetBpcType IL_UNSIGNED_BYTE = 2 by decide]
  rw [loopN_error (k := 0) (e := .oobWrite) (by decide) rfl]
  · rfl
  · simp only [storeCells, evalCell, Nat.zero_mul, Nat.zero_add]
    rw [rd_of_lt (show 0 < buf.length by omega), rd_of_lt (show 1 < buf.length by omega),
      rd_of_lt (show 2 < buf.length by omega)]
    simp [wr]

/-! ## C23: luminance -/

/-- `l` is the luminance of a colour: 0.212671 red + 0.715160 green + 0.072169 blue rounded down, up to a relative error
of 2^-20. -/
def IsLum (r g b l : Nat) : Prop :=
  let w := 212671 * r + 715160 * g + 72169 * b
  1000000 * l ≤ w + w / 1048576 ∧ w < 1000000 * (l + 1) + w / 1048576 + 1

theorem lumOf_close {fl : FloatOps} {wide : Bool} {t x y z w0 w1 w2 l : Nat}
    (ht : t ∈ [IL_UNSIGNED_BYTE, IL_BYTE, IL_UNSIGNED_SHORT, IL_SHORT, IL_UNSIGNED_INT, IL_INT])
    (h : lumOf fl wide t [(x, w0), (y, w1), (z, w2)] = .ok l) :
    1000000 * l ≤ weighted [(x, w0), (y, w1), (z, w2)] + weighted [(x, w0), (y, w1), (z, w2)] / 1048576 ∧
    weighted [(x, w0), (y, w1), (z, w2)]
      < 1000000 * (l + 1) + weighted [(x, w0), (y, w1), (z, w2)] / 1048576 + 1 := by
  have key : ∀ (wd : Bool) (m : Nat), toUInt m ([(x, w0), (y, w1), (z, w2)].foldl (lumStep wd) 0) = .ok l →
      l = [(x, w0), (y, w1), (z, w2)].foldl (lumStep wd) 0 / 2 ^ 27 := by
    intro wd m hm
    unfold toUInt at hm
    split at hm
    · cases hm; rfl
    · cases hm
  have fin : ∀ (wd : Bool), l = [(x, w0), (y, w1), (z, w2)].foldl (lumStep wd) 0 / 2 ^ 27 → _ :=
    fun wd e => by
      have := lum_close (wide := wd) (x, w0) (y, w1) (z, w2)
      rw [← e] at this
      exact this
  simp only [List.mem_cons, List.not_mem_nil, or_false] at ht
  rcases ht with ht | ht | ht | ht | ht | ht <;> subst ht
  · exact fin false (key false 255 h)
  · exact fin false (key false 255 h)
  · exact fin false (key false 65535 h)
  · exact fin false (key false 65535 h)
  · exact fin wide (key wide 4294967295 h)
  · exact fin wide (key wide 4294967295 h)

theorem loopN_body_ok {σ : Type} {f : Nat → σ → C σ} : ∀ {n : Nat} {s t : σ}, loopN n f s = .ok t →
    ∀ k, k < n → ∃ s' t', f k s' = .ok t'
  | 0, _, _, _, _, hk => by omega
  | n + 1, s, t, h, k, hk => by
    rw [loopN_succ] at h
    cases hm : loopN n f s with
    | error e => rw [hm] at h; cases h
    | ok u =>
      rw [hm, bind_ok] at h
      by_cases hkn : k = n
      · subst hkn; exact ⟨u, t, h⟩
      · exact loopN_body_ok hm k (by omega)

theorem storeCells_ok {fl : FloatOps} {type : Nat} {wide : Bool} {src : List Nat} {base : Nat} :
    ∀ {cells : List Cell} {j : Nat} {d d' : List Nat}, storeCells fl type wide src base cells j d = .ok d' →
      ∀ c ∈ cells, ∃ x, evalCell fl type wide src base c = .ok x
  | [], _, _, _, _, c, hc => by cases hc
  | a :: cs, j, d, d', h, c, hc => by
    simp only [storeCells] at h
    cases hv : evalCell fl type wide src base a with
    | error e => rw [hv] at h; cases h
    | ok v =>
      rw [hv, bind_ok] at h
      rcases List.mem_cons.mp hc with hc | hc
      · subst hc; exact ⟨v, hv⟩
      · cases hw : wr d j v with
        | error e => rw [hw] at h; cases h
        | ok d1 =>
          rw [hw, bind_ok] at h
          exact storeCells_ok h c hc

theorem lum_pixels {fl : FloatOps} {junk junk' : Nat → Nat} {f g t p : Nat} {buf out : List Nat}
    {bytes : Nat → Nat → Nat} {s k w0 w1 w2 : Nat} {whole wide : Bool} {rest : List Cell}
    (ht : t ∈ [IL_UNSIGNED_BYTE, IL_BYTE, IL_UNSIGNED_SHORT, IL_SHORT, IL_UNSIGNED_INT, IL_INT])
    (hl : buf.length = p * width f) (hfit : 12 * (p * ilGetBpcType t) < 4294967296) (hp : 0 < p) (hgf : g ≠ f)
    (h3 : 3 ≤ width f) (ha : arm f g = some (.loop bytes s k whole wide (.lum w0 w1 w2 :: rest)))
    (hgood : Good f g (.loop bytes s k whole wide (.lum w0 w1 w2 :: rest)))
    (h : ilConvertBuffer fl junk junk' f g t t buf = .ok (some out)) :
    out.length = p * width g ∧ ∀ i, i < p → ∃ a b c l, buf[i * width f]? = some a ∧ buf[i * width f + 1]? = some b ∧
      buf[i * width f + 2]? = some c ∧ out[i * width g]? = some l ∧
      1000000 * l ≤ weighted [(a, w0), (b, w1), (c, w2)] + weighted [(a, w0), (b, w1), (c, w2)] / 1048576 ∧
      weighted [(a, w0), (b, w1), (c, w2)]
        < 1000000 * (l + 1) + weighted [(a, w0), (b, w1), (c, w2)] / 1048576 + 1 := by
  obtain ⟨e1, e2, e3, e4, e5⟩ := hgood
  subst e1
  subst e2
  have hty : IsType t := by
    unfold IsType
    simp only [List.mem_cons, List.not_mem_nil, or_false] at ht ⊢
    omega
  have hb := bpc_pos hty.bpc
  have hne : buf ≠ [] := by
    intro h
    rw [h] at hl
    have := Nat.mul_pos hp (width_pos f)
    simp at hl; omega
  have hw4 : p * width f ≤ p * 4 := Nat.mul_le_mul_left _ (width_le f)
  have hlen : buf.length * ilGetBpcType t < 4294967296 := by
    have h1 : buf.length * ilGetBpcType t ≤ p * 4 * ilGetBpcType t := Nat.mul_le_mul_right _ (by omega)
    have h2 : p * 4 * ilGetBpcType t = 4 * (p * ilGetBpcType t) := by grind
    omega
  rw [convert_run (f := id) hne hty.bpc hty.bpc hlen (by simp [compFn]) hgf ha] at h
  simp only [List.map_id_fun, id_eq] at h
  cases hr : Arm.run fl junk' t buf (.loop bytes (width f) (width g) whole wide (.lum w0 w1 w2 :: rest)) with
  | error e => rw [hr] at h; cases h
  | ok out' =>
    rw [hr] at h
    cases h
    have hbytes : bytes buf.length (ilGetBpcType t) / ilGetBpcType t = p * width g := by
      rw [hl]; exact e5 p _ hb hfit
    have hall : ∀ (i o : Nat) (c : Cell), i < p → (Cell.lum w0 w1 w2 :: rest)[o]? = some c →
        ∃ x, evalCell fl t wide buf (i * width f) c = .ok x := by
      intro i o c hi ho
      simp only [Arm.run] at hr
      obtain ⟨s', t', hb'⟩ := loopN_body_ok hr i (by rw [hl, iters_mul whole (width_pos f)]; exact hi)
      exact storeCells_ok hb' c (List.mem_of_getElem? ho)
    obtain ⟨out2, eo, lo, ho⟩ := loop_spec (fl := fl) (junk := junk') (whole := whole) (wide := wide) (width_pos f) hl
      hbytes e3 hall
    rw [hr] at eo
    cases eo
    refine ⟨lo, fun i hi => ?_⟩
    obtain ⟨l, hev, hol⟩ := ho i 0 (.lum w0 w1 w2) hi rfl
    have hi3 : (i + 1) * width f ≤ p * width f := Nat.mul_le_mul_right _ hi
    rw [Nat.add_mul, Nat.one_mul] at hi3
    have b0 : i * width f < buf.length := by omega
    have b1 : i * width f + 1 < buf.length := by omega
    have b2 : i * width f + 2 < buf.length := by omega
    refine ⟨buf[i * width f], buf[i * width f + 1], buf[i * width f + 2], l, List.getElem?_eq_getElem b0,
      List.getElem?_eq_getElem b1, List.getElem?_eq_getElem b2, by simpa using hol, ?_⟩
    simp only [evalCell, rd_of_lt b0, rd_of_lt b1, rd_of_lt b2, bind_ok] at hev
    exact lumOf_close ht hev

/-- **C23.**  The luminance of every pixel of every colour format is the weighted sum of its red, green and blue
values, wherever they are stored, up to rounding; so two images that hold the same colours in different orders get
luminances that agree up to rounding.  For luminance-alpha results only RGB and RGBA sources are covered: BGR and BGRA
are wrong (`C23_violated_la`).  `l` is exact only up to the rounding of the floating-point sums (`C23_violated_rounding`),
and the conversion has to be defined (`C23_violated_uint`; `C23_defined` for 8 and 16 bits).  `IL_FLOAT`, `IL_DOUBLE`
and `IL_HALF` components are not covered. -/
theorem C23_weights_partial {fl : FloatOps} {junk junk' : Nat → Nat} {f g t p : Nat} {buf out : List Nat}
    (hfg : (f, g) ∈ [(IL_RGB, IL_LUMINANCE), (IL_RGBA, IL_LUMINANCE), (IL_BGR, IL_LUMINANCE), (IL_BGRA, IL_LUMINANCE),
      (IL_RGB, IL_LUMINANCE_ALPHA), (IL_RGBA, IL_LUMINANCE_ALPHA)])
    (ht : t ∈ [IL_UNSIGNED_BYTE, IL_BYTE, IL_UNSIGNED_SHORT, IL_SHORT, IL_UNSIGNED_INT, IL_INT])
    (hp : 0 < p) (hl : buf.length = p * width f) (hfit : 12 * (p * ilGetBpcType t) < 4294967296)
    (h : ilConvertBuffer fl junk junk' f g t t buf = .ok (some out)) :
    out.length = p * width g ∧
    ∀ i, i < p → ∃ r gr b l, chan f buf i .red = some r ∧ chan f buf i .green = some gr ∧ chan f buf i .blue = some b ∧
      chan g out i .red = some l ∧ IsLum r gr b l := by
  simp only [List.mem_cons, List.not_mem_nil, or_false, Prod.mk.injEq] at hfg
  rcases hfg with ⟨h1, h2⟩ | ⟨h1, h2⟩ | ⟨h1, h2⟩ | ⟨h1, h2⟩ | ⟨h1, h2⟩ | ⟨h1, h2⟩ <;> subst h1 <;> subst h2
  all_goals
    obtain ⟨lo, hpx⟩ := lum_pixels ht hl hfit hp (by decide) (by decide) rfl
      (arm_good (by decide) (by decide) (by decide) (by decide) rfl) h
    refine ⟨lo, fun i hi => ?_⟩
    obtain ⟨a, b, c, l, ha, hb, hc, hol, hw⟩ := hpx i hi
    first
      | exact ⟨a, b, c, l, ha, hb, hc, hol, by
          have e : weighted [(a, 0), (b, 1), (c, 2)] = 212671 * a + 715160 * b + 72169 * c := by
            simp [weighted, weight]; omega
          rw [e] at hw
          exact hw⟩
      | exact ⟨c, b, a, l, hc, hb, ha, hol, by
          have e : weighted [(a, 2), (b, 1), (c, 0)] = 212671 * c + 715160 * b + 72169 * a := by
            simp [weighted, weight]; omega
          rw [e] at hw
          exact hw⟩

/-- **C23 (8-bit).**  Two 8-bit images that hold the same colours, in whatever colour formats, get luminances that
differ by at most one. -/
theorem C23_order_partial {fl fl' : FloatOps} {j1 j2 j3 j4 : Nat → Nat} {f f' p : Nat} {buf buf' out out' : List Nat}
    (hf : f ∈ [IL_RGB, IL_RGBA, IL_BGR, IL_BGRA]) (hf' : f' ∈ [IL_RGB, IL_RGBA, IL_BGR, IL_BGRA]) (hp : 0 < p)
    (hl : buf.length = p * width f) (hl' : buf'.length = p * width f') (hfit : 12 * p < 4294967296)
    (hbyte : ∀ v ∈ buf, v < 256)
    (hsame : ∀ i ch, i < p → ch ≠ Chan.alpha → chan f buf i ch = chan f' buf' i ch)
    (h : ilConvertBuffer fl j1 j2 f IL_LUMINANCE IL_UNSIGNED_BYTE IL_UNSIGNED_BYTE buf = .ok (some out))
    (h' : ilConvertBuffer fl' j3 j4 f' IL_LUMINANCE IL_UNSIGNED_BYTE IL_UNSIGNED_BYTE buf' = .ok (some out')) :
    ∀ i, i < p → ∃ l l', out[i]? = some l ∧ out'[i]? = some l' ∧ l ≤ l' + 1 ∧ l' ≤ l + 1 := by
  intro i hi
  have hpair : ∀ f ∈ [IL_RGB, IL_RGBA, IL_BGR, IL_BGRA], (f, IL_LUMINANCE) ∈ [(IL_RGB, IL_LUMINANCE),
      (IL_RGBA, IL_LUMINANCE), (IL_BGR, IL_LUMINANCE), (IL_BGRA, IL_LUMINANCE), (IL_RGB, IL_LUMINANCE_ALPHA),
      (IL_RGBA, IL_LUMINANCE_ALPHA)] := by decide
  have hb1 : ilGetBpcType IL_UNSIGNED_BYTE = 1 := rfl
  obtain ⟨_, h1⟩ := C23_weights_partial (hpair f hf) (by decide) hp hl (by rw [hb1]; omega) h
  obtain ⟨_, h2⟩ := C23_weights_partial (hpair f' hf') (by decide) hp hl' (by rw [hb1]; omega) h'
  obtain ⟨r, g, b, l, hr, hg, hb, ho, hL⟩ := h1 i hi
  obtain ⟨r', g', b', l', hr', hg', hb', ho', hL'⟩ := h2 i hi
  have er := hsame i .red hi (by decide)
  have eg := hsame i .green hi (by decide)
  have eb := hsame i .blue hi (by decide)
  rw [hr, hr'] at er
  rw [hg, hg'] at eg
  rw [hb, hb'] at eb
  cases er
  cases eg
  cases eb
  have hlt : ∀ ch v, chan f buf i ch = some v → v < 256 := by
    intro ch v hv
    unfold chan at hv
    cases hpl : place f ch with
    | none => rw [hpl] at hv; cases hv
    | some o =>
      rw [hpl] at hv
      exact hbyte v (List.mem_of_getElem? hv)
  have := hlt _ _ hr
  have := hlt _ _ hg
  have := hlt _ _ hb
  refine ⟨l, l', ?_, ?_, ?_, ?_⟩
  · simpa [chan, place, width, show IL_LUMINANCE ≠ IL_RGB by decide, show IL_LUMINANCE ≠ IL_RGBA by decide,
      show IL_LUMINANCE ≠ IL_BGR by decide, show IL_LUMINANCE ≠ IL_BGRA by decide,
      show IL_LUMINANCE ≠ IL_LUMINANCE_ALPHA by decide] using ho
  · simpa [chan, place, width, show IL_LUMINANCE ≠ IL_RGB by decide, show IL_LUMINANCE ≠ IL_RGBA by decide,
      show IL_LUMINANCE ≠ IL_BGR by decide, show IL_LUMINANCE ≠ IL_BGRA by decide,
      show IL_LUMINANCE ≠ IL_LUMINANCE_ALPHA by decide] using ho'
  · unfold IsLum at hL hL'
    omega
  · unfold IsLum at hL hL'
    omega

/-- The hypotheses of `C23_order_partial` hold of a red and a grey pixel in RGB and in BGRA order. -/
example : ilConvertBuffer ⟨fun _ _ _ => 0, fun _ _ v => v⟩ (fun _ => 9) (fun _ => 9) IL_RGB IL_LUMINANCE
      IL_UNSIGNED_BYTE IL_UNSIGNED_BYTE [255, 0, 0, 9, 9, 9] = .ok (some [54, 9]) ∧
    ilConvertBuffer ⟨fun _ _ _ => 0, fun _ _ v => v⟩ (fun _ => 9) (fun _ => 9) IL_BGRA IL_LUMINANCE
      IL_UNSIGNED_BYTE IL_UNSIGNED_BYTE [0, 0, 255, 1, 9, 9, 9, 2] = .ok (some [54, 9]) ∧
    (∀ i ch, i < 2 → ch ≠ Chan.alpha →
      chan IL_RGB [255, 0, 0, 9, 9, 9] i ch = chan IL_BGRA [0, 0, 255, 1, 9, 9, 9, 2] i ch) := by
  refine ⟨by decide +kernel, by decide +kernel, fun i ch hi hch => ?_⟩
  obtain h | h : i = 0 ∨ i = 1 := by omega
  all_goals subst h; cases ch <;> first | rfl | exact absurd rfl hch

/-- **C23 (defined).**  For 8- and 16-bit integer components the luminance never overflows: every colour image has a
luminance image. -/
theorem C23_defined {fl : FloatOps} {junk junk' : Nat → Nat} {f g t p m : Nat} {buf : List Nat}
    (hfg : (f, g) ∈ [(IL_RGB, IL_LUMINANCE), (IL_RGBA, IL_LUMINANCE), (IL_BGR, IL_LUMINANCE), (IL_BGRA, IL_LUMINANCE),
      (IL_RGB, IL_LUMINANCE_ALPHA), (IL_RGBA, IL_LUMINANCE_ALPHA), (IL_BGR, IL_LUMINANCE_ALPHA),
      (IL_BGRA, IL_LUMINANCE_ALPHA)])
    (ht : (t, m) ∈ [(IL_UNSIGNED_BYTE, 255), (IL_BYTE, 255), (IL_UNSIGNED_SHORT, 65535), (IL_SHORT, 65535)])
    (hp : 0 < p) (hl : buf.length = p * width f) (hfit : 12 * (p * ilGetBpcType t) < 4294967296)
    (hrange : ∀ v ∈ buf, v ≤ m) :
    ∃ out, ilConvertBuffer fl junk junk' f g t t buf = .ok (some out) ∧ out.length = p * width g := by
  have hty : IsType t ∧ (t ∈ [IL_UNSIGNED_BYTE, IL_BYTE] ∧ m = 255 ∨ t ∈ [IL_UNSIGNED_SHORT, IL_SHORT] ∧ m = 65535) := by
    unfold IsType
    simp only [List.mem_cons, List.not_mem_nil, or_false, Prod.mk.injEq] at ht ⊢
    omega
  have hlum : ∀ (wide : Bool) (a b c w0 w1 w2 : Nat), a ≤ m → b ≤ m → c ≤ m →
      weight w0 + weight w1 + weight w2 = 1000000 →
      ∃ x, lumOf fl wide t [(a, w0), (b, w1), (c, w2)] = .ok x := by
    intro wide a b c w0 w1 w2 ha hb hc hw
    have hcl := lum_close (wide := false) (a, w0) (b, w1) (c, w2)
    have hle : weighted [(a, w0), (b, w1), (c, w2)] ≤ 1000000 * m := by
      have h1 : weight w0 * a ≤ weight w0 * m := Nat.mul_le_mul_left _ ha
      have h2 : weight w1 * b ≤ weight w1 * m := Nat.mul_le_mul_left _ hb
      have h3 : weight w2 * c ≤ weight w2 * m := Nat.mul_le_mul_left _ hc
      have h4 : weight w0 * m + weight w1 * m + weight w2 * m = 1000000 * m := by rw [← hw]; grind
      simp only [weighted, List.map_cons, List.map_nil, List.sum_cons, List.sum_nil]
      omega
    have hm : [(a, w0), (b, w1), (c, w2)].foldl (lumStep false) 0 / 2 ^ 27 ≤ m := by
      simp only [] at hcl
      have hm5 : m ≤ 65535 := by
        rcases hty.2 with ⟨_, h⟩ | ⟨_, h⟩ <;> omega
      omega
    refine ⟨[(a, w0), (b, w1), (c, w2)].foldl (lumStep false) 0 / 2 ^ 27, ?_⟩
    rcases hty.2 with ⟨h1, h2⟩ | ⟨h1, h2⟩ <;> subst h2 <;>
      simp only [List.mem_cons, List.not_mem_nil, or_false] at h1 <;> rcases h1 with h1 | h1 <;> subst h1 <;>
      · show toUInt _ _ = _
        unfold toUInt
        rw [if_pos hm]; rfl
  have hb := bpc_pos hty.1.bpc
  have hne : buf ≠ [] := by
    intro h
    rw [h] at hl
    have := Nat.mul_pos hp (width_pos f)
    simp at hl; omega
  have hw4 : p * width f ≤ p * 4 := Nat.mul_le_mul_left _ (width_le f)
  have hlen : buf.length * ilGetBpcType t < 4294967296 := by
    have h1 : buf.length * ilGetBpcType t ≤ p * 4 * ilGetBpcType t := Nat.mul_le_mul_right _ (by omega)
    have h2 : p * 4 * ilGetBpcType t = 4 * (p * ilGetBpcType t) := by grind
    omega
  have hfg2 : f ∈ formats ∧ g ∈ formats ∧ g ≠ f ∧ g ≠ IL_ALPHA ∧ 3 ≤ width f ∧
      ∃ bytes s k whole wide cells, arm f g = some (.loop bytes s k whole wide cells) ∧
      ∀ c ∈ cells, c.plain = true ∨ ∃ w0 w1 w2, c = .lum w0 w1 w2 ∧ weight w0 + weight w1 + weight w2 = 1000000 := by
    simp only [List.mem_cons, List.not_mem_nil, or_false, Prod.mk.injEq] at hfg
    rcases hfg with ⟨h1, h2⟩ | ⟨h1, h2⟩ | ⟨h1, h2⟩ | ⟨h1, h2⟩ | ⟨h1, h2⟩ | ⟨h1, h2⟩ | ⟨h1, h2⟩ | ⟨h1, h2⟩ <;> subst h1 <;>
      subst h2 <;> refine ⟨by decide, by decide, by decide, by decide, by decide, _, _, _, _, _, _, rfl, ?_⟩ <;>
      intro c hc <;> simp only [List.mem_cons, List.not_mem_nil, or_false] at hc <;>
      (first
        | (rcases hc with hc | hc <;> subst hc <;> first | exact Or.inl rfl | exact Or.inr ⟨_, _, _, rfl, rfl⟩)
        | (subst hc; exact Or.inr ⟨_, _, _, rfl, rfl⟩))
  obtain ⟨hf, hg, hgf, hga, hw3, bytes, s, k, whole, wide, cells, ha, hcells⟩ := hfg2
  obtain ⟨e1, e2, e3, e4, e5⟩ := arm_good hf hg (fun h => hga h.2) (fun h => hga h.2) ha
  subst e1
  subst e2
  have hall : ∀ (i o : Nat) (c : Cell), i < p → cells[o]? = some c →
      ∃ x, evalCell fl t wide buf (i * width f) c = .ok x := by
    intro i o c hi ho
    have hi3 : (i + 1) * width f ≤ p * width f := Nat.mul_le_mul_right _ hi
    rw [Nat.add_mul, Nat.one_mul] at hi3
    rcases hcells c (List.mem_of_getElem? ho) with hpl | ⟨w0, w1, w2, hc, hw⟩
    · obtain ⟨x, hx, _⟩ := evalCell_plain (fl := fl) (type := t) (wide := wide) (src := buf) (base := i * width f) hpl
        (e4 c (List.mem_of_getElem? ho)) (by omega)
      exact ⟨x, hx⟩
    · subst hc
      have b0 : i * width f < buf.length := by omega
      have b1 : i * width f + 1 < buf.length := by omega
      have b2 : i * width f + 2 < buf.length := by omega
      simp only [evalCell, rd_of_lt b0, rd_of_lt b1, rd_of_lt b2, bind_ok]
      exact hlum _ _ _ _ _ _ _ (hrange _ (List.getElem_mem b0)) (hrange _ (List.getElem_mem b1))
        (hrange _ (List.getElem_mem b2)) hw
  obtain ⟨out, eo, lo, _⟩ := loop_spec (fl := fl) (junk := junk') (whole := whole) (wide := wide) (width_pos f) hl
    (by rw [hl]; exact e5 p _ hb hfit) e3 hall
  refine ⟨out, ?_, lo⟩
  rw [convert_run (f := id) hne hty.1.bpc hty.1.bpc hlen (by simp [compFn]) hgf ha]
  simp only [List.map_id_fun, id_eq, eo]
  rfl

/-- A concrete case of `C23_defined`: white 16-bit pixels. -/
example : ilConvertBuffer ⟨fun _ _ _ => 0, fun _ _ v => v⟩ (fun _ => 9) (fun _ => 9) IL_BGR IL_LUMINANCE
    IL_UNSIGNED_SHORT IL_UNSIGNED_SHORT [65535, 65535, 65535] = .ok (some [65535]) := by decide +kernel

/-- **C23 fails exactly by rounding**: the floats are summed in storage order, so the colour (4, 136, 234) has
luminance 115 stored as RGB and 114 stored as BGR. -/
theorem C23_violated_rounding :
    ilConvertBuffer ⟨fun _ _ _ => 0, fun _ _ v => v⟩ (fun _ => 0) (fun _ => 0) IL_RGB IL_LUMINANCE IL_UNSIGNED_BYTE
      IL_UNSIGNED_BYTE [4, 136, 234] = .ok (some [115]) ∧
    ilConvertBuffer ⟨fun _ _ _ => 0, fun _ _ v => v⟩ (fun _ => 0) (fun _ => 0) IL_BGR IL_LUMINANCE IL_UNSIGNED_BYTE
      IL_UNSIGNED_BYTE [234, 136, 4] = .ok (some [114]) := by
  constructor <;> decide +kernel

/-- **C23 fails for luminance-alpha**: BGR and BGRA pixels are weighted as if they were RGB (il_convbuff.cpp:1007,
1311), so pure red gets the luminance of blue. -/
theorem C23_violated_la :
    ilConvertBuffer ⟨fun _ _ _ => 0, fun _ _ v => v⟩ (fun _ => 0) (fun _ => 0) IL_RGB IL_LUMINANCE_ALPHA
      IL_UNSIGNED_BYTE IL_UNSIGNED_BYTE [255, 0, 0] = .ok (some [54, 255]) ∧
    ilConvertBuffer ⟨fun _ _ _ => 0, fun _ _ v => v⟩ (fun _ => 0) (fun _ => 0) IL_BGR IL_LUMINANCE_ALPHA
      IL_UNSIGNED_BYTE IL_UNSIGNED_BYTE [0, 0, 255] = .ok (some [18, 255]) ∧
    ilConvertBuffer ⟨fun _ _ _ => 0, fun _ _ v => v⟩ (fun _ => 0) (fun _ => 0) IL_BGRA IL_LUMINANCE_ALPHA
      IL_UNSIGNED_BYTE IL_UNSIGNED_BYTE [0, 0, 255, 7] = .ok (some [18, 7]) := by
  refine ⟨?_, ?_, ?_⟩ <;> decide +kernel

/-- **C23 is undefined for 32-bit white**: the float sum of a white `IL_UNSIGNED_INT` RGB pixel is 2^32, which does not
fit `ILuint` (il_convbuff.cpp:325-327). -/
theorem C23_violated_uint :
    ilConvertBuffer ⟨fun _ _ _ => 0, fun _ _ v => v⟩ (fun _ => 0) (fun _ => 0) IL_RGB IL_LUMINANCE IL_UNSIGNED_INT
      IL_UNSIGNED_INT [4294967295, 4294967295, 4294967295] = .error .overflow := by
  decide +kernel

/-- **C23: grey is not kept exactly**: the 8-bit grey 35 becomes 34. -/
theorem C23_violated_grey :
    ilConvertBuffer ⟨fun _ _ _ => 0, fun _ _ v => v⟩ (fun _ => 0) (fun _ => 0) IL_RGB IL_LUMINANCE IL_UNSIGNED_BYTE
      IL_UNSIGNED_BYTE [35, 35, 35] = .ok (some [34]) := by
  decide +kernel

end DevIL.Conv
