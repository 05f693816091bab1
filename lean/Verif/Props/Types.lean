import Verif.Props.Convert
/-! Conversion between component types (C24, C25). -/
set_option autoImplicit false
namespace DevIL.Conv
open Utility

/-! ## Specification vocabulary -/

/-- The integer component types. -/
def IsInt (t : Nat) : Prop := t ∈ [IL_BYTE, IL_UNSIGNED_BYTE, IL_SHORT, IL_UNSIGNED_SHORT, IL_INT, IL_UNSIGNED_INT]

/-- Bits in an integer component. -/
def bits (t : Nat) : Nat :=
  if t = IL_BYTE ∨ t = IL_UNSIGNED_BYTE then 8 else if t = IL_SHORT ∨ t = IL_UNSIGNED_SHORT then 16 else 32

/-- Whether an integer type is signed. -/
def signed (t : Nat) : Bool := decide (t = IL_BYTE ∨ t = IL_SHORT ∨ t = IL_INT)

/-- The number a bit pattern stands for (two's complement for the signed types). -/
def value (t v : Nat) : Int := if signed t = true ∧ 2 ^ (bits t - 1) ≤ v then (v : Int) - 2 ^ bits t else v

/-! ## The component functions -/

theorem rep2 {v : Nat} (h : v < 256) : v <<< 8 ||| v = 257 * v := by
  rw [← Nat.shiftLeft_add_eq_or_of_lt (by simpa using h), Nat.shiftLeft_eq]; simp only [Nat.reducePow]; omega

theorem rep2s {v : Nat} (h : v < 65536) : v <<< 16 ||| v = 65537 * v := by
  rw [← Nat.shiftLeft_add_eq_or_of_lt (by simpa using h), Nat.shiftLeft_eq]; simp only [Nat.reducePow]; omega

theorem rep4 {v : Nat} (h : v < 256) : v <<< 24 ||| v <<< 16 ||| v <<< 8 ||| v = 16843009 * v := by
  rw [Nat.or_assoc, Nat.or_assoc, rep2 h, ← Nat.shiftLeft_add_eq_or_of_lt (i := 16), ← Nat.shiftLeft_add_eq_or_of_lt (i := 24)]
  · simp only [Nat.shiftLeft_eq, Nat.reducePow]; omega
  · simp only [Nat.shiftLeft_eq, Nat.reducePow]; omega
  · simp only [Nat.reducePow]; omega

theorem IsInt.type {t : Nat} (h : IsInt t) : IsType t := by
  unfold IsInt at h
  simp only [List.mem_cons, List.not_mem_nil, or_false] at h
  rcases h with h | h | h | h | h | h <;> subst h <;> unfold IsType <;> decide

/-- The function `iSwitchTypes` uses to go from `b` to `c` bits, `b < c`. -/
def widenFn (b c : Nat) : Nat → Nat :=
  if b = 8 then (if c = 16 then fun v => v <<< 8 ||| v else fun v => v <<< 24 ||| v <<< 16 ||| v <<< 8 ||| v)
  else fun v => v <<< 16 ||| v

theorem bits_cases {t : Nat} : bits t = 8 ∨ bits t = 16 ∨ bits t = 32 := by
  unfold bits; split
  · exact .inl rfl
  · split
    · exact .inr (.inl rfl)
    · exact .inr (.inr rfl)

theorem widen_fn {fl : FloatOps} {s t : Nat} (hs : IsInt s) (ht : IsInt t) (h : bits s < bits t) :
    ∃ f, compFn fl s t = some f ∧ ∀ v, v < 2 ^ bits s → f v = (2 ^ bits t - 1) / (2 ^ bits s - 1) * v := by
  have e : compFn fl s t = some (widenFn (bits s) (bits t)) := by
    unfold IsInt at hs ht
    simp only [List.mem_cons, List.not_mem_nil, or_false] at hs ht
    rcases hs with hs | hs | hs | hs | hs | hs <;> rcases ht with ht | ht | ht | ht | ht | ht <;>
      subst hs <;> subst ht <;> first | (exfalso; revert h; decide) | rfl
  refine ⟨_, e, fun v hv => ?_⟩
  rcases bits_cases (t := s) with e1 | e1 | e1 <;> rcases bits_cases (t := t) with e2 | e2 | e2 <;>
    rw [e1, e2] at h ⊢ <;> rw [e1] at hv <;> simp only [Nat.reducePow, Nat.reduceSub, Nat.reduceDiv] at hv ⊢
  · omega
  · exact rep2 hv
  · exact rep4 hv
  · omega
  · omega
  · exact rep2s hv
  · omega
  · omega
  · omega

theorem narrow_fn {fl : FloatOps} {s t : Nat} (hs : IsInt s) (ht : IsInt t) (h : bits t < bits s) :
    ∃ f, compFn fl s t = some f ∧ ∀ v, f v = v / 2 ^ (bits s - bits t) := by
  unfold IsInt at hs ht
  simp only [List.mem_cons, List.not_mem_nil, or_false] at hs ht
  rcases hs with hs | hs | hs | hs | hs | hs <;> rcases ht with ht | ht | ht | ht | ht | ht <;>
    subst hs <;> subst ht <;>
    first
      | (exfalso; revert h; decide)
      | exact ⟨_, rfl, fun v => Nat.shiftRight_eq_div_pow v 8⟩
      | exact ⟨_, rfl, fun v => Nat.shiftRight_eq_div_pow v 16⟩
      | exact ⟨_, rfl, fun v => Nat.shiftRight_eq_div_pow v 24⟩

/-! ## C24 -/

/-- **C24, lossless.**  Converting a buffer of integer components to a wider integer type succeeds, scales every component
by the ratio of the full scales, and converting the result back returns the original buffer. -/
theorem C24_lossless (fl : FloatOps) (j1 j2 j3 j4 : Nat → Nat) (fmt s t : Nat) (buf : List Nat) (hs : IsInt s)
    (ht : IsInt t) (hw : bits s < bits t) (hne : buf ≠ []) (hl : buf.length * 4 < 4294967296)
    (hv : ∀ v ∈ buf, v < 2 ^ bits s) :
    ∃ wide, ilConvertBuffer fl j1 j2 fmt fmt s t buf = .ok (some wide) ∧
      wide = buf.map (fun v => (2 ^ bits t - 1) / (2 ^ bits s - 1) * v) ∧
      ilConvertBuffer fl j3 j4 fmt fmt t s wide = .ok (some buf) := by
  obtain ⟨f, hf, ef⟩ := widen_fn (fl := fl) hs ht hw
  obtain ⟨g, hg, eg⟩ := narrow_fn (fl := fl) ht hs hw
  have b4 : ∀ {u}, IsInt u → ilGetBpcType u ≤ 4 := by
    intro u hu
    unfold IsInt at hu
    simp only [List.mem_cons, List.not_mem_nil, or_false] at hu
    rcases hu with h | h | h | h | h | h <;> subst h <;> decide
  have hle : ∀ {u}, IsInt u → buf.length * ilGetBpcType u < 4294967296 := fun hu =>
    Nat.lt_of_le_of_lt (Nat.mul_le_mul_left _ (b4 hu)) hl
  have hm : buf.map f = buf.map (fun v => (2 ^ bits t - 1) / (2 ^ bits s - 1) * v) :=
    List.map_congr_left (fun v h => ef v (hv v h))
  refine ⟨buf.map f, convert_same hne hs.type.bpc ht.type.bpc (hle ht) hf, hm, ?_⟩
  rw [convert_same (by simpa using hne) ht.type.bpc hs.type.bpc (by simpa using hle hs) hg]
  rw [List.map_map]
  congr 2
  conv => rhs; rw [← List.map_id buf]
  refine List.map_congr_left (fun v h => ?_)
  have h1 := hv v h
  simp only [Function.comp, ef v h1, eg, id]
  rcases bits_cases (t := s) with e | e | e <;> rcases bits_cases (t := t) with e' | e' | e' <;> rw [e, e'] at hw ⊢ <;>
    rw [e] at h1 <;> simp only [Nat.reducePow, Nat.reduceSub, Nat.reduceDiv] at h1 ⊢ <;> omega

/-- **C24, end points.**  Zero widens to zero and, between unsigned types, full scale to full scale.
Missing (and false): full scale of the signed types. -/
theorem C24_end_points_partial (fl : FloatOps) (j1 j2 : Nat → Nat) (fmt s t : Nat) (buf wide : List Nat) (hs : IsInt s)
    (ht : IsInt t) (hw : bits s < bits t) (hne : buf ≠ []) (hl : buf.length * 4 < 4294967296)
    (hv : ∀ v ∈ buf, v < 2 ^ bits s) (h : ilConvertBuffer fl j1 j2 fmt fmt s t buf = .ok (some wide)) (i : Nat) :
    (buf[i]? = some 0 → wide[i]? = some 0) ∧
    (signed s = false → signed t = false → buf[i]? = some (opaqueOf s) → wide[i]? = some (opaqueOf t)) := by
  obtain ⟨w, e, hm, -⟩ := C24_lossless fl j1 j2 j1 j2 fmt s t buf hs ht hw hne hl hv
  rw [e] at h
  cases h
  rw [hm]
  refine ⟨fun h0 => by simp [h0], fun us ut hf => ?_⟩
  rw [List.getElem?_map, hf]
  unfold IsInt at hs ht
  simp only [List.mem_cons, List.not_mem_nil, or_false] at hs ht
  rcases hs with hs | hs | hs | hs | hs | hs <;> rcases ht with ht | ht | ht | ht | ht | ht <;>
    subst hs <;> subst ht <;>
    first
      | (exfalso; revert hw; decide)
      | (exfalso; revert us; decide)
      | (exfalso; revert ut; decide)
      | decide

theorem value_u {t v : Nat} (h : signed t = false) : value t v = v := by simp [value, h]

theorem value_s {t v : Nat} (h : signed t = true) :
    value t v = if 2 ^ (bits t - 1) ≤ v then (v : Int) - 2 ^ bits t else v := by simp [value, h]

/-- **C24, order.**  Between integer types that are both signed or both unsigned, whatever their sizes, the conversion
keeps the order of the component values.  Missing (and false): signed to unsigned and back. -/
theorem C24_order_partial (fl : FloatOps) (j1 j2 : Nat → Nat) (fmt s t : Nat) (buf out : List Nat) (hs : IsInt s)
    (ht : IsInt t) (hsg : signed s = signed t) (hne : buf ≠ []) (hl : buf.length * 4 < 4294967296)
    (hv : ∀ v ∈ buf, v < 2 ^ bits s) (h : ilConvertBuffer fl j1 j2 fmt fmt s t buf = .ok (some out))
    (i j u v u' v' : Nat) (hu : buf[i]? = some u) (hv' : buf[j]? = some v) (ho : out[i]? = some u')
    (ho' : out[j]? = some v') (hle : value s u ≤ value s v) : value t u' ≤ value t v' := by
  have hu0 := hv u (List.mem_of_getElem? hu)
  have hv0 := hv v (List.mem_of_getElem? hv')
  have hst : bits s = bits t → s = t := by
    intro e
    unfold IsInt at hs ht
    simp only [List.mem_cons, List.not_mem_nil, or_false] at hs ht
    rcases hs with hs | hs | hs | hs | hs | hs <;> rcases ht with ht | ht | ht | ht | ht | ht <;>
      subst hs <;> subst ht <;> revert e hsg <;> decide
  have hle4 : buf.length * ilGetBpcType t < 4294967296 := by
    refine Nat.lt_of_le_of_lt (Nat.mul_le_mul_left _ ?_) hl
    unfold IsInt at ht
    simp only [List.mem_cons, List.not_mem_nil, or_false] at ht
    rcases ht with h | h | h | h | h | h <;> subst h <;> decide
  rcases Nat.lt_trichotomy (bits s) (bits t) with hw | hw | hw
  · obtain ⟨w, e, hm, -⟩ := C24_lossless fl j1 j2 j1 j2 fmt s t buf hs ht hw hne hl hv
    rw [e] at h
    cases h
    rw [hm, List.getElem?_map, hu] at ho
    rw [hm, List.getElem?_map, hv'] at ho'
    cases ho; cases ho'
    cases hb : signed s
    · rw [value_u hb, value_u hb] at hle
      rw [value_u (hsg ▸ hb), value_u (hsg ▸ hb)]
      have := Nat.mul_le_mul_left ((2 ^ bits t - 1) / (2 ^ bits s - 1)) (Int.ofNat_le.mp hle)
      exact Int.ofNat_le.mpr this
    · rw [value_s hb, value_s hb] at hle
      rw [value_s (hsg ▸ hb), value_s (hsg ▸ hb)]
      rcases bits_cases (t := s) with e | e | e <;> rcases bits_cases (t := t) with e' | e' | e' <;> rw [e, e'] at hw ⊢ <;>
        rw [e] at hu0 hv0 hle <;> simp only [Nat.reducePow, Nat.reduceSub, Nat.reduceDiv] at hu0 hv0 hle ⊢ <;> omega
  · have := hst hw
    subst this
    rw [convert_same hne hs.type.bpc hs.type.bpc hle4 (f := id) (by simp [compFn])] at h
    cases h
    simp only [List.map_id] at ho ho'
    rw [hu] at ho
    rw [hv'] at ho'
    cases ho; cases ho'
    exact hle
  · obtain ⟨g, hg, eg⟩ := narrow_fn (fl := fl) hs ht hw
    rw [convert_same hne hs.type.bpc ht.type.bpc hle4 hg] at h
    cases h
    rw [List.getElem?_map, hu] at ho
    rw [List.getElem?_map, hv'] at ho'
    cases ho; cases ho'
    rw [eg, eg]
    cases hb : signed s
    · rw [value_u hb, value_u hb] at hle
      rw [value_u (hsg ▸ hb), value_u (hsg ▸ hb)]
      exact Int.ofNat_le.mpr (Nat.div_le_div_right (Int.ofNat_le.mp hle))
    · rw [value_s hb, value_s hb] at hle
      rw [value_s (hsg ▸ hb), value_s (hsg ▸ hb)]
      rcases bits_cases (t := s) with e | e | e <;> rcases bits_cases (t := t) with e' | e' | e' <;> rw [e, e'] at hw ⊢ <;>
        rw [e] at hu0 hv0 hle <;> simp only [Nat.reducePow, Nat.reduceSub, Nat.reduceDiv] at hu0 hv0 hle ⊢ <;> omega

/-- Floating-point operations for the concrete cases below, which do not use them. -/
def noFloats : FloatOps := ⟨fun _ _ _ => 0, fun _ _ v => v⟩

/-- **C24 fails at the full scale of signed types**: the largest signed byte, 127, becomes 0x7F7F = 32639, not 32767. -/
theorem C24_violated_signed_full_scale :
    ilConvertBuffer noFloats (fun _ => 0) (fun _ => 0) IL_LUMINANCE IL_LUMINANCE IL_BYTE IL_SHORT [opaqueOf IL_BYTE]
      = .ok (some [32639]) ∧ opaqueOf IL_SHORT = 32767 := by decide

/-- **C24 fails for the order between unsigned and signed types**: 100 < 200 as unsigned bytes, but 200 becomes a
negative short. -/
theorem C24_violated_mixed_order :
    ilConvertBuffer noFloats (fun _ => 0) (fun _ => 0) IL_LUMINANCE IL_LUMINANCE IL_UNSIGNED_BYTE IL_SHORT [100, 200]
      = .ok (some [25700, 51400]) ∧ value IL_SHORT 25700 = 25700 ∧ value IL_SHORT 51400 = -14136 := by decide

/-- A concrete case of `C24_lossless` and `C24_order_partial`. -/
example : IsInt IL_BYTE ∧ IsInt IL_INT ∧ bits IL_BYTE < bits IL_INT ∧ value IL_BYTE 200 = -56 ∧
    ilConvertBuffer noFloats (fun _ => 9) (fun _ => 9) IL_RGB IL_RGB IL_BYTE IL_INT [1, 200, 127]
      = .ok (some [0x01010101, 0xC8C8C8C8, 0x7F7F7F7F]) := by unfold IsInt; decide

/-! ## C25 -/

/-- Two types of the same size that differ only in signedness. -/
def SignPair (s t : Nat) : Prop := IsInt s ∧ IsInt t ∧ bits s = bits t ∧ s ≠ t

/-- **C25.**  For every two component types that do not differ in signedness alone, the result of the conversion is a
function of the input: it is the same whatever the fresh blocks contained.
Missing (and false): types that differ only in signedness. -/
theorem C25_initialised_partial (fl : FloatOps) (fmt s t : Nat) (buf : List Nat) (hs : IsType s) (ht : IsType t)
    (hp : ¬ SignPair s t) (hne : buf ≠ []) (hl : buf.length * 8 < 4294967296) :
    ∃ out, out.length = buf.length ∧ ∀ junk junk', ilConvertBuffer fl junk junk' fmt fmt s t buf = .ok (some out) := by
  have hle : buf.length * ilGetBpcType t < 4294967296 :=
    Nat.lt_of_le_of_lt (Nat.mul_le_mul_left _ ht.le) hl
  have : ∃ f, compFn fl s t = some f := by
    unfold IsType at hs ht
    simp only [List.mem_cons, List.not_mem_nil, or_false] at hs ht
    rcases hs with hs | hs | hs | hs | hs | hs | hs | hs | hs <;>
      rcases ht with ht | ht | ht | ht | ht | ht | ht | ht | ht <;> subst hs <;> subst ht <;>
      first
        | exact ⟨_, rfl⟩
        | (exfalso; revert hp; unfold SignPair IsInt; decide)
  obtain ⟨f, hf⟩ := this
  exact ⟨buf.map f, by simp, fun junk junk' => convert_same hne hs.bpc ht.bpc hle hf⟩

/-- **C25 fails for every pair of types that differ only in signedness**: the result is what the fresh block held, so
nothing of the input survives. -/
theorem C25_violated_sign_pairs (fl : FloatOps) (fmt s t : Nat) (buf : List Nat) (hp : SignPair s t) (hne : buf ≠ [])
    (hl : buf.length * 4 < 4294967296) (junk junk' : Nat → Nat) :
    ilConvertBuffer fl junk junk' fmt fmt s t buf = .ok (some (alloc junk buf.length)) := by
  obtain ⟨hs, ht, hb, hst⟩ := hp
  have h4 : ilGetBpcType t ≤ 4 := by
    unfold IsInt at ht
    simp only [List.mem_cons, List.not_mem_nil, or_false] at ht
    rcases ht with h | h | h | h | h | h <;> subst h <;> decide
  have hle : buf.length * ilGetBpcType t < 4294967296 := Nat.lt_of_le_of_lt (Nat.mul_le_mul_left _ h4) hl
  have hsw : switchOne fl s t = none := by
    unfold IsInt at hs ht
    simp only [List.mem_cons, List.not_mem_nil, or_false] at hs ht
    rcases hs with hs | hs | hs | hs | hs | hs <;> rcases ht with ht | ht | ht | ht | ht | ht <;> subst hs <;> subst ht <;>
      first
        | rfl
        | (exfalso; revert hst; decide)
        | (exfalso; revert hb; decide)
  have e : iSwitchTypes fl junk s t buf = .ok (alloc junk buf.length) := by
    unfold iSwitchTypes
    rw [if_neg hst]
    simp only [hsw, nb_div (bpc_pos ht.type.bpc) hle]
    rfl
  have key := convert_same (fl := fl) (junk := junk) (junk' := junk') (sf := fmt) (st := t) (dt := t)
    (buf := alloc junk buf.length) (f := id) (by
      intro h
      have := congrArg List.length h
      rw [alloc_length] at this
      exact hne (List.length_eq_zero_iff.mp this)) ht.type.bpc ht.type.bpc (by rw [alloc_length]; exact hle)
    (by simp [compFn])
  unfold ilConvertBuffer at key ⊢
  rw [if_neg (by simp [hne, hs.type.bpc, ht.type.bpc]), e]
  rw [if_neg (by
    rw [not_or, not_or]
    refine ⟨?_, ht.type.bpc, ht.type.bpc⟩
    intro h
    have := congrArg List.length h
    rw [alloc_length] at this
    exact hne (List.length_eq_zero_iff.mp this)), List.map_id] at key
  have e2 : iSwitchTypes fl junk t t (alloc junk buf.length) = .ok (alloc junk buf.length) := by
    simp [iSwitchTypes]
  rw [e2] at key
  exact key

/-- The pairs exist, and so do pairs that are converted. -/
example : SignPair IL_UNSIGNED_BYTE IL_BYTE ∧ ¬ SignPair IL_UNSIGNED_BYTE IL_SHORT := by
  unfold SignPair IsInt; decide

end DevIL.Conv
