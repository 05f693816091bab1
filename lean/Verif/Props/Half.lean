import Verif.Model.Half
import Mathlib.Data.Nat.Bitwise
import Mathlib.Tactic.IntervalCases
/-! Half-float conversion (C28, C70). -/
set_option autoImplicit false
namespace DevIL.Half

/-! ## Bit arithmetic -/

theorem and_mask (x k : Nat) : x &&& (2 ^ k - 1) = x % 2 ^ k := Nat.and_two_pow_sub_one_eq_mod x k

theorem or_add {a k b : Nat} (h : b < 2 ^ k) : (a <<< k) ||| b = a * 2 ^ k + b := by
  rw [← Nat.shiftLeft_add_eq_or_of_lt h, Nat.shiftLeft_eq]

/-- Testing one bit. -/
theorem bit_ne (m k : Nat) : (m &&& 2 ^ k ≠ 0) ↔ m / 2 ^ k % 2 = 1 := by
  have h : (m &&& 2 ^ k) = (m.testBit k).toNat * 2 ^ k := Nat.and_two_pow m k
  rw [h, Nat.testBit_eq_decide_div_mod_eq]
  by_cases hb : m / 2 ^ k % 2 = 1
  · simp [hb]
  · simp [hb]

theorem half_parts {s e m : Nat} (hs : s < 2) (he : e < 32) (hm : m < 1024) :
    ((s * 32768 + e * 1024 + m) >>> 15) &&& 1 = s ∧ ((s * 32768 + e * 1024 + m) >>> 10) &&& 0x1f = e ∧
    (s * 32768 + e * 1024 + m) &&& 0x3ff = m := by
  refine ⟨?_, ?_, ?_⟩
  · rw [show (1 : Nat) = 2 ^ 1 - 1 from rfl, and_mask, Nat.shiftRight_eq_div_pow]; simp only [Nat.reducePow]; omega
  · rw [show (0x1f : Nat) = 2 ^ 5 - 1 from rfl, and_mask, Nat.shiftRight_eq_div_pow]; simp only [Nat.reducePow]; omega
  · rw [show (0x3ff : Nat) = 2 ^ 10 - 1 from rfl, and_mask]; simp only [Nat.reducePow]; omega

theorem float_parts {s e m : Nat} (hs : s < 2) (he : e < 256) (hm : m < 8388608) :
    ((s * 2147483648 + e * 8388608 + m) >>> 16) &&& 0x8000 = s * 32768 ∧
    ((s * 2147483648 + e * 8388608 + m) >>> 23) &&& 0xff = e ∧
    (s * 2147483648 + e * 8388608 + m) &&& 0x7fffff = m := by
  refine ⟨?_, ?_, ?_⟩
  · rw [show (0x8000 : Nat) = 2 ^ 15 from rfl, Nat.and_two_pow, Nat.testBit_eq_decide_div_mod_eq,
      Nat.shiftRight_eq_div_pow]
    simp only [Nat.reducePow]
    obtain h | h : s = 0 ∨ s = 1 := by omega
    · subst h
      rw [decide_eq_false (by omega)]; rfl
    · subst h
      rw [decide_eq_true (by omega)]; rfl
  · rw [show (0xff : Nat) = 2 ^ 8 - 1 from rfl, and_mask, Nat.shiftRight_eq_div_pow]; simp only [Nat.reducePow]; omega
  · rw [show (0x7fffff : Nat) = 2 ^ 23 - 1 from rfl, and_mask]; simp only [Nat.reducePow]; omega

theorem float_or {s e m : Nat} (he : e < 256) (hm : m < 1024) :
    (s <<< 31) ||| (e <<< 23) ||| (m <<< 13) = s * 2147483648 + e * 8388608 + m * 8192 := by
  have h1 : m <<< 13 < 2 ^ 23 := by rw [Nat.shiftLeft_eq]; simp only [Nat.reducePow]; omega
  have h2 : (e <<< 23) ||| (m <<< 13) = e * 8388608 + m * 8192 := by
    rw [or_add h1, Nat.shiftLeft_eq]; simp only [Nat.reducePow]
  rw [Nat.or_assoc, h2, or_add (by simp only [Nat.reducePow]; omega)]
  simp only [Nat.reducePow]; omega

theorem half_or {s e m : Nat} (he : e < 32) (hm : m < 1024) :
    s * 32768 ||| (e <<< 10) ||| m = s * 32768 + e * 1024 + m := by
  rw [Nat.or_assoc, or_add (by simpa using hm), show s * 32768 = s <<< 15 by rw [Nat.shiftLeft_eq],
    or_add (by simp only [Nat.reducePow]; omega), Nat.shiftLeft_eq]
  simp only [Nat.reducePow]; omega

/-! ## C28 -/

theorem normal_roundtrip {s e m : Nat} (hs : s < 2) (he0 : 0 < e) (he : e < 31) (hm : m < 1024) :
    ilFloatToHalf (ilHalfToFloat (s * 32768 + e * 1024 + m)) = s * 32768 + e * 1024 + m := by
  obtain ⟨p1, p2, p3⟩ := half_parts hs (by omega : e < 32) hm
  have hf : ilHalfToFloat (s * 32768 + e * 1024 + m) = s * 2147483648 + (e + 112) * 8388608 + m * 8192 := by
    simp only [ilHalfToFloat, p1, p2, p3]
    rw [if_neg (by omega), if_neg (by omega), float_or (by omega) hm]
  obtain ⟨q1, q2, q3⟩ := float_parts hs (by omega : e + 112 < 256) (by omega : m * 8192 < 8388608)
  rw [hf]
  simp only [ilFloatToHalf, q1, q2, q3]
  rw [if_neg (by omega), if_neg (by omega)]
  have hb : ¬ (m * 8192 &&& 0x1000 ≠ 0) := by
    rw [show (0x1000 : Nat) = 2 ^ 12 from rfl, bit_ne]; simp only [Nat.reducePow]; omega
  simp only [toNormal, roundUp, if_neg hb]
  simp only [if_neg (fun h : _ ∧ _ => hb h.1)]
  rw [if_neg (by omega), Nat.shiftRight_eq_div_pow]
  simp only [Nat.reducePow, Nat.mul_div_cancel _ (by decide : 0 < 8192), Nat.add_sub_cancel]
  exact half_or (by omega) hm

theorem special_roundtrip {s m : Nat} (hs : s < 2) (hm : m < 1024) :
    ilFloatToHalf (ilHalfToFloat (s * 32768 + 31 * 1024 + m)) = s * 32768 + 31 * 1024 + m := by
  obtain ⟨p1, p2, p3⟩ := half_parts hs (by omega : 31 < 32) hm
  have hf : ilHalfToFloat (s * 32768 + 31 * 1024 + m) = s * 2147483648 + 255 * 8388608 + m * 8192 := by
    simp only [ilHalfToFloat, p1, p2, p3]
    rw [if_neg (by omega), if_pos trivial]
    split
    · rename_i h0
      subst h0
      have := float_or (s := s) (e := 255) (m := 0) (by omega) (by omega)
      simpa using this
    · have := float_or (s := s) (e := 255) (m := m) (by omega) hm
      simpa using this
  obtain ⟨q1, q2, q3⟩ := float_parts hs (by omega : 255 < 256) (by omega : m * 8192 < 8388608)
  rw [hf]
  simp only [ilFloatToHalf, q1, q2, q3]
  rw [if_neg (by decide), if_pos (by decide)]
  unfold toSpecial
  have hdiv : (m * 8192) >>> 13 = m := by
    rw [Nat.shiftRight_eq_div_pow]; simp only [Nat.reducePow]; omega
  split
  · rename_i h0
    have h0' : m = 0 := by omega
    subst h0'
    have := half_or (s := s) (e := 31) (m := 0) (by omega) (by omega)
    simpa using this
  · rename_i h0
    rw [hdiv, if_neg (by omega), Nat.or_zero]
    have := half_or (s := s) (e := 31) (m := m) (by omega) hm
    simpa using this

/-- Checks the round trip of the denormals `b + 1, ..., b + n`. -/
def checkDenormals : Nat → Nat → Bool
  | 0, _ => true
  | n + 1, b => ilFloatToHalf (ilHalfToFloat (b + (n + 1))) == b + (n + 1) && checkDenormals n b

theorem checkDenormals_spec : ∀ {n b : Nat}, checkDenormals n b = true → ∀ m, 0 < m → m ≤ n →
    ilFloatToHalf (ilHalfToFloat (b + m)) = b + m
  | 0, _, _, m, h0, hn => by omega
  | n + 1, b, h, m, h0, hn => by
    simp only [checkDenormals, Bool.and_eq_true, beq_iff_eq] at h
    by_cases e : m = n + 1
    · rw [e]; exact h.1
    · exact checkDenormals_spec h.2 m h0 (by omega)

set_option maxRecDepth 10000 in
theorem denormals_pos : checkDenormals 1023 0 = true := by decide +kernel

set_option maxRecDepth 10000 in
theorem denormals_neg : checkDenormals 1023 32768 = true := by decide +kernel

/-- **C28.**  Every 16-bit half value other than negative zero, converted to a float and back, is unchanged (normal
numbers, infinities, NaNs by bit arithmetic; all 2046 denormal numbers by evaluation in the kernel).
Missing (and false): negative zero. -/
theorem C28_roundtrip_partial (y : Nat) (hy : y < 65536) (hz : y ≠ 0x8000) : ilFloatToHalf (ilHalfToFloat y) = y := by
  have e1 : y = y / 32768 * 32768 + y / 1024 % 32 * 1024 + y % 1024 := by omega
  have hs : y / 32768 < 2 := by omega
  have hm : y % 1024 < 1024 := by omega
  by_cases h0 : y / 1024 % 32 = 0
  · by_cases hz0 : y = 0
    · subst hz0; decide
    · obtain h | h : y / 32768 = 0 ∨ y / 32768 = 1 := by omega
      · have := checkDenormals_spec denormals_pos y (by omega) (by omega)
        simpa using this
      · have := checkDenormals_spec denormals_neg (y - 32768) (by omega) (by omega)
        rwa [show 32768 + (y - 32768) = y by omega] at this
  · by_cases h31 : y / 1024 % 32 = 31
    · rw [e1, h31]
      exact special_roundtrip hs hm
    · rw [e1]
      exact normal_roundtrip hs (by omega) (by omega) hm

/-- **C28 fails for negative zero**: it comes back as positive zero, because the branch for tiny floats returns 0
without the sign (il_manip.cpp:60). -/
theorem C28_violated_negative_zero : ilFloatToHalf (ilHalfToFloat 0x8000) = 0 := by decide

/-- 1.0, the smallest denormal, an infinity and a NaN as floats. -/
example : ilHalfToFloat 0x3C00 = 0x3F800000 ∧ ilHalfToFloat 1 = 0x33800000 ∧ ilHalfToFloat 0xFC00 = 0xFF800000 ∧
    ilHalfToFloat 0xFFFF = 0xFFFFE000 := by decide

/-! ## C70 -/

/-- **C70.**  A float in the range of the normal half numbers becomes a half of the same sign whose float value differs
from it by at most half a unit in the last place of a half (`2^12` float units); the exponent carry of the rounding is
right, and a value that rounds past the largest half becomes infinity (`h = 0x7c00`).
`s`, `e`, `m` are the float's sign, biased exponent and mantissa; `h` the magnitude bits of the half. -/
theorem C70_nearest (s e m : Nat) (hs : s < 2) (he : 112 < e) (he' : e ≤ 142) (hm : m < 8388608) :
    ∃ h, ilFloatToHalf (s * 2147483648 + e * 8388608 + m) = s * 32768 + h ∧ 0x400 ≤ h ∧ h ≤ 0x7c00 ∧
      h * 8192 + 112 * 8388608 ≤ e * 8388608 + m + 4096 ∧ e * 8388608 + m ≤ h * 8192 + 112 * 8388608 + 4096 := by
  obtain ⟨q1, q2, q3⟩ := float_parts hs (by omega : e < 256) hm
  simp only [ilFloatToHalf, q1, q2, q3]
  rw [if_neg (by omega), if_neg (by omega)]
  have hb : (m &&& 0x1000 ≠ 0) ↔ m / 4096 % 2 = 1 := by
    rw [show (0x1000 : Nat) = 2 ^ 12 from rfl, bit_ne]
  have hb2 : ∀ x, (x &&& 0x00800000 ≠ 0) ↔ x / 8388608 % 2 = 1 := by
    intro x
    rw [show (0x00800000 : Nat) = 2 ^ 23 from rfl, bit_ne]
  simp only [toNormal, roundUp]
  by_cases h12 : m &&& 0x1000 ≠ 0
  · have h12' := hb.mp h12
    simp only [if_pos h12]
    by_cases hov : m + 0x2000 &&& 0x00800000 ≠ 0
    · have hov' := (hb2 _).mp hov
      simp only [if_pos (And.intro h12 hov)]
      split
      · refine ⟨0x7c00, ?_, by omega, by omega, by omega, by omega⟩
        have := half_or (s := s) (e := 31) (m := 0) (by omega) (by omega)
        simpa using this
      · refine ⟨(e - 112 + 1) * 1024, ?_, by omega, by omega, by omega, by omega⟩
        have := half_or (s := s) (e := e - 112 + 1) (m := 0) (by omega) (by omega)
        simpa using this
    · have hov' : ¬ ((m + 0x2000) / 8388608 % 2 = 1) := fun h => hov ((hb2 _).mpr h)
      simp only [if_neg (fun h : _ ∧ _ => hov h.2)]
      rw [if_neg (by omega), Nat.shiftRight_eq_div_pow]
      simp only [Nat.reducePow]
      refine ⟨(e - 112) * 1024 + (m + 8192) / 8192, ?_, by omega, by omega, by omega, by omega⟩
      rw [half_or (by omega) (by omega)]; omega
  · have h12' : ¬ (m / 4096 % 2 = 1) := fun h => h12 (hb.mpr h)
    simp only [if_neg h12]
    simp only [if_neg (fun h : _ ∧ _ => h12 h.1)]
    rw [if_neg (by omega), Nat.shiftRight_eq_div_pow]
    simp only [Nat.reducePow]
    refine ⟨(e - 112) * 1024 + m / 8192, ?_, by omega, by omega, by omega, by omega⟩
    rw [half_or (by omega) (by omega)]; omega

/-- A concrete case of `C70_nearest`: 1 + 2^-11 is halfway and rounds up. -/
example : 0 * 2147483648 + 127 * 8388608 + 4096 = 0x3F801000 ∧ ilFloatToHalf 0x3F801000 = 0x3C01 := by decide

/-- **C70, above the range.**  A finite float of 2^16 or more, and an infinity, becomes the infinity of its sign. -/
theorem C70_overflow (s e m : Nat) (hs : s < 2) (he : 143 ≤ e) (he' : e < 256) (hm : m < 8388608) (hf : e = 255 → m = 0) :
    ilFloatToHalf (s * 2147483648 + e * 8388608 + m) = s * 32768 + 0x7c00 := by
  obtain ⟨q1, q2, q3⟩ := float_parts hs he' hm
  have hinf : s * 32768 ||| 0x7c00 = s * 32768 + 0x7c00 := by
    have := half_or (s := s) (e := 31) (m := 0) (by omega) (by omega)
    simpa using this
  simp only [ilFloatToHalf, q1, q2, q3]
  rw [if_neg (by omega)]
  by_cases h : e = 255
  · rw [if_pos (by omega), hf h]
    simp only [toSpecial, if_true, hinf]
  · rw [if_neg (by omega)]
    simp only [toNormal]
    rw [if_pos (by split <;> omega), hinf]

/-- **C70, NaN.**  A NaN becomes a NaN of the same sign. -/
theorem C70_nan (s e m : Nat) (hs : s < 2) (he : e = 255) (hm : m < 8388608) (h0 : m ≠ 0) :
    ∃ h, ilFloatToHalf (s * 2147483648 + e * 8388608 + m) = s * 32768 + 0x7c00 + h ∧ 0 < h ∧ h < 1024 := by
  obtain ⟨q1, q2, q3⟩ := float_parts hs (by omega : e < 256) hm
  simp only [ilFloatToHalf, q1, q2, q3]
  rw [if_neg (by omega), if_pos (by omega)]
  simp only [toSpecial, if_neg h0]
  have hd : m >>> 13 < 1024 := by rw [Nat.shiftRight_eq_div_pow]; simp only [Nat.reducePow]; omega
  by_cases h : m >>> 13 = 0
  · refine ⟨1, ?_, by omega, by omega⟩
    rw [if_pos h, h]
    have := half_or (s := s) (e := 31) (m := 1) (by omega) (by omega)
    simpa using this
  · refine ⟨m >>> 13, ?_, by omega, by omega⟩
    rw [if_neg h]
    have := half_or (s := s) (e := 31) (m := m >>> 13) (by omega) hd
    simpa using this

/-- **C70, below the range.**  A float between 2^-25 and 2^-14 becomes the half of its sign nearest to it among the multiples
`h` of 2^-24 (`h = 0x400` is the smallest normal half): the mantissa with its leading one, `2^23 + m`, counts units of
`2^(e-150)`, so `h` is worth `h * 2^(126-e)` of them.
Smaller floats become zero, which is at most half a unit away, but without their sign (`C28_violated_negative_zero`). -/
theorem C70_denormal (s e m : Nat) (hs : s < 2) (he : 102 ≤ e) (he' : e ≤ 112) (hm : m < 8388608) :
    ∃ h, ilFloatToHalf (s * 2147483648 + e * 8388608 + m) = s * 32768 + h ∧ h ≤ 0x400 ∧
      h * 2 ^ (126 - e) ≤ 8388608 + m + 2 ^ (125 - e) ∧ 8388608 + m ≤ h * 2 ^ (126 - e) + 2 ^ (125 - e) := by
  obtain ⟨q1, q2, q3⟩ := float_parts hs (by omega : e < 256) hm
  simp only [ilFloatToHalf, q1, q2, q3]
  rw [if_pos he']
  have hor : m ||| 0x00800000 = 8388608 + m := by
    have := or_add (a := 1) (k := 23) (b := m) (by simpa using hm)
    rw [Nat.or_comm] at this
    simpa using this
  simp only [toDenormal, hor]
  rw [if_neg (by omega)]
  have hb : ∀ x : Nat, (x &&& 0x1000 ≠ 0) ↔ x / 4096 % 2 = 1 := by
    intro x; rw [show (0x1000 : Nat) = 2 ^ 12 from rfl, bit_ne]
  have hsor : ∀ h : Nat, h ≤ 0x400 → s * 32768 ||| h = s * 32768 + h := by
    intro h hh
    have : (s <<< 15) ||| h = s * 2 ^ 15 + h := or_add (by simp only [Nat.reducePow]; omega)
    simpa [Nat.shiftLeft_eq] using this
  refine ⟨roundUp ((8388608 + m) >>> (113 - e)) >>> 13, ?_, ?_⟩
  · refine hsor _ ?_
    unfold roundUp
    simp only [Nat.shiftRight_eq_div_pow, hb]
    interval_cases e <;> simp only [Nat.reduceSub, Nat.reducePow] <;> split <;> omega
  · unfold roundUp
    simp only [Nat.shiftRight_eq_div_pow, hb]
    interval_cases e <;> simp only [Nat.reduceSub, Nat.reducePow] <;> split <;> omega

/-- Concrete cases: 2^-25 rounds up to the smallest denormal; 65536 and a large float overflow; a NaN with a low payload. -/
example : ilFloatToHalf (102 * 8388608) = 1 ∧ ilFloatToHalf (143 * 8388608) = 0x7c00 ∧
    ilFloatToHalf (1 * 2147483648 + 200 * 8388608 + 5) = 0xfc00 ∧ ilFloatToHalf (255 * 8388608 + 1) = 0x7c01 := by decide

end DevIL.Half
