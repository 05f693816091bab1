import Verif.Model.Utility
/-! C57 format/type tables, C58 next power of two, C62 integer square root, C63 memory swap. -/
namespace DevIL.Utility

/-! ### Specification of C57: the documented enums and their component counts/sizes. -/
namespace Spec

/-- Every documented pixel format with its number of components (il.h:123-131). -/
def formats : List (Nat × Nat) :=
  [(0x1900, 1), (0x1906, 1), (0x1909, 1), (0x190A, 2), (0x1907, 3), (0x80E0, 3), (0x1908, 4), (0x80E1, 4)]

/-- Every documented component type with its size in bytes (il.h:134-142). -/
def types : List (Nat × Nat) :=
  [(0x1400, 1), (0x1401, 1), (0x1402, 2), (0x1403, 2), (0x140B, 2), (0x1404, 4), (0x1405, 4), (0x1406, 4),
   (0x140A, 8)]

/-- Every documented palette type with its entry size (il.h:182-187; `IL_PAL_NONE` has none). -/
def palettes : List (Nat × Nat) :=
  [(0x0401, 3), (0x0402, 4), (0x0403, 4), (0x0404, 3), (0x0405, 4), (0x0406, 4)]

/-- The size a table gives a documented value; 0 for a value that is not documented. -/
def lookup : List (Nat × Nat) → Nat → Nat
  | [], _ => 0
  | (k, v) :: t, x => if x = k then v else lookup t x

end Spec

/-- **C57.** `ilGetBppFormat` is the documented table and 0 on every other value. -/
theorem C57_bpp_of_format (f : Nat) : ilGetBppFormat f = Spec.lookup Spec.formats f := by
  simp only [ilGetBppFormat, Spec.lookup, Spec.formats]
  grind

/-- **C57.** `ilGetBpcType` is the documented table and 0 on every other value. -/
theorem C57_bpc_of_type (t : Nat) : ilGetBpcType t = Spec.lookup Spec.types t := by
  simp only [ilGetBpcType, Spec.lookup, Spec.types]
  grind

/-- **C57.** `ilGetBppPal` is the documented table and 0 on every other value. -/
theorem C57_bpp_of_palette (p : Nat) : ilGetBppPal p = Spec.lookup Spec.palettes p := by
  simp only [ilGetBppPal, Spec.lookup, Spec.palettes]
  grind

/-- **C57.** The format chosen for a component count has that component count; every count without a
format (0, or above 4) is rejected. -/
theorem C57_format_of_bpp (bpp : Nat) :
    (1 ≤ bpp ∧ bpp ≤ 4 → ilGetBppFormat (ilGetFormatBpp bpp) = bpp) ∧
    (¬ (1 ≤ bpp ∧ bpp ≤ 4) → ilGetFormatBpp bpp = 0) := by
  constructor
  · rintro ⟨h1, h2⟩
    have : bpp = 1 ∨ bpp = 2 ∨ bpp = 3 ∨ bpp = 4 := by omega
    rcases this with rfl | rfl | rfl | rfl <;> decide
  · intro h
    unfold ilGetFormatBpp
    rw [if_neg (by omega), if_neg (by omega), if_neg (by omega), if_neg (by omega)]

/-- **C57.** The type chosen for a component size has that size; other sizes are rejected. -/
theorem C57_type_of_bpc (bpc : Nat) :
    (bpc = 1 ∨ bpc = 2 ∨ bpc = 4 ∨ bpc = 8 → ilGetBpcType (ilGetTypeBpc bpc) = bpc) ∧
    (¬ (bpc = 1 ∨ bpc = 2 ∨ bpc = 4 ∨ bpc = 8) → ilGetTypeBpc bpc = 0) := by
  constructor
  · rintro (rfl | rfl | rfl | rfl) <;> decide
  · intro h
    unfold ilGetTypeBpc
    rw [if_neg (by omega), if_neg (by omega), if_neg (by omega), if_neg (by omega)]

/-- **C57.** A palette type's base format has as many components as the palette entry has bytes, and
the base format exists exactly for the palette types that have a size. -/
theorem C57_palette_base (p : Nat) : ilGetBppFormat (ilGetPalBaseType p) = ilGetBppPal p := by
  simp only [ilGetBppFormat, ilGetPalBaseType, ilGetBppPal]
  grind

example : ilGetBppFormat IL_BGRA = 4 ∧ ilGetBpcType IL_DOUBLE = 8 ∧ ilGetBppPal IL_PAL_BGR24 = 3 := by
  decide

/-! ### C58 -/
namespace Spec

/-- `p` is the least power of two that is not below `n`. -/
def IsNextPower2 (n p : Nat) : Prop := (∃ k, p = 2 ^ k) ∧ n ≤ p ∧ ∀ k, n ≤ 2 ^ k → p ≤ 2 ^ k

end Spec

theorem nextPower2_loop (n k j : Nat) (hn : n ≤ 2 ^ (k + j)) (hkj : k + j ≤ 31)
    (hmin : ∀ i, i < k → 2 ^ i < n) :
    ∃ p, whileF (fun power => decide (power < n)) (fun power => .ok (u32 (power * 2))) (j + 1) (2 ^ k)
        = .ok p ∧ Spec.IsNextPower2 n p := by
  have hdone : n ≤ 2 ^ k → Spec.IsNextPower2 n (2 ^ k) := fun h => by
    refine ⟨⟨k, rfl⟩, h, fun i hi => ?_⟩
    rcases Nat.lt_or_ge i k with h1 | h1
    · have := hmin i h1; omega
    · exact Nat.pow_le_pow_right (by decide) h1
  induction j generalizing k with
  | zero =>
    refine ⟨2 ^ k, ?_, hdone (by simpa using hn)⟩
    simp only [whileF]
    rw [if_neg]
    simp only [Nat.add_zero] at hn
    simpa using hn
  | succ j ih =>
    by_cases hc : 2 ^ k < n
    · have hp : 2 ^ (k + 1) ≤ 2 ^ 31 := Nat.pow_le_pow_right (by decide) (by omega)
      have hu : u32 (2 ^ k * 2) = 2 ^ (k + 1) := by
        rw [← Nat.pow_succ]; exact u32_of_lt (by omega)
      rw [whileF, if_pos (by simpa using hc), bind_ok, hu]
      have hmin' : ∀ i, i < k + 1 → 2 ^ i < n := fun i hi => by
        rcases Nat.lt_or_ge i k with h1 | h1
        · exact hmin i h1
        · have : i = k := by omega
          subst this; exact hc
      refine ih (k + 1) (by rw [show k + 1 + j = k + (j + 1) by omega]; exact hn) (by omega) hmin' ?_
      intro h
      refine ⟨⟨k + 1, rfl⟩, h, fun i hi => ?_⟩
      rcases Nat.lt_or_ge i (k + 1) with h1 | h1
      · have := hmin' i h1; omega
      · exact Nat.pow_le_pow_right (by decide) h1
    · refine ⟨2 ^ k, ?_, hdone (by omega)⟩
      rw [whileF, if_neg (by simpa using hc)]

/-- **C58 (partial: `n ≤ 2^31`).** `ilNextPower2` terminates (within 32 tests) and returns the least
power of two not below `n`.  For larger `n` it never terminates: `C58_next_power2_hangs`. -/
theorem C58_next_power2_partial (n : Nat) (h : n ≤ 2 ^ 31) :
    ∃ p, Spec.IsNextPower2 n p ∧ ∀ fuel, 32 ≤ fuel → ilNextPower2 fuel n = .ok p := by
  obtain ⟨p, h1, h2⟩ := nextPower2_loop n 0 31 (by simpa using h) (by decide) (by simp)
  exact ⟨p, h2, fun fuel hf => whileF_mono hf h1⟩

example : ilNextPower2 32 1000 = .ok 1024 := by decide

/-- For every 32-bit `n` above `2^31` the loop never ends: the accumulator wraps to 0 and stays. -/
theorem C58_next_power2_hangs (n : Nat) (h : 2 ^ 31 < n) (hn : n < 2 ^ 32) (fuel : Nat) :
    ilNextPower2 fuel n = .error .hang := by
  have key : ∀ fuel power, power ≤ 2 ^ 31 →
      whileF (fun power => decide (power < n)) (fun power => .ok (u32 (power * 2))) fuel power
        = .error .hang ∨ ¬ (power = 0 ∨ ∃ k, power = 2 ^ k) := by
    intro fuel
    induction fuel with
    | zero => intro p _; exact Or.inl rfl
    | succ f ih =>
      intro p hp
      by_cases hpow : p = 0 ∨ ∃ k, p = 2 ^ k
      · left
        rw [whileF, if_pos (by simp; omega), bind_ok]
        have hnext : u32 (p * 2) ≤ 2 ^ 31 ∧ (u32 (p * 2) = 0 ∨ ∃ k, u32 (p * 2) = 2 ^ k) := by
          rcases hpow with rfl | ⟨k, rfl⟩
          · exact ⟨by decide, Or.inl rfl⟩
          · have hk : k ≤ 31 := by
              by_cases hk : k ≤ 31
              · exact hk
              · have : 2 ^ 32 ≤ 2 ^ k := Nat.pow_le_pow_right (by decide) (by omega)
                omega
            by_cases hk' : k = 31
            · subst hk'; exact ⟨by decide, Or.inl (by decide)⟩
            · have h2 : 2 ^ (k + 1) ≤ 2 ^ 31 := Nat.pow_le_pow_right (by decide) (by omega)
              have : u32 (2 ^ k * 2) = 2 ^ (k + 1) := by
                rw [← Nat.pow_succ]; exact u32_of_lt (by omega)
              rw [this]; exact ⟨h2, Or.inr ⟨k + 1, rfl⟩⟩
        rcases ih _ hnext.1 with h' | h'
        · exact h'
        · exact absurd hnext.2 h'
      · exact Or.inr hpow
  rcases key fuel 1 (by decide) with h' | h'
  · exact h'
  · exact absurd (Or.inr ⟨0, rfl⟩) h'

/-- The full C58 is false. -/
theorem C58_next_power2_violated :
    ¬ ∀ n, n < 2 ^ 32 → ∃ fuel p, ilNextPower2 fuel n = .ok p := by
  intro h
  obtain ⟨fuel, p, hp⟩ := h (2 ^ 31 + 1) (by decide)
  rw [C58_next_power2_hangs _ (by decide) (by decide)] at hp
  cases hp

/-! ### C62 -/

theorem sqrtTable_spec : ∀ i : Fin 256, ∃ v, sqrtTable[i.val]? = some v ∧ v * v ≤ 256 * i.val ∧
    256 * i.val < (v + 1) * (v + 1) := by
  have : (List.range 256).all (fun i => match sqrtTable[i]? with
      | some v => decide (v * v ≤ 256 * i) && decide (256 * i < (v + 1) * (v + 1))
      | none => false) = true := by decide +kernel
  intro i
  have h := List.all_eq_true.1 this i.val (by simp)
  split at h
  · rename_i v hv
    simp at h
    exact ⟨v, hv, h⟩
  · cases h

theorem look_spec (n s : Nat) (h : n >>> s < 256) :
    ∃ v, rd sqrtTable (n >>> s) = .ok v ∧ v * v ≤ 256 * (n >>> s) ∧
      256 * (n >>> s) < (v + 1) * (v + 1) := by
  obtain ⟨v, h1, h2, h3⟩ := sqrtTable_spec ⟨n >>> s, h⟩
  exact ⟨v, rd_of_some h1, h2, h3⟩

theorem shl_case {n s t v : Nat} (hs : s = 2 * t + 8) (hv : v * v ≤ 256 * (n >>> s)) :
    (v <<< t) * (v <<< t) ≤ n := by
  subst hs
  rw [Nat.shiftLeft_eq]
  rw [Nat.shiftRight_eq_div_pow] at hv
  have h1 : n / 2 ^ (2 * t + 8) * 2 ^ (2 * t + 8) ≤ n := Nat.div_mul_le_self _ _
  have h2 : v * 2 ^ t * (v * 2 ^ t) = v * v * 2 ^ (2 * t) := by
    rw [Nat.two_mul, Nat.pow_add]
    simp only [Nat.mul_assoc, Nat.mul_left_comm]
  rw [h2]
  calc v * v * 2 ^ (2 * t) ≤ 256 * (n / 2 ^ (2 * t + 8)) * 2 ^ (2 * t) := Nat.mul_le_mul_right _ hv
    _ = n / 2 ^ (2 * t + 8) * 2 ^ (2 * t + 8) := by
      rw [Nat.pow_add, show 2 ^ 8 = 256 from rfl, Nat.mul_comm 256, Nat.mul_assoc, Nat.mul_comm 256]
    _ ≤ n := h1

theorem shr_case {n s t v : Nat} (hs : s + 2 * t = 8) (hv : v * v ≤ 256 * (n >>> s)) :
    (v >>> t) * (v >>> t) ≤ n := by
  rw [Nat.shiftRight_eq_div_pow]
  rw [Nat.shiftRight_eq_div_pow] at hv
  have h1 : n / 2 ^ s * 2 ^ s ≤ n := Nat.div_mul_le_self _ _
  have h2 : v / 2 ^ t * 2 ^ t ≤ v := Nat.div_mul_le_self _ _
  have h3 : 256 = 2 ^ s * 2 ^ (2 * t) := by rw [← Nat.pow_add, hs]
  have h4 : (v / 2 ^ t) * (v / 2 ^ t) * 2 ^ (2 * t) ≤ n * 2 ^ (2 * t) := by
    calc (v / 2 ^ t) * (v / 2 ^ t) * 2 ^ (2 * t) = (v / 2 ^ t * 2 ^ t) * (v / 2 ^ t * 2 ^ t) := by
          rw [Nat.two_mul, Nat.pow_add]; simp only [Nat.mul_assoc, Nat.mul_left_comm]
      _ ≤ v * v := Nat.mul_le_mul h2 h2
      _ ≤ 256 * (n / 2 ^ s) := hv
      _ = (n / 2 ^ s * 2 ^ s) * 2 ^ (2 * t) := by
        rw [h3]; simp only [Nat.mul_assoc, Nat.mul_left_comm, Nat.mul_comm]
      _ ≤ n * 2 ^ (2 * t) := Nat.mul_le_mul_right _ h1
  exact Nat.le_of_mul_le_mul_right h4 (Nat.pow_pos (by decide))

theorem iSqrt_arm {n s : Nat} (g : Nat → Nat) (hn : n >>> s < 256)
    (hg : ∀ v, v * v ≤ 256 * (n >>> s) → g v * g v ≤ n) :
    ∃ r : Nat, (g <$> rd sqrtTable (n >>> s)) = .ok r ∧ r * r ≤ n := by
  obtain ⟨v, h1, h2, _⟩ := look_spec n s hn
  exact ⟨g v, by rw [h1, map_ok], hg v h2⟩

theorem shr_lt {n s : Nat} (h : n < 256 * 2 ^ s) : n >>> s < 256 := by
  rw [Nat.shiftRight_eq_div_pow]; exact (Nat.div_lt_iff_lt_mul (Nat.pow_pos (by decide))).2 h

/-- **C62.** `iSqrt` never reads outside its table, returns -1 exactly for negative arguments, and for
every other 32-bit `int` returns a non-negative root that never overestimates. -/
theorem C62_isqrt_safe (x : Int) (hx : x < 2 ^ 31) :
    ∃ r, iSqrt x = .ok r ∧ (x < 0 → r = -1) ∧ (0 ≤ x → 0 ≤ r ∧ r * r ≤ x) := by
  by_cases hneg : x < 0
  · exact ⟨-1, by simp [iSqrt, hneg], fun _ => rfl, fun h => by omega⟩
  · obtain ⟨n, rfl⟩ : ∃ n : Nat, x = n := ⟨x.toNat, by omega⟩
    have hn : n < 2147483648 := by omega
    suffices h : ∃ r : Nat, iSqrt n = .ok (r : Int) ∧ r * r ≤ n by
      obtain ⟨r, h1, h2⟩ := h
      exact ⟨r, h1, fun h => by omega, fun _ => ⟨by omega, by exact_mod_cast h2⟩⟩
    simp only [iSqrt]
    rw [if_neg (by omega)]
    simp only [Int.toNat_natCast]
    have wrap : ∀ (c : C Nat), (∃ r : Nat, c = .ok r ∧ r * r ≤ n) →
        ∃ r : Nat, ((fun (v : Nat) => (v : Int)) <$> c) = .ok (r : Int) ∧ r * r ≤ n := by
      rintro c ⟨r, rfl, h⟩; exact ⟨r, rfl, h⟩
    apply wrap
    split
    · split
      · split
        · split
          · exact iSqrt_arm (· <<< 8) (shr_lt (by omega)) (fun v hv => shl_case (by decide) hv)
          · exact iSqrt_arm (· <<< 7) (shr_lt (by omega)) (fun v hv => shl_case (by decide) hv)
        · split
          · exact iSqrt_arm (· <<< 6) (shr_lt (by omega)) (fun v hv => shl_case (by decide) hv)
          · exact iSqrt_arm (· <<< 5) (shr_lt (by omega)) (fun v hv => shl_case (by decide) hv)
      · split
        · split
          · exact iSqrt_arm (· <<< 4) (shr_lt (by omega)) (fun v hv => shl_case (by decide) hv)
          · exact iSqrt_arm (· <<< 3) (shr_lt (by omega)) (fun v hv => shl_case (by decide) hv)
        · split
          · exact iSqrt_arm (· <<< 2) (shr_lt (by omega)) (fun v hv => shl_case (by decide) hv)
          · exact iSqrt_arm (· <<< 1) (shr_lt (by omega)) (fun v hv => shl_case (by decide) hv)
    · split
      · split
        · split
          · obtain ⟨v, h1, h2, _⟩ := look_spec n 8 (shr_lt (by omega))
            exact ⟨v, h1, by simpa using shl_case (t := 0) (by decide) h2⟩
          · exact iSqrt_arm (· >>> 1) (shr_lt (by omega)) (fun v hv => shr_case (by decide) hv)
        · split
          · exact iSqrt_arm (· >>> 2) (shr_lt (by omega)) (fun v hv => shr_case (by decide) hv)
          · exact iSqrt_arm (· >>> 3) (shr_lt (by omega)) (fun v hv => shr_case (by decide) hv)
      · exact iSqrt_arm (· >>> 4) (shr_lt (by omega)) (fun v hv => shr_case (by decide) hv)

/-- **C62.** Below 289 the root is exact, as il_internal.cpp:200 promises: the largest `r` with
`r² ≤ x`.  (The whole range is a finite table, checked by the kernel.) -/
theorem C62_isqrt_exact_below_289 (x : Nat) (hx : x < 289) :
    ∃ r : Nat, iSqrt x = .ok (r : Int) ∧ r * r ≤ x ∧ x < (r + 1) * (r + 1) := by
  have : (List.range 289).all (fun x => match iSqrt x with
      | .ok r => decide (0 ≤ r) && decide (r.toNat * r.toNat ≤ x) &&
          decide (x < (r.toNat + 1) * (r.toNat + 1))
      | .error _ => false) = true := by decide +kernel
  have h := List.all_eq_true.1 this x (List.mem_range.2 hx)
  generalize iSqrt (x : Int) = c at h ⊢
  cases c with
  | ok r =>
    simp only [Bool.and_eq_true, decide_eq_true_eq] at h
    exact ⟨r.toNat, by rw [Int.toNat_of_nonneg h.1.1], h.1.2, h.2⟩
  | error _ => cases h

example : iSqrt 288 = .ok 16 ∧ iSqrt (-5) = .ok (-1) := by decide

/-! ### C63 -/

/-- **C63.** `iMemSwap` exchanges the first `size` bytes of two disjoint regions and touches nothing
else, for every size (whole 4096-byte blocks plus remainder). -/
theorem C63_memswap (s1 s2 : List UInt8) (size : Nat) (h1 : size ≤ s1.length)
    (h2 : size ≤ s2.length) :
    iMemSwap s1 s2 size = .ok (s2.take size ++ s1.drop size, s1.take size ++ s2.drop size) := by
  have step : ∀ (a b : List UInt8) (off n : Nat), off + n ≤ a.length → off + n ≤ b.length →
      swapBlock (b.take off ++ a.drop off) (a.take off ++ b.drop off) off n
        = .ok (b.take (off + n) ++ a.drop (off + n), a.take (off + n) ++ b.drop (off + n)) := by
    intro a b off n ha hb
    have dropEq : ∀ (x y : List UInt8), off ≤ x.length → (x.take off ++ y.drop off).drop off = y.drop off := by
      intro x y hx; rw [List.drop_append]; simp [hx]
    have takeEq : ∀ (x y : List UInt8), off ≤ x.length → (x.take off ++ y.drop off).take off = x.take off := by
      intro x y hx; rw [List.take_append]; simp [hx, List.take_take]
    have drop2 : ∀ (x y : List UInt8), off ≤ x.length →
        (x.take off ++ y.drop off).drop (off + n) = y.drop (off + n) := by
      intro x y hx
      rw [← List.drop_drop, dropEq x y hx, List.drop_drop]
    have len : ∀ (x y : List UInt8), off ≤ x.length → off ≤ y.length →
        (x.take off ++ y.drop off).length = y.length := by
      intro x y hx hy; simp; omega
    simp only [swapBlock, memcpyChecked]
    rw [if_pos (by rw [len _ _ (by omega) (by omega)]; omega), if_pos (by simp)]
    simp only [bind_ok]
    rw [if_pos (by rw [len _ _ (by omega) (by omega)]; omega),
      if_pos (by rw [len _ _ (by omega) (by omega)]; omega)]
    simp only [bind_ok]
    rw [if_pos (by simp; omega), if_pos (by rw [len _ _ (by omega) (by omega)]; omega)]
    simp only [pure_eq_ok, bind_ok, dropEq _ _ (show off ≤ b.length by omega),
      dropEq _ _ (show off ≤ a.length by omega), takeEq _ _ (show off ≤ b.length by omega),
      takeEq _ _ (show off ≤ a.length by omega), drop2 _ _ (show off ≤ b.length by omega),
      drop2 _ _ (show off ≤ a.length by omega)]
    simp [List.take_add, List.take_take]
  have hdiv : size / blockSize * blockSize ≤ size := Nat.div_mul_le_self _ _
  have hloop : ∀ m, m ≤ size / blockSize →
      loopN m (fun i (s : List UInt8 × List UInt8) => swapBlock s.1 s.2 (i * blockSize) blockSize) (s1, s2)
        = .ok (s2.take (m * blockSize) ++ s1.drop (m * blockSize), s1.take (m * blockSize) ++ s2.drop (m * blockSize)) := by
    intro m
    induction m with
    | zero => intro _; simp
    | succ m ih =>
      intro hm
      rw [loopN_succ, ih (by omega), bind_ok]
      have hm2 : (m + 1) * blockSize ≤ size / blockSize * blockSize := Nat.mul_le_mul_right _ hm
      rw [Nat.succ_mul] at hm2
      have := step s1 s2 (m * blockSize) blockSize (by omega) (by omega)
      simp only at this ⊢
      rw [this, show (m + 1) * blockSize = m * blockSize + blockSize from Nat.succ_mul _ _]
  unfold iMemSwap
  simp only
  rw [hloop _ (Nat.le_refl _)]
  simp only [bind_ok]
  split
  · rw [step s1 s2 _ _ (by omega) (by omega), show size / blockSize * blockSize + (size - size / blockSize * blockSize) = size by omega]
  · rw [show size / blockSize * blockSize = size by omega]; rfl

example : ([1, 2, 3] : List UInt8).length ≥ 2 ∧ iMemSwap [1, 2, 3] [4, 5] 2 = .ok ([4, 5, 3], [1, 2]) := by
  decide

end DevIL.Utility
