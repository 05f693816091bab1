import Verif.Model.Utx
import Verif.Spec.Utx
/-! Compact numbers of Unreal packages: C245 (they are read as written), C246 (whatever the bytes are). -/
set_option autoImplicit false
namespace DevIL.Utx
open DevIL.UtxSpec

theorem and3f (x : Nat) : x &&& 0x3F = x % 64 := Nat.and_two_pow_sub_one_eq_mod x 6
theorem and7f (x : Nat) : x &&& 0x7F = x % 128 := Nat.and_two_pow_sub_one_eq_mod x 7
theorem and1f (x : Nat) : x &&& 0x1F = x % 32 := Nat.and_two_pow_sub_one_eq_mod x 5

set_option maxRecDepth 100000 in
theorem and40 {x : Nat} (h : x < 256) : (x &&& 0x40 = 0) ↔ x % 128 < 64 :=
  (by decide : ∀ x : Fin 256, (x.val &&& 0x40 = 0) ↔ x.val % 128 < 64) ⟨x, h⟩

set_option maxRecDepth 100000 in
theorem and80 {x : Nat} (h : x < 256) : (x &&& 0x80 = 0) ↔ x < 128 :=
  (by decide : ∀ x : Fin 256, (x.val &&& 0x80 = 0) ↔ x.val < 128) ⟨x, h⟩

theorem or_add {a b k : Nat} (h : a < 2 ^ k) : a ||| (b <<< k) = a + b * 2 ^ k := by
  rw [Nat.or_comm, ← Nat.shiftLeft_add_eq_or_of_lt h, Nat.shiftLeft_eq, Nat.add_comm]

/-- The turns after the first read what is left of a magnitude. -/
theorem go_rest (get : Nat → UInt8) : ∀ (n i m o : Nat), n + i = 5 → 1 ≤ i → m < 2 ^ (25 - (i - 1) * 7) → 0 < n → o < 2 ^ (6 + (i - 1) * 7) → (∀ j b, (rest m)[j]? = some b → get (i + j) = b) →
    go get n i o = (o + m * 2 ^ (6 + (i - 1) * 7), i + (rest m).length) := by
  intro n
  induction n with
  | zero => intro i m o _ _ _ h; omega
  | succ n ih =>
    intro i m o hn hi hm _ ho hget
    rw [go]
    simp only []
    rw [if_neg (by omega)]
    by_cases h4 : i = 4
    · subst h4
      obtain rfl : n = 0 := by omega
      have hm' : m < 16 := by simpa using hm
      have hr : rest m = [UInt8.ofNat m] := by rw [rest, if_pos (by omega)]
      have hg : get 4 = UInt8.ofNat m := hget 0 _ (by rw [hr]; rfl)
      have ho' : o < 2 ^ 27 := by simpa using ho
      have hv : (UInt8.ofNat m).toNat = m := by simp; omega
      rw [if_pos rfl, hg, hv, and1f, Nat.mod_eq_of_lt (by omega), go, hr]
      have hu : u32 (m <<< (6 + 3 * 7)) = m <<< 27 := by
        unfold u32
        rw [Nat.shiftLeft_eq]
        exact Nat.mod_eq_of_lt (by omega)
      rw [hu, or_add ho']
      rfl
    · rw [if_neg h4]
      by_cases hlt : m < 128
      · have hr : rest m = [UInt8.ofNat m] := by rw [rest, if_pos hlt]
        have hg : get i = UInt8.ofNat m := hget 0 _ (by rw [hr]; rfl)
        have hv : (UInt8.ofNat m).toNat = m := by simp; omega
        rw [hg, hv, and7f, Nat.mod_eq_of_lt hlt, if_pos ((and80 (by omega)).2 hlt), or_add ho, hr]
        rfl
      · have hr : rest m = UInt8.ofNat (m % 128 + 128) :: rest (m / 128) := by rw [rest, if_neg hlt]
        have hg : get i = UInt8.ofNat (m % 128 + 128) := hget 0 _ (by rw [hr]; rfl)
        have hv : (UInt8.ofNat (m % 128 + 128)).toNat = m % 128 + 128 := by simp; omega
        have hx : (m % 128 + 128) % 128 = m % 128 := by omega
        rw [hg, hv, and7f, hx, if_neg (fun h => absurd ((and80 (by omega)).1 h) (by omega)), or_add ho]
        have hp : 2 ^ (6 + (i + 1 - 1) * 7) = 2 ^ (6 + (i - 1) * 7) * 128 := by
          rw [show 6 + (i + 1 - 1) * 7 = 6 + (i - 1) * 7 + 7 by omega, Nat.pow_add]
        have hq : 2 ^ (25 - (i - 1) * 7) = 2 ^ (25 - (i + 1 - 1) * 7) * 128 := by
          rw [show 25 - (i - 1) * 7 = 25 - (i + 1 - 1) * 7 + 7 by omega, Nat.pow_add]
        rw [ih (i + 1) (m / 128) _ (by omega) (by omega) (by omega) (by omega) ?_ ?_, hr]
        · rw [hp]
          have e : m = m % 128 + 128 * (m / 128) := by omega
          refine Prod.ext ?_ ?_
          · show _ = o + m * _
            conv => rhs; rw [e]
            generalize 2 ^ (6 + (i - 1) * 7) = P
            rw [Nat.add_mul, Nat.add_assoc, Nat.mul_comm P 128, ← Nat.mul_assoc, Nat.mul_comm (m / 128) 128]
          · show i + 1 + _ = i + (_ + 1)
            omega
        · rw [hp]
          have : m % 128 * 2 ^ (6 + (i - 1) * 7) ≤ 127 * 2 ^ (6 + (i - 1) * 7) := Nat.mul_le_mul_right _ (by omega)
          omega
        · intro j b hj
          rw [show i + 1 + j = i + (j + 1) by omega]
          exact hget (j + 1) b (by rw [hr]; simpa using hj)

/-- **C245**: every number of up to 31 bits and a sign that is written in the compact form is read as that number, and exactly its bytes are read, whatever comes after them. -/
theorem C245_compact (v : Int) (hv : v.natAbs < 2147483648) (after : List UInt8) : UtxReadCompactInteger (reads (compact v ++ after)) = .ok (v, (compact v).length) := by
  have hget : ∀ j b, (compact v)[j]? = some b → reads (compact v ++ after) j = b := by
    intro j b hj
    obtain ⟨hlt, -⟩ := List.getElem?_eq_some_iff.mp hj
    unfold reads
    rw [List.getElem?_append_left hlt, hj]
    rfl
  generalize reads (compact v ++ after) = get at hget
  generalize hm : v.natAbs = m at *
  generalize hs : (if v < 0 then 128 else 0 : Nat) = s at *
  have hs' : s = 0 ∧ v = m ∨ s = 128 ∧ v = -m := by
    subst hs
    by_cases h : v < 0
    · rw [if_pos h]; right; omega
    · rw [if_neg h]; left; omega
  have hsl : s = 0 ∨ s = 128 := by omega
  have hc : compact v = UInt8.ofNat (s + (if m < 64 then 0 else 64) + m % 64) :: (if m < 64 then [] else rest (m / 64)) := by
    unfold compact
    rw [hm, hs]
  have h0 : get 0 = UInt8.ofNat (s + (if m < 64 then 0 else 64) + m % 64) := hget 0 _ (by rw [hc]; rfl)
  have hgo : go get 5 0 0 = (m, (compact v).length) := by
    rw [go]
    simp only []
    rw [if_pos trivial, h0, hc]
    by_cases h : m < 64
    · simp only [if_pos h]
      have hx : (UInt8.ofNat (s + 0 + m % 64)).toNat = s + m := by simp; omega
      rw [hx, if_pos ((and40 (by omega)).2 (by omega)), and3f, Nat.zero_or, show (s + m) % 64 = m by omega]
      rfl
    · simp only [if_neg h]
      have hx : (UInt8.ofNat (s + 64 + m % 64)).toNat = s + 64 + m % 64 := by simp; omega
      rw [hx, if_neg (fun e => absurd ((and40 (by omega)).1 e) (by omega)), and3f, Nat.zero_or, show (s + 64 + m % 64) % 64 = m % 64 by omega]
      rw [go_rest get 4 1 (m / 64) (m % 64) rfl (by omega) (by simp; omega) (by omega) (by simp; omega) ?_]
      · refine Prod.ext ?_ ?_
        · show m % 64 + m / 64 * 64 = m
          omega
        · show 1 + _ = _ + 1
          omega
      · intro j b hj
        refine hget (1 + j) b ?_
        rw [hc, Nat.add_comm 1 j, List.getElem?_cons_succ, if_neg h]
        exact hj
  unfold UtxReadCompactInteger
  rw [hgo]
  simp only []
  rw [if_pos hv]
  have hx : (get 0).toNat = s + (if m < 64 then 0 else 64) + m % 64 := by
    rw [h0]
    by_cases h : m < 64
    · rw [if_pos h]; simp; omega
    · rw [if_neg h]; simp; omega
  have hlt := (get 0).toNat_lt
  have h80 : (get 0).toNat &&& 0x80 = 0 ↔ s = 0 := by
    rw [and80 (by omega), hx]
    by_cases h : m < 64
    · rw [if_pos h]; omega
    · rw [if_neg h]; omega
  rcases hs' with ⟨hs0, e⟩ | ⟨hs1, e⟩
  · rw [if_neg (by rw [h80.2 hs0]; omega), e]
    rfl
  · rw [if_pos (by have := mt h80.1 (by omega); omega), if_neg (by omega)]
    congr 2
    omega

example : compact (-1000000) = [192, 137, 122] ∧ UtxReadCompactInteger (reads ([192, 137, 122] ++ [7, 7])) = .ok (-1000000, 3) := by
  have h : compact (-1000000) = [192, 137, 122] := by
    unfold compact
    rw [rest, rest]
    decide
  refine ⟨h, ?_⟩
  have := C245_compact (-1000000) (by decide) [7, 7]
  rw [h] at this
  exact this

/-- At most five bytes are read, and at least one. -/
theorem go_len (get : Nat → UInt8) : ∀ n i o, n + i = 5 → 0 < n → i < (go get n i o).2 ∧ (go get n i o).2 ≤ 5 := by
  intro n
  induction n with
  | zero => intro i o _ h; omega
  | succ n ih =>
    intro i o hn _
    have step : ∀ o, i < (go get n (i + 1) o).2 ∧ (go get n (i + 1) o).2 ≤ 5 := by
      intro o
      rcases Nat.eq_zero_or_pos n with rfl | h
      · rw [go]
        show i < i + 1 ∧ i + 1 ≤ 5
        omega
      · have := ih (i + 1) o (by omega) h
        omega
    rw [go]
    simp only []
    split
    · split
      · show i < i + 1 ∧ i + 1 ≤ 5
        omega
      · exact step _
    · split
      · exact step _
      · split
        · show i < i + 1 ∧ i + 1 ≤ 5
          omega
        · exact step _

/-- Only the fifth byte sets the five highest bits. -/
theorem go_top (get : Nat → UInt8) : ∀ n i o, n + i = 5 → 1 ≤ i → 0 < n → o < 2 ^ (6 + (i - 1) * 7) →
    (go get n i o).1 < 134217728 ∨ ∃ a, a < 134217728 ∧ (go get n i o).1 = a + (get 4).toNat % 32 * 134217728 := by
  intro n
  induction n with
  | zero => intro i o _ _ h; omega
  | succ n ih =>
    intro i o hn hi _ ho
    rw [go]
    simp only []
    rw [if_neg (by omega)]
    by_cases h4 : i = 4
    · subst h4
      obtain rfl : n = 0 := by omega
      right
      have ho' : o < 2 ^ 27 := by simpa using ho
      refine ⟨o, by simpa using ho', ?_⟩
      have hu : u32 (((get 4).toNat &&& 0x1F) <<< (6 + 3 * 7)) = ((get 4).toNat % 32) <<< 27 := by
        unfold u32
        rw [and1f, Nat.shiftLeft_eq]
        exact Nat.mod_eq_of_lt (by omega)
      rw [if_pos rfl, hu, or_add ho', go]
    · rw [if_neg h4, and7f, or_add ho]
      have hp : 2 ^ (6 + (i + 1 - 1) * 7) = 2 ^ (6 + (i - 1) * 7) * 128 := by
        rw [show 6 + (i + 1 - 1) * 7 = 6 + (i - 1) * 7 + 7 by omega, Nat.pow_add]
      have hb : o + (get i).toNat % 128 * 2 ^ (6 + (i - 1) * 7) < 2 ^ (6 + (i + 1 - 1) * 7) := by
        rw [hp]
        have : (get i).toNat % 128 * 2 ^ (6 + (i - 1) * 7) ≤ 127 * 2 ^ (6 + (i - 1) * 7) := Nat.mul_le_mul_right _ (by omega)
        omega
      have hle : 2 ^ (6 + (i + 1 - 1) * 7) ≤ 2 ^ 27 := Nat.pow_le_pow_right (by omega) (by omega)
      split
      · left
        show o + _ < _
        omega
      · exact ih (i + 1) _ (by omega) (by omega) (by omega) hb

/-- **C246**, in part: reading a compact number ends after one to five bytes, whatever they are, and gives a number unless the bits of its magnitude are 2147483648 and it is negative.  What is missing is that number (`C246_violated_least`). -/
theorem C246_any_partial (get : Nat → UInt8) : (∃ v k, UtxReadCompactInteger get = .ok (v, k) ∧ 1 ≤ k ∧ k ≤ 5) ∨ (UtxReadCompactInteger get = .error .overflow ∧ 128 ≤ (get 0).toNat ∧ (get 4).toNat % 32 = 16) := by
  have hl := go_len get 5 0 0 rfl (by omega)
  by_cases hs : (get 0).toNat &&& 0x80 > 0
  · by_cases ho : (if (go get 5 0 0).1 < 2147483648 then ((go get 5 0 0).1 : Int) else ((go get 5 0 0).1 : Int) - 4294967296) = -2147483648
    · right
      refine ⟨?_, ?_, ?_⟩
      · unfold UtxReadCompactInteger
        simp only []
        rw [if_pos hs, if_pos ho]
      · have hlt := (get 0).toNat_lt
        have := mt (and80 (by omega)).2 (by omega : ¬ ((get 0).toNat &&& 0x80 = 0))
        omega
      · have hx : (go get 5 0 0).1 = 2147483648 := by
          split at ho <;> omega
        rw [go] at hx
        simp only [] at hx
        rw [if_pos trivial, and3f, Nat.zero_or] at hx
        split at hx
        · have : (get 0).toNat % 64 = 2147483648 := hx
          omega
        · have := go_top get 4 1 ((get 0).toNat % 64) rfl (by omega) (by omega) (by simp; omega)
          rcases this with h | ⟨a, ha, h⟩
          · rw [show (0 + 1) = 1 from rfl] at hx
            omega
          · rw [show (0 + 1) = 1 from rfl, h] at hx
            omega
    · left
      refine ⟨(if (go get 5 0 0).1 < 2147483648 then ((go get 5 0 0).1 : Int) else ((go get 5 0 0).1 : Int) - 4294967296) * -1, _, ?_, hl.1, hl.2⟩
      · unfold UtxReadCompactInteger
        simp only []
        rw [if_pos hs, if_neg ho]
        rfl
  · left
    refine ⟨(if (go get 5 0 0).1 < 2147483648 then ((go get 5 0 0).1 : Int) else ((go get 5 0 0).1 : Int) - 4294967296), _, ?_, hl.1, hl.2⟩
    · unfold UtxReadCompactInteger
      simp only []
      rw [if_neg hs]
      rfl

/-- **C246** fails for the least number of an `int`: its magnitude is taken for the number itself, which is then multiplied by -1 beyond what an `int` can hold. -/
theorem C246_violated_least : UtxReadCompactInteger (reads [192, 128, 128, 128, 16]) = .error .overflow := by decide

end DevIL.Utx
