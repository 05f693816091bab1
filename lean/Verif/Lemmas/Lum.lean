import Verif.Lemmas.ConvBuff
/-! Rounding-error lemmas for the luminance computation. -/
set_option autoImplicit false
namespace DevIL.Conv
open Utility

theorem rnd_bound {p n : Nat} : 2 ^ p * rnd p n ≤ 2 ^ p * n + n ∧ 2 ^ p * n ≤ 2 ^ p * rnd p n + n := by
  unfold rnd
  split
  · omega
  · rename_i h
    have hn : n ≠ 0 := by
      intro h0; subst h0; exact h (Nat.two_pow_pos p)
    have hlog : 2 ^ n.log2 ≤ n := Nat.log2_self_le hn
    have hlp : p ≤ n.log2 := by
      apply Classical.byContradiction
      intro hc
      have h1 : n < 2 ^ (n.log2 + 1) := Nat.lt_log2_self
      have h2 : 2 ^ (n.log2 + 1) ≤ 2 ^ p := Nat.pow_le_pow_right (by omega) (by omega)
      omega
    have hE : 2 ^ p * 2 ^ (n.log2 + 1 - p) ≤ 2 * n := by
      rw [← Nat.pow_add, show p + (n.log2 + 1 - p) = n.log2 + 1 by omega, Nat.pow_succ]; omega
    have hE0 : 0 < 2 ^ (n.log2 + 1 - p) := Nat.two_pow_pos _
    simp only []
    generalize 2 ^ (n.log2 + 1 - p) = E at *
    have hdm : n = n / E * E + n % E := by
      have := Nat.div_add_mod n E
      rw [Nat.mul_comm] at this
      omega
    generalize hq : n / E = q at *
    generalize hr : n % E = r at *
    generalize 2 ^ p = P at *
    have key : ∀ y x : Nat, 2 * x ≤ E → n = y + x ∨ y = n + x → P * y ≤ P * n + n ∧ P * n ≤ P * y + n := by
      intro y x hx hy
      have h1 : P * (2 * x) ≤ P * E := Nat.mul_le_mul_left _ hx
      have h2 : P * (2 * x) = 2 * (P * x) := by grind
      rcases hy with hy | hy
      · have h3 : P * n = P * y + P * x := by rw [hy]; grind
        omega
      · have h3 : P * y = P * n + P * x := by rw [hy]; grind
        omega
    have hrE : r < E := by rw [← hr]; exact Nat.mod_lt _ hE0
    split
    · rename_i hup
      have hup' : E ≤ 2 * r := by
        simp only [Bool.or_eq_true, Bool.and_eq_true, decide_eq_true_eq] at hup
        omega
      refine key _ (E - r) (by omega) (Or.inr ?_)
      rw [Nat.add_mul, Nat.one_mul]; omega
    · rename_i hup
      have hup' : 2 * r ≤ E := by
        simp only [Bool.or_eq_true, Bool.and_eq_true, decide_eq_true_eq] at hup
        omega
      exact key _ r hup' (Or.inl hdm)

/-- `y` differs from `x` by at most `c` parts in `2^24`. -/
def Near (c x y : Nat) : Prop := 16777216 * y ≤ (16777216 + c) * x ∧ 16777216 * x ≤ 16777216 * y + c * x

theorem Near.refl (x : Nat) : Near 0 x x := ⟨by omega, by omega⟩

theorem Near.weaken {c c' x y : Nat} (h : Near c x y) (hc : c ≤ c') : Near c' x y := by
  have : c * x ≤ c' * x := Nat.mul_le_mul_right _ hc
  obtain ⟨h1, h2⟩ := h
  rw [Nat.add_mul] at h1
  refine ⟨?_, by omega⟩
  rw [Nat.add_mul]; omega

theorem Near.add {c x y x' y' : Nat} (h : Near c x y) (h' : Near c x' y') : Near c (x + x') (y + y') := by
  obtain ⟨h1, h2⟩ := h
  obtain ⟨h3, h4⟩ := h'
  refine ⟨?_, ?_⟩
  · rw [Nat.mul_add, Nat.mul_add]; omega
  · rw [Nat.mul_add, Nat.mul_add c]; omega

theorem Near.mul {c x y : Nat} (h : Near c x y) (w : Nat) : Near c (x * w) (y * w) := by
  obtain ⟨h1, h2⟩ := h
  refine ⟨?_, ?_⟩
  · have := Nat.mul_le_mul_right w h1
    grind
  · have := Nat.mul_le_mul_right w h2
    grind

theorem rnd_near {p n : Nat} (hp : 24 ≤ p) : Near 1 n (rnd p n) := by
  obtain ⟨h1, h2⟩ := rnd_bound (p := p) (n := n)
  have hP : 16777216 ≤ 2 ^ p := Nat.pow_le_pow_right (n := 2) (by omega) hp
  have hP0 : 0 < 2 ^ p := Nat.two_pow_pos p
  generalize 2 ^ p = P at *
  generalize rnd p n = y at *
  refine ⟨?_, ?_⟩
  · rw [Nat.add_mul, Nat.one_mul]
    by_cases h : y ≤ n
    · omega
    · obtain ⟨d, rfl⟩ : ∃ d, y = n + d := ⟨y - n, by omega⟩
      rw [Nat.mul_add] at h1
      have : 16777216 * d ≤ P * d := Nat.mul_le_mul_right _ hP
      omega
  · rw [Nat.one_mul]
    by_cases h : n ≤ y
    · omega
    · obtain ⟨d, rfl⟩ : ∃ d, n = y + d := ⟨n - y, by omega⟩
      rw [Nat.mul_add] at h2
      have : 16777216 * d ≤ P * d := Nat.mul_le_mul_right _ hP
      omega

theorem Near.trans {c c' x y z : Nat} (h : Near c x y) (h' : Near c' y z) (hc : c * c' ≤ 16777216) :
    Near (c + c' + 1) x z := by
  obtain ⟨h1, h2⟩ := h
  obtain ⟨h3, h4⟩ := h'
  have hcx : c * c' * x ≤ 16777216 * x := Nat.mul_le_mul_right _ hc
  refine ⟨?_, ?_⟩
  · have a1 : (16777216 + c') * (16777216 * y) ≤ (16777216 + c') * ((16777216 + c) * x) := Nat.mul_le_mul_left _ h1
    have a2 : 16777216 * (16777216 * z) ≤ 16777216 * ((16777216 + c') * y) := Nat.mul_le_mul_left _ h3
    have a3 : 16777216 * ((16777216 + c') * y) = (16777216 + c') * (16777216 * y) := by grind
    have a4 : (16777216 + c') * ((16777216 + c) * x)
        = 16777216 * ((16777216 + (c + c')) * x) + c * c' * x := by grind
    have a5 : (16777216 + (c + c' + 1)) * x = (16777216 + (c + c')) * x + x := by grind
    omega
  · have a0 : c' * (16777216 * y) ≤ c' * ((16777216 + c) * x) := Nat.mul_le_mul_left _ h1
    have a1 : c' * (16777216 * y) = 16777216 * (c' * y) := by grind
    have a2 : c' * ((16777216 + c) * x) = 16777216 * (c' * x) + c * c' * x := by grind
    have a3 : (c + c' + 1) * x = c * x + c' * x + x := by grind
    omega

/-- The exact weighted sum of components, in the units of `lumFactor`. -/
def exactSum (ts : List (Nat × Nat)) : Nat := (ts.map fun t => t.1 * lumFactor t.2).sum

theorem lumStep_near {wide : Bool} {acc x : Nat} {t : Nat × Nat} {c : Nat} (h : Near c x acc) (hc : 4 ≤ c) (hc' : c ≤ 1000) :
    Near (c + 2) (x + t.1 * lumFactor t.2) (lumStep wide acc t) := by
  unfold lumStep
  have h1 : Near 1 t.1 (rnd 24 t.1) := rnd_near (by omega)
  have h2 : Near 3 (t.1 * lumFactor t.2) (rnd 24 (rnd 24 t.1 * lumFactor t.2)) :=
    (h1.mul (lumFactor t.2)).trans (rnd_near (by omega)) (by decide)
  have h3 := h.add (h2.weaken (by omega : 3 ≤ c))
  exact h3.trans (rnd_near (by cases wide <;> decide)) (by omega)

theorem lum3_near {wide : Bool} (a b c : Nat × Nat) :
    Near 10 (exactSum [a, b, c]) ([a, b, c].foldl (lumStep wide) 0) := by
  have h0 : Near 4 0 0 := ⟨by omega, by omega⟩
  have h1 := lumStep_near (wide := wide) (t := a) h0 (by omega) (by omega)
  have h2 := lumStep_near (wide := wide) (t := b) h1 (by omega) (by omega)
  have h3 := lumStep_near (wide := wide) (t := c) h2 (by omega) (by omega)
  have : exactSum [a, b, c] = 0 + a.1 * lumFactor a.2 + b.1 * lumFactor b.2 + c.1 * lumFactor c.2 := by
    simp [exactSum]; omega
  rw [this]
  exact h3

/-- The weights of red, green and blue in millionths. -/
def weight : Nat → Nat
  | 0 => 212671
  | 1 => 715160
  | _ => 72169

theorem lumFactor_near (w : Nat) : Near 1 (weight w * 134217728) (1000000 * lumFactor w) := by
  rcases w with _ | _ | w
  · exact ⟨by decide, by decide⟩
  · exact ⟨by decide, by decide⟩
  · exact ⟨by show _ ≤ _; simp only [weight, lumFactor]; decide, by show _ ≤ _; simp only [weight, lumFactor]; decide⟩

/-- The weighted sum in millionths. -/
def weighted (ts : List (Nat × Nat)) : Nat := (ts.map fun t => weight t.2 * t.1).sum

theorem exactSum_near (a b c : Nat × Nat) :
    Near 1 (weighted [a, b, c] * 134217728) (1000000 * exactSum [a, b, c]) := by
  have ha := (lumFactor_near a.2).mul a.1
  have hb := (lumFactor_near b.2).mul b.1
  have hc := (lumFactor_near c.2).mul c.1
  have h := (ha.add hb).add hc
  have e1 : weighted [a, b, c] * 134217728 = weight a.2 * 134217728 * a.1 + weight b.2 * 134217728 * b.1
      + weight c.2 * 134217728 * c.1 := by
    simp [weighted]; grind
  have e2 : 1000000 * exactSum [a, b, c] = 1000000 * lumFactor a.2 * a.1 + 1000000 * lumFactor b.2 * b.1
      + 1000000 * lumFactor c.2 * c.1 := by
    simp [exactSum]; grind
  rw [e1, e2]
  exact h

/-- The computed luminance is the weighted sum up to rounding down and a relative error of `2^-20`. -/
theorem lum_close {wide : Bool} (a b c : Nat × Nat) :
    let l := [a, b, c].foldl (lumStep wide) 0 / 2 ^ 27
    let w := weighted [a, b, c]
    1000000 * l ≤ w + w / 1048576 ∧ w < 1000000 * (l + 1) + w / 1048576 + 1 := by
  intro l w
  have h1 := exactSum_near a b c
  have h2 := lum3_near (wide := wide) a b c
  have h2' := h2.mul 1000000
  rw [Nat.mul_comm (exactSum [a, b, c])] at h2'
  have h3 := h1.trans h2' (by decide)
  obtain ⟨h4, h5⟩ := h3
  have hS : [a, b, c].foldl (lumStep wide) 0 / 2 ^ 27 = l := rfl
  generalize [a, b, c].foldl (lumStep wide) 0 = S at *
  change 16777216 * (S * 1000000) ≤ (16777216 + 12) * (w * 134217728) at h4
  change 16777216 * (w * 134217728) ≤ 16777216 * (S * 1000000) + 12 * (w * 134217728) at h5
  simp only [Nat.reducePow] at hS
  omega

end DevIL.Conv
