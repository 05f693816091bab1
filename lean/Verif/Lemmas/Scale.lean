import Verif.Model.Scale
/-! Lemmas on scaling: rounding of source positions, and the loops of the nearest filter. -/
set_option autoImplicit false
namespace DevIL.Scale

/-- `r` is `a / b` up to a relative error of `2^-e`. -/
def Near (e : Nat) (r : Q) (a b : Nat) : Prop :=
  0 < r.den ∧ a * r.den * (2 ^ e - 1) ≤ r.num * b * 2 ^ e ∧ r.num * b * 2 ^ e ≤ a * r.den * (2 ^ e + 1)

/-- Rounding the scale to single precision and the quotient to double precision: the position found is inside the source, and less than one pixel away from the true one. -/
theorem round_pos {W w x p q u v : Nat} (hW : W < 2 ^ 24) (hw : w < 2 ^ 24) (hx : x < W) (hw0 : 0 < w)
    (hp : Near 24 ⟨p, q⟩ W w) (hu : Near 53 ⟨u, v⟩ (x * q) p) :
    u / v < w ∧ u / v * W < x * w + W ∧ x * w < (u / v + 2) * W := by
  obtain ⟨hq, p1, p2⟩ := hp
  obtain ⟨hv, u1, u2⟩ := hu
  simp only at hq p1 p2 hv u1 u2
  -- the quotient compared with x * w / W
  have up : u * W * ((2 ^ 24 - 1) * 2 ^ 53) ≤ x * w * v * (2 ^ 24 * (2 ^ 53 + 1)) := by
    apply Nat.le_of_mul_le_mul_right (c := q) _ hq
    calc u * W * ((2 ^ 24 - 1) * 2 ^ 53) * q = u * 2 ^ 53 * (W * q * (2 ^ 24 - 1)) := by grind
      _ ≤ u * 2 ^ 53 * (p * w * 2 ^ 24) := Nat.mul_le_mul_left _ p1
      _ = w * 2 ^ 24 * (u * p * 2 ^ 53) := by grind
      _ ≤ w * 2 ^ 24 * (x * q * v * (2 ^ 53 + 1)) := Nat.mul_le_mul_left _ u2
      _ = x * w * v * (2 ^ 24 * (2 ^ 53 + 1)) * q := by grind
  have lo : x * w * v * ((2 ^ 53 - 1) * 2 ^ 24) ≤ u * W * (2 ^ 53 * (2 ^ 24 + 1)) := by
    apply Nat.le_of_mul_le_mul_right (c := q) _ hq
    calc x * w * v * ((2 ^ 53 - 1) * 2 ^ 24) * q = w * 2 ^ 24 * (x * q * v * (2 ^ 53 - 1)) := by grind
      _ ≤ w * 2 ^ 24 * (u * p * 2 ^ 53) := Nat.mul_le_mul_left _ u1
      _ = u * 2 ^ 53 * (p * w * 2 ^ 24) := by grind
      _ ≤ u * 2 ^ 53 * (W * q * (2 ^ 24 + 1)) := Nat.mul_le_mul_left _ p2
      _ = u * W * (2 ^ 53 * (2 ^ 24 + 1)) * q := by grind
  have hxw : x * w ≤ (W - 1) * (2 ^ 24 - 1) := Nat.mul_le_mul (by omega) (by omega)
  have hlt : u / v < w := by
    rw [Nat.div_lt_iff_lt_mul hv]
    refine Nat.lt_of_not_le fun h => ?_
    have h1 : w * v * W * ((2 ^ 24 - 1) * 2 ^ 53) ≤ x * w * v * (2 ^ 24 * (2 ^ 53 + 1)) :=
      Nat.le_trans (Nat.mul_le_mul_right _ (Nat.mul_le_mul_right _ h)) up
    have h2 : W * ((2 ^ 24 - 1) * 2 ^ 53) ≤ x * (2 ^ 24 * (2 ^ 53 + 1)) := by
      apply Nat.le_of_mul_le_mul_left (c := w * v) _ (Nat.mul_pos hw0 hv)
      calc w * v * (W * ((2 ^ 24 - 1) * 2 ^ 53)) = w * v * W * ((2 ^ 24 - 1) * 2 ^ 53) := by grind
        _ ≤ _ := h1
        _ = w * v * (x * (2 ^ 24 * (2 ^ 53 + 1))) := by grind
    omega
  refine ⟨hlt, ?_, ?_⟩
  · refine Nat.lt_of_not_le fun h => ?_
    have hd : u / v * v ≤ u := Nat.div_mul_le_self u v
    have h1 : (x * w + W) * v ≤ u * W := by
      calc (x * w + W) * v ≤ u / v * W * v := Nat.mul_le_mul_right _ h
        _ = u / v * v * W := by grind
        _ ≤ u * W := Nat.mul_le_mul_right _ hd
    have h2 : (x * w + W) * ((2 ^ 24 - 1) * 2 ^ 53) ≤ x * w * (2 ^ 24 * (2 ^ 53 + 1)) := by
      apply Nat.le_of_mul_le_mul_left (c := v) _ hv
      calc v * ((x * w + W) * ((2 ^ 24 - 1) * 2 ^ 53)) = (x * w + W) * v * ((2 ^ 24 - 1) * 2 ^ 53) := by grind
        _ ≤ u * W * ((2 ^ 24 - 1) * 2 ^ 53) := Nat.mul_le_mul_right _ h1
        _ ≤ _ := up
        _ = v * (x * w * (2 ^ 24 * (2 ^ 53 + 1))) := by grind
    generalize x * w = P at *
    omega
  · refine Nat.lt_of_not_le fun h => ?_
    have hd : u < (u / v + 1) * v := Nat.lt_mul_of_div_lt (Nat.lt_succ_self _) hv
    generalize u / v = k at *
    have h1 : x * w * ((2 ^ 53 - 1) * 2 ^ 24) < (k + 1) * W * (2 ^ 53 * (2 ^ 24 + 1)) := by
      apply Nat.lt_of_mul_lt_mul_left (a := v)
      calc v * (x * w * ((2 ^ 53 - 1) * 2 ^ 24)) = x * w * v * ((2 ^ 53 - 1) * 2 ^ 24) := by grind
        _ ≤ u * W * (2 ^ 53 * (2 ^ 24 + 1)) := lo
        _ < (k + 1) * v * W * (2 ^ 53 * (2 ^ 24 + 1)) := Nat.mul_lt_mul_of_pos_right (Nat.mul_lt_mul_of_pos_right hd (by omega)) (by decide)
        _ = v * ((k + 1) * W * (2 ^ 53 * (2 ^ 24 + 1))) := by grind
    have h2 : (k + 2) * ((2 ^ 53 - 1) * 2 ^ 24) < (k + 1) * (2 ^ 53 * (2 ^ 24 + 1)) := by
      apply Nat.lt_of_mul_lt_mul_left (a := W)
      calc W * ((k + 2) * ((2 ^ 53 - 1) * 2 ^ 24)) = (k + 2) * W * ((2 ^ 53 - 1) * 2 ^ 24) := by grind
        _ ≤ x * w * ((2 ^ 53 - 1) * 2 ^ 24) := Nat.mul_le_mul_right _ h
        _ < _ := h1
        _ = W * ((k + 1) * (2 ^ 53 * (2 ^ 24 + 1))) := by grind
    omega

/-- The rectangular copy of elements of `n` bytes that the nearest filter makes. -/
theorem near4 {D H W k n : Nat} {I S : Nat → Nat → Nat → Nat → Nat} {src dst : List UInt8} (hl : D * H * W * k * n ≤ dst.length)
    (hI : ∀ z y x c, z < D → y < H → x < W → c < k → I z y x c = pos W H k z y x c)
    (hs : ∀ z y x c, z < D → y < H → x < W → c < k → S z y x c * n + n ≤ src.length) :
    ∃ d', loopN D (fun z d => loopN H (fun y d => loopN W (fun x d => loopN k (fun c d => elem n (I z y x c) (S z y x c) src d) d) d) d) dst = .ok d' ∧
      d'.length = dst.length ∧ ∀ z y x c j, z < D → y < H → x < W → c < k → j < n → d'[pos W H k z y x c * n + j]? = src[S z y x c * n + j]? := by
  let v : Nat → Option UInt8 := fun i => src[S (i / n / k / W / H) (i / n / k / W % H) (i / n / k % W) (i / n % k) * n + i % n]?
  have hv : ∀ z y x c j, y < H → x < W → c < k → j < n → v (pos W H k z y x c * n + j) = src[S z y x c * n + j]? := by
    intro z y x c j hy hx hc hj
    simp only [v, pos, idx_div hj, idx_mod hj, idx_div hc, idx_mod hc, idx_div hx, idx_mod hx, idx_div hy, idx_mod hy]
  have hb : ∀ z y x c, z < D → y < H → x < W → c < k → pos W H k z y x c * n + n ≤ dst.length := by
    intro z y x c hz hy hx hc
    have h1 : pos W H k z y x c < D * H * W * k := pos_lt hz hy hx hc (Nat.le_refl _)
    calc pos W H k z y x c * n + n = (pos W H k z y x c + 1) * n := by grind
      _ ≤ D * H * W * k * n := Nat.mul_le_mul_right _ h1
      _ ≤ _ := hl
  have hu : Upd (fun d => loopN D (fun z d => loopN H (fun y d => loopN W (fun x d => loopN k (fun c d => elem n (I z y x c) (S z y x c) src d) d) d) d) d) dst (fun _ => False)
      (fun i => ∃ z, z < D ∧ ∃ y, y < H ∧ ∃ x, x < W ∧ ∃ c, c < k ∧ pos W H k z y x c * n ≤ i ∧ i < pos W H k z y x c * n + n) v := by
    refine Upd.loopW fun z hz => Upd.loopW fun y hy => Upd.loopW fun x hx => Upd.loopW fun c hc => ?_
    unfold elem
    rw [hI z y x c hz hy hx hc]
    refine memcpy_upd (hs z y x c hz hy hx hc) (hb z y x c hz hy hx hc) fun i h1 h2 => ?_
    obtain ⟨j, rfl⟩ : ∃ j, i = pos W H k z y x c * n + j := ⟨i - pos W H k z y x c * n, by omega⟩
    rw [hv z y x c j hy hx hc (by omega), Nat.add_sub_cancel_left]
  obtain ⟨d', e, l, s⟩ := hu.apply
  refine ⟨d', e, l, fun z y x c j hz hy hx hc hj => ?_⟩
  have := hb z y x c hz hy hx hc
  rw [(s _ (by omega)).1 ⟨z, hz, y, hy, x, hx, c, hc, by omega, by omega⟩, hv z y x c j hy hx hc hj]

end DevIL.Scale
