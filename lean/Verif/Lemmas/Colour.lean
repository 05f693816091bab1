import Verif.Model.Colour
import Verif.Spec.Colour
/-! Loops over pixels. -/
set_option autoImplicit false
namespace DevIL.Colour
open Utility

/-- The `p`-th piece of `k` bytes. -/
def chunk (k p : Nat) (d : List UInt8) : List UInt8 := (d.drop (p * k)).take k

theorem chunk_get {k p b : Nat} {d : List UInt8} (h : b < k) : (chunk k p d)[b]? = d[p * k + b]? := by
  unfold chunk
  rw [List.getElem?_take_of_lt h, List.getElem?_drop]

theorem chunk_len {k p n : Nat} {d : List UInt8} (hl : d.length = n * k) (hp : p < n) : (chunk k p d).length = k := by
  have := Nat.mul_le_mul_right k (show p + 1 ≤ n from hp)
  rw [Nat.add_mul, Nat.one_mul] at this
  unfold chunk
  rw [List.length_take, List.length_drop]
  omega

/-- A loop over the pieces of a part `b` of a buffer, whose body changes only its piece. -/
theorem chunksIn {S : Type} {k n : Nat} (g : S → List UInt8) (R : Nat → List UInt8 → List UInt8 → Prop) (f : Nat → S → C S) (s : S) (P Q b : List UInt8)
    (hg : g s = P ++ (b ++ Q)) (hl : b.length = n * k)
    (hs : ∀ p t A c B, p < n → g t = P ++ (A ++ (c ++ B)) → A.length = p * k → c.length = k →
      ∃ t' c', f p t = .ok t' ∧ g t' = P ++ (A ++ (c' ++ B)) ∧ c'.length = k ∧ R p c c') :
    ∃ t b', loopN n f s = .ok t ∧ g t = P ++ (b' ++ Q) ∧ b'.length = n * k ∧ ∀ p, p < n → R p (chunk k p b) (chunk k p b') := by
  obtain ⟨t, e, b', h, l, _, r⟩ := loopN_inv (f := f) (n := n) (s := s)
    (fun q t => ∃ b', g t = P ++ (b' ++ Q) ∧ b'.length = n * k ∧ (∀ p, q ≤ p → chunk k p b' = chunk k p b) ∧
      ∀ p, p < q → R p (chunk k p b) (chunk k p b'))
    ⟨b, hg, hl, fun _ _ => rfl, fun _ h => absurd h (Nat.not_lt_zero _)⟩ (by
      rintro q t hq ⟨u, hu, lt, same, done⟩
      have hle := Nat.mul_le_mul_right k (show q + 1 ≤ n from hq)
      rw [Nat.add_mul, Nat.one_mul] at hle
      have hd : u = u.take (q * k) ++ (chunk k q u ++ u.drop (q * k + k)) := by
        have h1 := List.take_append_drop (q * k) u
        have h2 := List.take_append_drop k (u.drop (q * k))
        rw [List.drop_drop] at h2
        unfold chunk
        rw [h2, h1]
      have hA : (u.take (q * k)).length = q * k := by rw [List.length_take]; omega
      obtain ⟨t', c', e, h, lc, r⟩ := hs q t (u.take (q * k)) (chunk k q u) (u.drop (q * k + k) ++ Q) hq
        (by rw [hu]; congr 1; rw [← List.append_assoc (chunk k q u), ← List.append_assoc, ← hd]) hA (chunk_len lt hq)
      have h' : g t' = P ++ ((u.take (q * k) ++ (c' ++ u.drop (q * k + k))) ++ Q) := by rw [h]; simp
      generalize hv : u.take (q * k) ++ (c' ++ u.drop (q * k + k)) = v at h'
      have other : ∀ i, (i < q * k ∨ q * k + k ≤ i) → v[i]? = u[i]? := by
        intro i hi
        rw [← hv]
        rcases hi with hi | hi
        · rw [List.getElem?_append_left (by omega), List.getElem?_take_of_lt hi]
        · rw [List.getElem?_append_right (by omega), hA, List.getElem?_append_right (by omega), lc, List.getElem?_drop]
          congr 1; omega
      have oc : ∀ p, p ≠ q → chunk k p v = chunk k p u := by
        intro p hp
        apply List.ext_getElem?
        intro b
        by_cases hb : b < k
        · rw [chunk_get hb, chunk_get hb]
          apply other
          rcases Nat.lt_or_gt_of_ne hp with hp | hp
          · have := Nat.mul_le_mul_right k (show p + 1 ≤ q from hp)
            rw [Nat.add_mul, Nat.one_mul] at this
            omega
          · have := Nat.mul_le_mul_right k (show q + 1 ≤ p from hp)
            rw [Nat.add_mul, Nat.one_mul] at this
            omega
        · unfold chunk
          rw [List.getElem?_take_eq_none (by omega), List.getElem?_take_eq_none (by omega)]
      have mc : chunk k q v = c' := by
        unfold chunk
        rw [← hv, List.drop_append_of_le_length (by omega), List.drop_eq_nil_of_le (by omega), List.nil_append, List.take_append_of_le_length (by omega),
          List.take_of_length_le (by omega)]
      refine ⟨t', e, v, h', ?_, fun p hp => ?_, fun p hp => ?_⟩
      · have := congrArg List.length hd
        simp only [List.length_append, chunk_len lt hq] at this
        rw [← hv]
        simp only [List.length_append, lc]
        omega
      · rw [oc p (by omega), same p (by omega)]
      · by_cases hpq : p = q
        · subst hpq
          rw [mc, ← same p (Nat.le_refl _)]
          exact r
        · rw [oc p hpq]
          exact done p (by omega))
  exact ⟨t, b', e, h, l, r⟩

theorem chunks {S : Type} {k n : Nat} (g : S → List UInt8) (R : Nat → List UInt8 → List UInt8 → Prop) (f : Nat → S → C S) (s : S)
    (hl : (g s).length = n * k)
    (hs : ∀ p t A c B, p < n → g t = A ++ (c ++ B) → A.length = p * k → c.length = k →
      ∃ t' c', f p t = .ok t' ∧ g t' = A ++ (c' ++ B) ∧ c'.length = k ∧ R p c c') :
    ∃ t, loopN n f s = .ok t ∧ (g t).length = n * k ∧ ∀ p, p < n → R p (chunk k p (g s)) (chunk k p (g t)) := by
  obtain ⟨t, b', e, h, l, r⟩ := chunksIn g R f s [] [] (g s) (by simp) hl (by simpa using hs)
  simp only [List.nil_append, List.append_nil] at h
  exact ⟨t, e, by rw [h]; exact l, by rw [h]; exact r⟩

section at_
variable {A B : List UInt8} {x y z w v : UInt8}
theorem rd0 : rd (A ++ x :: B) A.length = .ok x := by rw [rd_eq_ok]; simp
theorem rd1 : rd (A ++ x :: y :: B) (A.length + 1) = .ok y := by
  rw [show A ++ x :: y :: B = (A ++ [x]) ++ y :: B by simp, show A.length + 1 = (A ++ [x]).length by simp]; exact rd0
theorem rd2 : rd (A ++ x :: y :: z :: B) (A.length + 2) = .ok z := by
  rw [show A ++ x :: y :: z :: B = (A ++ [x, y]) ++ z :: B by simp, show A.length + 2 = (A ++ [x, y]).length by simp]; exact rd0
theorem rd3 : rd (A ++ x :: y :: z :: w :: B) (A.length + 3) = .ok w := by
  rw [show A ++ x :: y :: z :: w :: B = (A ++ [x, y, z]) ++ w :: B by simp, show A.length + 3 = (A ++ [x, y, z]).length by simp]; exact rd0
theorem wr0 : wr (A ++ x :: B) A.length v = .ok (A ++ v :: B) := by
  rw [wr_of_lt (by simp)]; simp
theorem wr1 : wr (A ++ x :: y :: B) (A.length + 1) v = .ok (A ++ x :: v :: B) := by
  rw [show A ++ x :: y :: B = (A ++ [x]) ++ y :: B by simp, show A.length + 1 = (A ++ [x]).length by simp, wr0]; simp
theorem wr2 : wr (A ++ x :: y :: z :: B) (A.length + 2) v = .ok (A ++ x :: y :: v :: B) := by
  rw [show A ++ x :: y :: z :: B = (A ++ [x, y]) ++ z :: B by simp, show A.length + 2 = (A ++ [x, y]).length by simp, wr0]; simp
theorem wr3 : wr (A ++ x :: y :: z :: w :: B) (A.length + 3) v = .ok (A ++ x :: y :: z :: v :: B) := by
  rw [show A ++ x :: y :: z :: w :: B = (A ++ [x, y, z]) ++ w :: B by simp, show A.length + 3 = (A ++ [x, y, z]).length by simp, wr0]; simp
end at_

theorem three {c : List UInt8} (h : 3 ≤ c.length) : ∃ x y z t, c = x :: y :: z :: t := by
  match c, h with
  | x :: y :: z :: t, _ => exact ⟨x, y, z, t, rfl⟩

theorem pixels {m : Img} (hm : m.Whole) (hb : m.bpc = 1) :
    m.size = m.depth * m.height * m.width * m.bpp ∧ m.data.length = m.depth * m.height * m.width * m.bpp := by
  have l := hm.len
  rw [hb, Nat.mul_one] at l
  exact ⟨by rw [← l, hm.cons.2.2.2], l⟩

/-- A loop over the pixels of an image whose body changes the first three bytes of the pixel. -/
theorem px3 {m : Img} (hm : m.Whole) (hb : m.bpc = 1) (h3 : 3 ≤ m.bpp) (body : Nat → List UInt8 → C (List UInt8))
    (F : UInt8 → UInt8 → UInt8 → UInt8 × UInt8 × UInt8)
    (hs : ∀ A B x y z, body A.length (A ++ x :: y :: z :: B) = .ok (A ++ (F x y z).1 :: (F x y z).2.1 :: (F x y z).2.2 :: B)) :
    ∃ d, forStep 0 m.size m.bpp body m.data = .ok d ∧ d.length = m.data.length ∧
      ∀ x y z, x < m.width → y < m.height → z < m.depth → ∃ u v w, m.px x y z 0 = some u ∧ m.px x y z 1 = some v ∧ m.px x y z 2 = some w ∧
        ({ m with data := d } : Img).px x y z 0 = some (F u v w).1 ∧ ({ m with data := d } : Img).px x y z 1 = some (F u v w).2.1 ∧
        ({ m with data := d } : Img).px x y z 2 = some (F u v w).2.2 ∧ (m.bpp = 4 → ({ m with data := d } : Img).px x y z 3 = m.px x y z 3) := by
  obtain ⟨h1, h2⟩ := pixels hm hb
  obtain ⟨d, e, l, r⟩ := chunks (k := m.bpp) (n := m.depth * m.height * m.width) id
    (fun _ c c' => ∃ x y z t, c = x :: y :: z :: t ∧ c' = (F x y z).1 :: (F x y z).2.1 :: (F x y z).2.2 :: t)
    (fun p => body (p * m.bpp)) m.data h2 (by
      intro p t A c B hp ht hA hc
      obtain ⟨x, y, z, r, rfl⟩ := three (c := c) (by omega)
      refine ⟨_, _, ?_, rfl, ?_, x, y, z, r, rfl, rfl⟩
      · rw [show t = A ++ (x :: y :: z :: r ++ B) from ht, ← hA]
        simp only [List.cons_append]
        rw [hs]
      · simpa using hc)
  refine ⟨d, by rw [h1, forStep_mul hm.bpp0]; exact e, by rw [h2]; exact l, fun x y z hx hy hz => ?_⟩
  have hp := idx_lt (idx_lt hz hy) hx
  obtain ⟨u, v, w, t, hc, hc'⟩ := r _ hp
  simp only [id] at hc hc'
  have g : ∀ b, b < m.bpp → m.px x y z b = (u :: v :: w :: t)[b]? ∧
      ({ m with data := d } : Img).px x y z b = ((F u v w).1 :: (F u v w).2.1 :: (F u v w).2.2 :: t)[b]? := by
    intro b hb'
    unfold Img.px
    simp only [hb, Nat.mul_one]
    rw [← hc, ← hc', chunk_get hb', chunk_get hb']
    exact ⟨rfl, rfl⟩
  refine ⟨u, v, w, (g 0 (by omega)).1, (g 1 (by omega)).1, (g 2 (by omega)).1, (g 0 (by omega)).2, (g 1 (by omega)).2, (g 2 (by omega)).2, fun h4 => ?_⟩
  rw [(g 3 (by omega)).1, (g 3 (by omega)).2]
  rfl

theorem rgb_facts {m : Img} (hm : m.Whole) (h : isRgb m.format = true) : order m.format = some (0, 1, 2) ∧ 3 ≤ m.bpp ∧ isBgr m.format = false := by
  have b := hm.bppF
  unfold isRgb at h
  rcases of_decide_eq_true h with h | h <;> rw [h] at b ⊢ <;> exact ⟨by decide, by rw [b]; decide, by decide⟩

theorem bgr_facts {m : Img} (hm : m.Whole) (h : isBgr m.format = true) : order m.format = some (2, 1, 0) ∧ 3 ≤ m.bpp ∧ isRgb m.format = false := by
  have b := hm.bppF
  unfold isBgr at h
  rcases of_decide_eq_true h with h | h <;> rw [h] at b ⊢ <;> exact ⟨by decide, by rw [b]; decide, by decide⟩

/-- As `px3`, for pixels that begin with red. -/
theorem recolour_rgb {m : Img} (hm : m.Whole) (hb : m.bpc = 1) (h : isRgb m.format = true) (body : Nat → List UInt8 → C (List UInt8)) (f : RGB → RGB)
    (hs : ∀ A B x y z, body A.length (A ++ x :: y :: z :: B) = .ok (A ++ (f ⟨x, y, z⟩).r :: (f ⟨x, y, z⟩).g :: (f ⟨x, y, z⟩).b :: B)) :
    ∃ d, forStep 0 m.size m.bpp body m.data = .ok d ∧ m.Recoloured { m with data := d } f := by
  obtain ⟨ho, h3, _⟩ := rgb_facts hm h
  obtain ⟨d, e, l, p⟩ := px3 hm hb h3 body (fun x y z => ((f ⟨x, y, z⟩).r, (f ⟨x, y, z⟩).g, (f ⟨x, y, z⟩).b)) hs
  refine ⟨d, e, ⟨rfl, l⟩, rfl, fun x y z hx hy hz => ?_⟩
  obtain ⟨u, v, w, p0, p1, p2, q0, q1, q2, q3⟩ := p x y z hx hy hz
  refine ⟨⟨⟨u, v, w⟩, ?_, ?_⟩, q3⟩ <;> unfold Img.colour <;> simp only [ho, p0, p1, p2, q0, q1, q2]

/-- As `px3`, for pixels that begin with blue. -/
theorem recolour_bgr {m : Img} (hm : m.Whole) (hb : m.bpc = 1) (h : isBgr m.format = true) (body : Nat → List UInt8 → C (List UInt8)) (f : RGB → RGB)
    (hs : ∀ A B x y z, body A.length (A ++ x :: y :: z :: B) = .ok (A ++ (f ⟨z, y, x⟩).b :: (f ⟨z, y, x⟩).g :: (f ⟨z, y, x⟩).r :: B)) :
    ∃ d, forStep 0 m.size m.bpp body m.data = .ok d ∧ m.Recoloured { m with data := d } f := by
  obtain ⟨ho, h3, _⟩ := bgr_facts hm h
  obtain ⟨d, e, l, p⟩ := px3 hm hb h3 body (fun x y z => ((f ⟨z, y, x⟩).b, (f ⟨z, y, x⟩).g, (f ⟨z, y, x⟩).r)) hs
  refine ⟨d, e, ⟨rfl, l⟩, rfl, fun x y z hx hy hz => ?_⟩
  obtain ⟨u, v, w, p0, p1, p2, q0, q1, q2, q3⟩ := p x y z hx hy hz
  refine ⟨⟨⟨w, v, u⟩, ?_, ?_⟩, q3⟩ <;> unfold Img.colour <;> simp only [ho, p0, p1, p2, q0, q1, q2]

end DevIL.Colour
