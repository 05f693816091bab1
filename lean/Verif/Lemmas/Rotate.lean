import Verif.Model.Rotate
import Verif.Spec.Rotate
/-! Lemmas about turning a picture. -/
set_option autoImplicit false
namespace DevIL.Rotate

/-- A loop fails when one of its steps always does and the others do so in the same way or not at all. -/
theorem loopN_fails {σ : Type} {f : Nat → σ → C σ} {n k : Nat} {s : σ} {e : Fault} (I : σ → Prop) (h0 : I s)
    (hs : ∀ i s, i < n → I s → (∃ s', f i s = .ok s' ∧ I s') ∨ f i s = .error e) (hk : k < n) (hf : ∀ s, I s → f k s = .error e) : loopN n f s = .error e := by
  have key : ∀ j, j ≤ k → (∃ s', loopN j f s = .ok s' ∧ I s') ∨ loopN n f s = .error e := by
    intro j
    induction j with
    | zero => exact fun _ => .inl ⟨s, rfl, h0⟩
    | succ j ih =>
      intro hj
      rcases ih (by omega) with ⟨s', e', hI⟩ | x
      · rcases hs j s' (by omega) hI with ⟨t, et, hI'⟩ | et
        · refine .inl ⟨t, ?_, hI'⟩
          rw [loopN_succ, e', bind_ok, et]
        · exact .inr (loopN_error (by omega) e' et)
      · exact .inr x
  rcases key k (Nat.le_refl _) with ⟨s', e', hI⟩ | x
  · exact loopN_error hk e' (hf s' hI)
  · exact x

theorem u32_lt {n : Nat} (h : n < 4294967296) : u32 n = n := by unfold u32; omega

theorem sub32_le {a b : Nat} (h : b ≤ a) (ha : a < 4294967296) : sub32 a b = a - b := by unfold sub32 u32; omega

theorem px_lt {p n bpp c : Nat} (hp : p < n) (hc : c < bpp) : p * bpp + c < n * bpp := by
  have := Nat.mul_le_mul_right bpp (show p + 1 ≤ n by omega)
  rw [Nat.add_mul, Nat.one_mul] at this
  omega

theorem px_inj {p q bpp c d : Nat} (hc : c < bpp) (hd : d < bpp) (h : p * bpp + c = q * bpp + d) : p = q ∧ c = d := by
  have h1 : (p * bpp + c) / bpp = p := by rw [Nat.mul_comm, Nat.mul_add_div (by omega), Nat.div_eq_of_lt hc, Nat.add_zero]
  have h2 : (q * bpp + d) / bpp = q := by rw [Nat.mul_comm, Nat.mul_add_div (by omega), Nat.div_eq_of_lt hd, Nat.add_zero]
  have : p = q := by rw [← h1, ← h2, h]
  subst this
  exact ⟨rfl, by omega⟩

section
variable {α : Type}

/-- A pixel is copied. -/
theorem copyPx_spec {src dst : List α} {p q bpp n m : Nat} (hs : src.length = n * bpp) (hn : n * bpp < 4294967296) (hd : dst.length = m * bpp) (hm : m * bpp < 4294967296) (hp : p < n) (hq : q < m) :
    ∃ d, copyPx (q * bpp) (p * bpp) bpp src dst = .ok d ∧ d.length = m * bpp ∧ (∀ c, c < bpp → d[q * bpp + c]? = src[p * bpp + c]?) ∧
      ∀ i, (∀ c, c < bpp → i ≠ q * bpp + c) → d[i]? = dst[i]? := by
  unfold copyPx
  obtain ⟨d, e, h1, h2, h3⟩ := loopN_inv (f := fun c d => do
      let v ← rd src (u32 (p * bpp + c))
      wr d (u32 (q * bpp + c)) v) (n := bpp) (s := dst)
    (fun k (d : List α) => d.length = m * bpp ∧ (∀ c, c < k → d[q * bpp + c]? = src[p * bpp + c]?) ∧ ∀ i, (∀ c, c < k → i ≠ q * bpp + c) → d[i]? = dst[i]?)
    ⟨hd, fun c hc => absurd hc (by omega), fun _ _ => rfl⟩ (fun k d hk hI => by
      obtain ⟨h1, h2, h3⟩ := hI
      have a1 := px_lt hp hk
      have a2 := px_lt hq hk
      have hr : p * bpp + k < src.length := by omega
      rw [u32_lt (by omega), u32_lt (by omega), rd_of_lt hr, bind_ok, wr_of_lt (by omega)]
      refine ⟨_, rfl, (List.length_set ..).trans h1, fun c hc => ?_, fun i hi => ?_⟩
      · by_cases x : c = k
        · subst x
          rw [List.getElem?_set_self (by omega), List.getElem?_eq_getElem hr]
        · rw [List.getElem?_set_ne (by omega)]
          exact h2 c (by omega)
      · rw [List.getElem?_set_ne (Ne.symm (hi k (by omega)))]
        exact h3 i (fun c hc => hi c (by omega)))
  exact ⟨d, e, h1, h2, h3⟩

theorem pos_lt {w h x y : Nat} (hx : x < w) (hy : y < h) : y * w + x < w * h := by
  have := px_lt (bpp := w) hy hx
  rw [Nat.mul_comm w h]
  exact this

/-- The loops over the picture, when each pixel has a place of its own. -/
theorem turn_spec {off : Nat → Nat → Nat} {T : Nat → Nat → Nat} {w h bpp : Nat} {src dst : List α} (hs : src.length = w * h * bpp) (hd : dst.length = w * h * bpp) (hN : w * h * bpp < 4294967296)
    (hT : ∀ x y, x < w → y < h → T x y < w * h ∧ off x y = T x y * bpp) (hinj : ∀ x y x' y', x < w → y < h → x' < w → y' < h → T x y = T x' y' → x = x' ∧ y = y') :
    ∃ d, turn off w h bpp src dst = .ok d ∧ d.length = w * h * bpp ∧ ∀ x y c, x < w → y < h → c < bpp → d[T x y * bpp + c]? = src[(y * w + x) * bpp + c]? := by
  unfold turn
  refine loopN_inv (fun k (d : List α) => d.length = w * h * bpp ∧ ∀ x y c, x < k → y < h → c < bpp → d[T x y * bpp + c]? = src[(y * w + x) * bpp + c]?)
    ⟨hd, fun x _ _ hx => absurd hx (by omega)⟩ (fun x d hx hI => ?_)
  obtain ⟨d', e', g1, g2, g3⟩ := loopN_inv (f := fun y d => copyPx (off x y) (u32 (y * (w * bpp) + x * bpp)) bpp src d) (n := h) (s := d)
    (fun k (d' : List α) => d'.length = w * h * bpp ∧ (∀ y c, y < k → c < bpp → d'[T x y * bpp + c]? = src[(y * w + x) * bpp + c]?) ∧
      ∀ i, (∀ y c, y < k → c < bpp → i ≠ T x y * bpp + c) → d'[i]? = d[i]?)
    ⟨hI.1, fun _ _ hy => absurd hy (by omega), fun _ _ => rfl⟩ (fun y t hy hJ => by
      obtain ⟨j1, j2, j3⟩ := hJ
      have hp := pos_lt hx hy
      have ho : u32 (y * (w * bpp) + x * bpp) = (y * w + x) * bpp := by
        rw [← Nat.mul_assoc, ← Nat.add_mul]
        have := Nat.mul_le_mul_right bpp (Nat.le_of_lt hp)
        exact u32_lt (by omega)
      obtain ⟨t1, t2⟩ := hT x y hx hy
      rw [ho, t2]
      obtain ⟨d2, e2, k1, k2, k3⟩ := copyPx_spec hs hN j1 hN hp t1
      refine ⟨d2, e2, k1, fun y' c hy' hc => ?_, fun i hi => ?_⟩
      · by_cases e : y' = y
        · subst e; exact k2 c hc
        · rw [k3 _ (fun c' hc' he => ?_)]
          · exact j2 y' c (by omega) hc
          · have := (px_inj hc hc' he).1
            exact e (hinj x y' x y hx (by omega) hx hy this).2
      · rw [k3 i (fun c hc => hi y c (by omega) hc)]
        exact j3 i (fun y' c hy' hc => hi y' c (by omega) hc))
  refine ⟨d', e', g1, fun x' y c hx' hy hc => ?_⟩
  by_cases e : x' = x
  · subst e; exact g2 y c hy hc
  · rw [g3 _ (fun y' c' hy' hc' he => ?_)]
    · exact hI.2 x' y c (by omega) hy hc
    · have := (px_inj hc hc' he).1
      exact e (hinj x' y x y' (by omega) hy hx hy' this).1

/-- A pixel is copied, or it is refused. -/
theorem copyPx_or {src dst : List α} {p bpp n N ro : Nat} (hs : src.length = n * bpp) (hn : n * bpp < 4294967296) (hd : dst.length = N) (hp : p < n) :
    (∃ d, copyPx ro (p * bpp) bpp src dst = .ok d ∧ d.length = N) ∨ copyPx ro (p * bpp) bpp src dst = .error .oobWrite := by
  unfold copyPx
  have key : ∀ k, k ≤ bpp → (∃ d, loopN k (fun c d => do
      let v ← rd src (u32 (p * bpp + c))
      wr d (u32 (ro + c)) v) dst = .ok d ∧ d.length = N) ∨ loopN bpp (fun c d => do
      let v ← rd src (u32 (p * bpp + c))
      wr d (u32 (ro + c)) v) dst = .error .oobWrite := by
    intro k
    induction k with
    | zero => exact fun _ => .inl ⟨dst, rfl, hd⟩
    | succ k ih =>
      intro hk
      rcases ih (by omega) with ⟨d, e, hl⟩ | x
      · have a1 := px_lt hp (show k < bpp by omega)
        have hr : p * bpp + k < src.length := by omega
        have hstep : (do
            let v ← rd src (u32 (p * bpp + k))
            wr d (u32 (ro + k)) v : C (List α)) = wr d (u32 (ro + k)) src[p * bpp + k] := by rw [u32_lt (n := p * bpp + k) (by omega), rd_of_lt hr, bind_ok]
        by_cases x : u32 (ro + k) < d.length
        · refine .inl ⟨d.set (u32 (ro + k)) src[p * bpp + k], ?_, (List.length_set ..).trans hl⟩
          rw [loopN_succ, e, bind_ok, hstep, wr_of_lt x]
        · refine .inr (loopN_error (by omega) e ?_)
          rw [hstep, wr_of_ge (by omega)]
      · exact .inr x
  rcases key bpp (Nat.le_refl _) with x | x
  · exact .inl x
  · exact .inr x

/-- A pixel is refused when its first component is outside. -/
theorem copyPx_out {src dst : List α} {p bpp n N ro : Nat} (hs : src.length = n * bpp) (hn : n * bpp < 4294967296) (hd : dst.length = N) (hp : p < n) (hb : 0 < bpp) (hro : N ≤ ro)
    (hro' : ro < 4294967296) : copyPx ro (p * bpp) bpp src dst = .error .oobWrite := by
  unfold copyPx
  have a1 := px_lt hp hb
  have hr : p * bpp + 0 < src.length := by omega
  refine loopN_error (k := 0) hb rfl ?_
  rw [u32_lt (n := p * bpp + 0) (by omega), rd_of_lt hr, bind_ok, u32_lt (n := ro + 0) (by omega), wr_of_ge (by omega)]

/-- The loops over the picture fail when a pixel goes outside. -/
theorem turn_fails {off : Nat → Nat → Nat} {w h bpp x y : Nat} {src dst : List α} (hs : src.length = w * h * bpp) (hd : dst.length = w * h * bpp) (hN : w * h * bpp < 4294967296)
    (hx : x < w) (hy : y < h) (hb : 0 < bpp) (h1 : w * h * bpp ≤ off x y) (h2 : off x y < 4294967296) : turn off w h bpp src dst = .error .oobWrite := by
  unfold turn
  have ho : ∀ x y, x < w → y < h → u32 (y * (w * bpp) + x * bpp) = (y * w + x) * bpp := fun x y hx hy => by
    rw [← Nat.mul_assoc, ← Nat.add_mul]
    have := Nat.mul_le_mul_right bpp (Nat.le_of_lt (pos_lt hx hy))
    exact u32_lt (by omega)
  have hor : ∀ i j (d : List α), i < w → j < h → d.length = w * h * bpp → (∃ d', copyPx (off i j) (u32 (j * (w * bpp) + i * bpp)) bpp src d = .ok d' ∧ d'.length = w * h * bpp) ∨
      copyPx (off i j) (u32 (j * (w * bpp) + i * bpp)) bpp src d = .error .oobWrite := fun i j d hi hj hd => by
    rw [ho i j hi hj]
    exact copyPx_or hs hN hd (pos_lt hi hj)
  refine loopN_fails (fun d => d.length = w * h * bpp) hd (fun i d hi hd => ?_) hx (fun d hd => ?_)
  · have key : ∀ k, k ≤ h → (∃ d', loopN k (fun y d => copyPx (off i y) (u32 (y * (w * bpp) + i * bpp)) bpp src d) d = .ok d' ∧ d'.length = w * h * bpp) ∨
        loopN h (fun y d => copyPx (off i y) (u32 (y * (w * bpp) + i * bpp)) bpp src d) d = .error .oobWrite := by
      intro k
      induction k with
      | zero => exact fun _ => .inl ⟨d, rfl, hd⟩
      | succ k ih =>
        intro hk
        rcases ih (by omega) with ⟨t, e, hl⟩ | x
        · rcases hor i k t hi (by omega) hl with ⟨t', e', hl'⟩ | e'
          · exact .inl ⟨t', by rw [loopN_succ, e, bind_ok, e'], hl'⟩
          · exact .inr (loopN_error (by omega) e e')
        · exact .inr x
    exact key h (Nat.le_refl _)
  · exact loopN_fails (fun d => d.length = w * h * bpp) hd (fun j t hj ht => hor x j t hx hj ht) hy (fun t ht => by
      rw [ho x y hx hy]
      exact copyPx_out hs hN ht (pos_lt hx hy) hb h1 h2)

end
end DevIL.Rotate
