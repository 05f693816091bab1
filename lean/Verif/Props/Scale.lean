import Verif.Lemmas.Scale
import Verif.Props.Block
import Verif.Props.Image
/-! Property C104: scaling. -/
set_option autoImplicit false
namespace DevIL.Scale
open DevIL.Utility

/-- What is assumed of the host's arithmetic: quotients are correct up to half a unit in the last place of single (24 bits) or double precision (53 bits), and exact when the true
quotient is an integer.  IEEE 754 arithmetic is of this kind. -/
structure Arith.Ieee (A : Arith) : Prop where
  near32 : ∀ a b, 0 < b → a < 2 ^ 24 → b < 2 ^ 24 → Near 24 (A.div32 a b) a b
  exact32 : ∀ k b, 0 < b → k * b < 2 ^ 24 → (A.div32 (k * b) b).num = k * (A.div32 (k * b) b).den
  near64 : ∀ n s, n < 2 ^ 32 → 0 < s.den → s.den ≤ s.num * 2 ^ 32 → s.num ≤ s.den * 2 ^ 32 → Near 53 (A.div64 ⟨n, 1⟩ s) (n * s.den) s.num
  exact64 : ∀ n k s, n < 2 ^ 32 → 0 < s.den → s.den ≤ s.num * 2 ^ 32 → s.num ≤ s.den * 2 ^ 32 → n * s.den = k * s.num →
    (A.div64 ⟨n, 1⟩ s).num = k * (A.div64 ⟨n, 1⟩ s).den

/-- Specification: `f` says from which of `n` old columns (rows, slices) each of `N` new ones is taken.  It is an old one, less than one old column left of the true position
`x * n / N` or less than one new column right of it; enlarging by a whole factor `k` repeats every column `k` times. -/
def Nearest (n N : Nat) (f : Nat → Nat) : Prop :=
  ∀ x, x < N → f x < n ∧ f x * N < x * n + N ∧ x * n < (f x + 2) * N ∧ ∀ k, N = k * n → f x = x / k

theorem Nearest.id {n N : Nat} (h : n = N) : Nearest n N (fun x => x) := by
  subst h
  intro x hx
  refine ⟨hx, by show x * n < x * n + n; omega, ?_, ?_⟩
  · exact Nat.mul_lt_mul_of_pos_right (by show x < x + 2; omega) (by omega)
  · intro k hk
    have : k = 1 := by
      have h0 : 0 < n := by omega
      exact Nat.eq_of_mul_eq_mul_right h0 (by omega)
    subst this
    exact (Nat.div_one x).symm

theorem weaken_aux {P R : Nat} : (P * (2 ^ 53 - 1) ≤ R * 2 ^ 53 → P * (2 ^ 24 - 1) ≤ R * 2 ^ 24) ∧ (R * 2 ^ 53 ≤ P * (2 ^ 53 + 1) → R * 2 ^ 24 ≤ P * (2 ^ 24 + 1)) := by
  omega

theorem Near.weaken {r : Q} {a b : Nat} (h : Near 53 r a b) : Near 24 r a b :=
  ⟨h.1, weaken_aux.1 h.2.1, weaken_aux.2 h.2.2⟩

/-- A quotient of numbers from 1 to 2^24 is neither tiny nor huge. -/
theorem Near.range {r : Q} {a b : Nat} (h : Near 24 r a b) (ha : a < 2 ^ 24) (hb : b < 2 ^ 24) (ha0 : 0 < a) (hb0 : 0 < b) :
    0 < r.num ∧ r.den ≤ r.num * 2 ^ 32 ∧ r.num ≤ r.den * 2 ^ 32 := by
  obtain ⟨h1, h2, h3⟩ := h
  have e1 : r.den ≤ a * r.den := Nat.le_mul_of_pos_left _ ha0
  have e2 : a * r.den ≤ (2 ^ 24 - 1) * r.den := Nat.mul_le_mul_right _ (by omega)
  have e3 : r.num ≤ r.num * b := Nat.le_mul_of_pos_right _ hb0
  have e4 : r.num * b ≤ r.num * (2 ^ 24 - 1) := Nat.mul_le_mul_left _ (by omega)
  generalize a * r.den = P at *
  generalize r.num * b = R at *
  omega

/-- The source position that both the single and the double precision scale give. -/
theorem at_nearest {A : Arith} (hA : A.Ieee) {s : Q} {n N : Nat} (hs : Near 24 s N n) (hex : ∀ k, N = k * n → s.num = k * s.den) (hn : n < 2 ^ 24) (hN : N < 2 ^ 24) (hn0 : 0 < n) (hN0 : 0 < N) :
    Nearest n N (A.at_ s) := by
  intro x hx
  obtain ⟨r0, r1, r2⟩ := hs.range hN hn hN0 hn0
  have hsd := hs.1
  have hu := hA.near64 x s (by omega) hsd r1 r2
  obtain ⟨a, b, c⟩ := round_pos hN hn hx hn0 hs hu
  refine ⟨a, b, c, fun k hk => ?_⟩
  have hk0 : 0 < k := Nat.pos_of_ne_zero fun e => by subst e; omega
  have hsk := hex k hk
  have hkN : k ≤ N := by rw [hk]; exact Nat.le_mul_of_pos_right _ hn0
  obtain ⟨h1, h2, h3⟩ := hu
  show (A.div64 ⟨x, 1⟩ s).num / (A.div64 ⟨x, 1⟩ s).den = x / k
  have hdm := Nat.div_add_mod x k
  have hml := Nat.mod_lt x hk0
  have e1 : x * ((A.div64 ⟨x, 1⟩ s).den * (2 ^ 53 - 1)) ≤ (A.div64 ⟨x, 1⟩ s).num * k * 2 ^ 53 := by
    apply Nat.le_of_mul_le_mul_left (c := s.den) _ hsd
    rw [hsk] at h2
    calc s.den * (x * ((A.div64 ⟨x, 1⟩ s).den * (2 ^ 53 - 1))) = x * s.den * (A.div64 ⟨x, 1⟩ s).den * (2 ^ 53 - 1) := by grind
      _ ≤ _ := h2
      _ = _ := by grind
  have e2 : (A.div64 ⟨x, 1⟩ s).num * k * 2 ^ 53 ≤ x * ((A.div64 ⟨x, 1⟩ s).den * (2 ^ 53 + 1)) := by
    apply Nat.le_of_mul_le_mul_left (c := s.den) _ hsd
    rw [hsk] at h3
    calc s.den * ((A.div64 ⟨x, 1⟩ s).num * k * 2 ^ 53) = (A.div64 ⟨x, 1⟩ s).num * (k * s.den) * 2 ^ 53 := by grind
      _ ≤ _ := h3
      _ = _ := by grind
  have he := hA.exact64 x (x / k) s (by omega) hsd r1 r2
  generalize (A.div64 ⟨x, 1⟩ s).num = u at *
  generalize (A.div64 ⟨x, 1⟩ s).den = v at *
  have hup : u < (x / k + 1) * v := by
    refine Nat.lt_of_not_le fun h => ?_
    have h4 : (k * (x / k) + k) * 2 ^ 53 ≤ x * (2 ^ 53 + 1) := by
      apply Nat.le_of_mul_le_mul_left (c := v) _ h1
      calc v * ((k * (x / k) + k) * 2 ^ 53) = (x / k + 1) * v * k * 2 ^ 53 := by grind
        _ ≤ u * k * 2 ^ 53 := Nat.mul_le_mul_right _ (Nat.mul_le_mul_right _ h)
        _ ≤ _ := e2
        _ = _ := by grind
    generalize k * (x / k) = K at *
    omega
  have hlo : x / k * v ≤ u := by
    by_cases hm : x % k = 0
    · rw [hm, Nat.add_zero] at hdm
      rw [he (by rw [hsk]; rw (occs := .pos [1]) [← hdm]; grind)]
      exact Nat.le_refl _
    · refine Nat.le_of_not_lt fun h => ?_
      have h4 : x * (2 ^ 53 - 1) ≤ k * (x / k) * 2 ^ 53 := by
        apply Nat.le_of_mul_le_mul_left (c := v) _ h1
        calc v * (x * (2 ^ 53 - 1)) = x * (v * (2 ^ 53 - 1)) := by grind
          _ ≤ u * k * 2 ^ 53 := e1
          _ ≤ x / k * v * k * 2 ^ 53 := Nat.mul_le_mul_right _ (Nat.mul_le_mul_right _ (Nat.le_of_lt h))
          _ = _ := by grind
      generalize k * (x / k) = K at *
      omega
  apply Nat.le_antisymm
  · exact Nat.le_of_lt_succ ((Nat.div_lt_iff_lt_mul h1).mpr hup)
  · exact (Nat.le_div_iff_mul_le h1).mpr hlo

/-- The image that the scaled pixels are written to. -/
theorem resized (junk : Nat → UInt8) {m : Img} (hm : m.Whole) {W H D : Nat} (hW : 0 < W) (hH : 0 < H) (hD : 0 < D) (hfit : D * H * W * m.bpp * m.bpc < 2 ^ 32) :
    (Image.ilResizeImage junk m W H D m.bpp m.bpc).bps = W * m.bpp * m.bpc ∧ (Image.ilResizeImage junk m W H D m.bpp m.bpc).plane = H * W * m.bpp * m.bpc ∧
      (Image.ilResizeImage junk m W H D m.bpp m.bpc).data.length = D * H * W * m.bpp * m.bpc := by
  have le1 : ∀ {a b : Nat}, 0 < b → a ≤ a * b := fun {a b} hb => Nat.le_mul_of_pos_right a hb
  have s4 : m.bpp * m.bpc * W * H * D < 2 ^ 32 := by rw [show m.bpp * m.bpc * W * H * D = D * H * W * m.bpp * m.bpc by grind]; exact hfit
  have s3 : m.bpp * m.bpc * W * H < 2 ^ 32 := Nat.lt_of_le_of_lt (le1 hD) s4
  have s2 : m.bpp * m.bpc * W < 2 ^ 32 := Nat.lt_of_le_of_lt (le1 hH) s3
  have s1 : m.bpp * m.bpc < 2 ^ 32 := Nat.lt_of_le_of_lt (le1 hW) s2
  simp only [Image.ilResizeImage, u32_of_lt s1, u32_of_lt s2, u32_of_lt s3, u32_of_lt s4, alloc_length]
  exact ⟨by grind, by grind, by grind⟩

/-- Reading one element of the old image. -/
theorem src_elem {m : Img} (hm : m.Whole) {z y x c : Nat} (hz : z < m.depth) (hy : y < m.height) (hx : x < m.width) (hc : c < m.bpp) :
    pos m.width m.height m.bpp z y x c < 2 ^ 32 ∧ pos m.width m.height m.bpp z y x c * m.bpc + m.bpc ≤ m.data.length := by
  have h1 : pos m.width m.height m.bpp z y x c < m.depth * m.height * m.width * m.bpp := pos_lt hz hy hx hc (Nat.le_refl _)
  have h2 : pos m.width m.height m.bpp z y x c * m.bpc + m.bpc ≤ m.data.length := by
    rw [hm.len]
    calc pos m.width m.height m.bpp z y x c * m.bpc + m.bpc = (pos m.width m.height m.bpp z y x c + 1) * m.bpc := by grind
      _ ≤ m.depth * m.height * m.width * m.bpp * m.bpc := Nat.mul_le_mul_right _ h1
      _ = _ := by grind
  refine ⟨?_, h2⟩
  have h3 := hm.fit
  rw [← hm.len] at h3
  have h4 : pos m.width m.height m.bpp z y x c ≤ pos m.width m.height m.bpp z y x c * m.bpc := Nat.le_mul_of_pos_right _ hm.bpc0
  omega

theorem pos_add {W H k z y x n c j : Nat} : pos W H (k * n) z y x (c * n + j) = pos W H k z y x c * n + j := by
  unfold pos; grind

theorem dst_lt {W H D k n z y x c : Nat} (hfit : D * H * W * k * n < 2 ^ 32) (hn : 0 < n) (hz : z < D) (hy : y < H) (hx : x < W) (hc : c < k) :
    pos W H k z y x c < 2 ^ 32 := by
  have h1 : pos W H k z y x c < D * H * W * k := pos_lt hz hy hx hc (Nat.le_refl _)
  have h2 : D * H * W * k ≤ D * H * W * k * n := Nat.le_mul_of_pos_right _ hn
  omega

theorem bps_div {m : Img} (hm : m.Whole) : m.bps / m.bpc = m.width * m.bpp ∧ m.plane / m.bpc = m.height * m.width * m.bpp := by
  refine ⟨?_, ?_⟩
  · rw [hm.cons.1, Nat.mul_div_cancel _ hm.bpc0]
  · rw [hm.cons.2.1, show m.width * m.bpp * m.bpc * m.height = m.height * m.width * m.bpp * m.bpc by grind, Nat.mul_div_cancel _ hm.bpc0]

theorem near1D_ok {A : Arith} {m s : Img} (hm : m.Whole) {W D : Nat} (hD : 0 < D) (hfit : D * 1 * W * m.bpp * m.bpc < 2 ^ 32) (hsp : s.bpp = m.bpp)
    (hl : s.data.length = D * 1 * W * m.bpp * m.bpc) (hx : ∀ x, x < W → A.at_ (A.div64 ⟨W, 1⟩ ⟨m.width, 1⟩) x < m.width) :
    ∃ d, near1D A m s W = .ok d ∧ d.length = s.data.length := by
  unfold near1D sized
  dsimp only
  split
  · have := near4 (D := 1) (H := 1) (W := W) (k := m.bpp) (n := m.bpc) (dst := s.data) (src := m.data)
      (I := fun _ _ x c => u32 (x * s.bpp + c)) (S := fun _ _ x c => u32 (A.at_ (A.div64 ⟨W, 1⟩ ⟨m.width, 1⟩) x * m.bpp + c))
      (by rw [hl]; exact Nat.mul_le_mul_right _ (Nat.mul_le_mul_right _ (Nat.mul_le_mul_right _ (Nat.mul_le_mul_right _ hD))))
      (fun z y x c hz hy hx' hc => by
        have h := dst_lt (y := 0) (z := 0) hfit hm.bpc0 hD (by omega) hx' hc
        have : z = 0 := by omega
        have : y = 0 := by omega
        subst z; subst y
        simp only [hsp]
        unfold pos at h ⊢
        simp only [Nat.zero_mul, Nat.zero_add, Nat.add_zero] at h ⊢
        exact u32_of_lt h)
      (fun z y x c hz hy hx' hc => by
        obtain ⟨h1, h2⟩ := src_elem hm hm.d0 hm.h0 (hx x hx') hc
        unfold pos at h1 h2
        simp only [Nat.zero_mul, Nat.zero_add, Nat.add_zero] at h1 h2
        rw [u32_of_lt h1]
        exact h2)
    obtain ⟨d, e, l, -⟩ := this
    rw [loopN_one, loopN_one] at e
    rw [hsp] at e ⊢
    exact ⟨d, e, l⟩
  · exact ⟨_, rfl, rfl⟩

theorem near2D_ok {A : Arith} {m s : Img} (hm : m.Whole) {W H : Nat} {sx sy : Q} (hfit : 1 * H * W * m.bpp * m.bpc < 2 ^ 32) (hsp : s.bpp = m.bpp) (hsb : s.bps / s.bpc = W * m.bpp)
    (hl : s.data.length = 1 * H * W * m.bpp * m.bpc) (hb : m.bpc = 1 ∨ m.bpc = 2 ∨ m.bpc = 4) (hx : ∀ x, x < W → A.at_ sx x < m.width) (hy : ∀ y, y < H → A.at_ sy y < m.height) :
    ∃ d, near2D A m s W H sx sy = .ok d ∧ d.length = s.data.length ∧ ∀ y x c j, y < H → x < W → c < m.bpp → j < m.bpc →
      d[pos W H m.bpp 0 y x c * m.bpc + j]? = m.data[pos m.width m.height m.bpp 0 (A.at_ sy y) (A.at_ sx x) c * m.bpc + j]? := by
  unfold near2D sized
  dsimp only
  rw [if_pos hb, hsb, (bps_div hm).1, hsp]
  have eqS : ∀ y x c, A.at_ sy y * (m.width * m.bpp) + A.at_ sx x * m.bpp + c = pos m.width m.height m.bpp 0 (A.at_ sy y) (A.at_ sx x) c := by
    intro y x c; unfold pos; grind
  have := near4 (D := 1) (H := H) (W := W) (k := m.bpp) (n := m.bpc) (dst := s.data) (src := m.data)
    (I := fun _ y x c => u32 (y * (W * m.bpp) + x * m.bpp + c)) (S := fun _ y x c => u32 (A.at_ sy y * (m.width * m.bpp) + A.at_ sx x * m.bpp + c))
    (Nat.le_of_eq hl.symm)
    (fun z y x c hz hy' hx' hc => by
      have h := dst_lt hfit hm.bpc0 hz hy' hx' hc
      have : z = 0 := by omega
      subst z
      rw [show y * (W * m.bpp) + x * m.bpp + c = pos W H m.bpp 0 y x c by unfold pos; grind]
      exact u32_of_lt h)
    (fun z y x c hz hy' hx' hc => by
      obtain ⟨h1, h2⟩ := src_elem hm hm.d0 (hy y hy') (hx x hx') hc
      rw [eqS, u32_of_lt h1]
      exact h2)
  obtain ⟨d, e, l, sp⟩ := this
  rw [loopN_one] at e
  refine ⟨d, e, l, fun y x c j h1 h2 h3 h4 => ?_⟩
  rw [sp 0 y x c j (by omega) h1 h2 h3 h4, eqS, u32_of_lt (src_elem hm hm.d0 (hy y h1) (hx x h2) h3).1]

theorem near3D_ok {A : Arith} {m s : Img} (hm : m.Whole) {W H D : Nat} (hfit : D * H * W * m.bpp * m.bpc < 2 ^ 32) (hsp : s.bpp = m.bpp) (hsb : s.bps / s.bpc = W * m.bpp)
    (hpl : s.plane / s.bpc = H * W * m.bpp)
    (hl : s.data.length = D * H * W * m.bpp * m.bpc) (hb : m.bpc = 1 ∨ m.bpc = 2 ∨ m.bpc = 4) (hx : ∀ x, x < W → A.at_ (A.div32 W m.width) x < m.width)
    (hy : ∀ y, y < H → A.at_ (A.div32 H m.height) y < m.height) (hz : ∀ z, z < D → A.at_ (A.div32 D m.depth) z < m.depth) :
    ∃ d, iluScale3D A m s W H D = .ok d ∧ d.length = s.data.length ∧ ∀ z y x c j, z < D → y < H → x < W → c < m.bpp → j < m.bpc →
      d[pos W H m.bpp z y x c * m.bpc + j]? =
        m.data[pos m.width m.height m.bpp (A.at_ (A.div32 D m.depth) z) (A.at_ (A.div32 H m.height) y) (A.at_ (A.div32 W m.width) x) c * m.bpc + j]? := by
  unfold iluScale3D sized
  dsimp only
  rw [if_pos hb, hsb, hpl, (bps_div hm).1, (bps_div hm).2, hsp]
  generalize A.div32 W m.width = sx at *
  generalize A.div32 H m.height = sy at *
  generalize A.div32 D m.depth = sz at *
  have eqS : ∀ z y x c, A.at_ sz z * (m.height * m.width * m.bpp) + A.at_ sy y * (m.width * m.bpp) + A.at_ sx x * m.bpp + c =
      pos m.width m.height m.bpp (A.at_ sz z) (A.at_ sy y) (A.at_ sx x) c := by
    intro z y x c; unfold pos; grind
  obtain ⟨d, e, l, sp⟩ := near4 (D := D) (H := H) (W := W) (k := m.bpp) (n := m.bpc) (dst := s.data) (src := m.data)
    (I := fun z y x c => u32 (z * (H * W * m.bpp) + y * (W * m.bpp) + x * m.bpp + c))
    (S := fun z y x c => u32 (A.at_ sz z * (m.height * m.width * m.bpp) + A.at_ sy y * (m.width * m.bpp) + A.at_ sx x * m.bpp + c))
    (Nat.le_of_eq hl.symm)
    (fun z y x c hz' hy' hx' hc => by
      rw [show z * (H * W * m.bpp) + y * (W * m.bpp) + x * m.bpp + c = pos W H m.bpp z y x c by unfold pos; grind]
      exact u32_of_lt (dst_lt hfit hm.bpc0 hz' hy' hx' hc))
    (fun z y x c hz' hy' hx' hc => by
      obtain ⟨h1, h2⟩ := src_elem hm (hz z hz') (hy y hy') (hx x hx') hc
      rw [eqS, u32_of_lt h1]
      exact h2)
  refine ⟨d, e, l, fun z y x c j h0 h1 h2 h3 h4 => ?_⟩
  rw [sp z y x c j h0 h1 h2 h3 h4, eqS, u32_of_lt (src_elem hm (hz z h0) (hy y h1) (hx x h2) h3).1]

theorem scaled_ok {A : Arith} (hA : A.Ieee) (junk : Nat → UInt8) {m : Img} (hm : m.Whole) {W H D : Nat} (hW : 0 < W) (hH : 0 < H) (hD : 0 < D)
    (hfit : D * H * W * m.bpp * m.bpc < 2 ^ 32) (hw : m.width < 2 ^ 24) (hh : m.height < 2 ^ 24) (hd : m.depth < 2 ^ 24) (hW' : W < 2 ^ 24) (hH' : H < 2 ^ 24) (hD' : D < 2 ^ 24)
    (hb : m.bpc = 1 ∨ m.bpc = 2 ∨ m.bpc = 4) :
    ∃ t fx fy fz, iluScale_ A false junk m W H D = .ok t ∧ t.width = W ∧ t.height = H ∧ t.depth = D ∧ t.bpp = m.bpp ∧ t.format = m.format ∧ t.type = m.type ∧
      t.data.length = D * H * W * m.bpp * m.bpc ∧ Nearest m.width W fx ∧ Nearest m.height H fy ∧ Nearest m.depth D fz ∧
      ∀ z y x c j, z < D → y < H → x < W → c < m.bpp → j < m.bpc →
        t.data[pos W H m.bpp z y x c * m.bpc + j]? = m.data[pos m.width m.height m.bpp (fz z) (fy y) (fx x) c * m.bpc + j]? := by
  have ax : ∀ {n N}, n < 2 ^ 24 → N < 2 ^ 24 → 0 < n → 0 < N → Nearest n N (A.at_ (A.div32 N n)) := fun {n N} h1 h2 h3 h4 =>
    at_nearest hA (hA.near32 N n h3 h2 h1) (fun k hk => by subst hk; exact hA.exact32 k n h3 h2) h1 h2 h3 h4
  have nx := ax hw hW' hm.w0 hW
  have ny := ax hh hH' hm.h0 hH
  obtain ⟨g1, g2, g3⟩ := resized junk hm hW hH hD hfit
  have hsb : (Image.ilResizeImage junk m W H D m.bpp m.bpc).bps / m.bpc = W * m.bpp := by rw [g1, Nat.mul_div_cancel _ hm.bpc0]
  have hpl : (Image.ilResizeImage junk m W H D m.bpp m.bpc).plane / m.bpc = H * W * m.bpp := by rw [g2, Nat.mul_div_cancel _ hm.bpc0]
  obtain ⟨d1, e1, l1⟩ : ∃ d1, (if H ≤ 1 ∧ m.height ≤ 1 then iluScale1D A false m (Image.ilResizeImage junk m W H D m.bpp m.bpc) W
      else .ok (Image.ilResizeImage junk m W H D m.bpp m.bpc).data) = .ok d1 ∧ d1.length = D * H * W * m.bpp * m.bpc := by
    split
    · rename_i h
      have hH1 : H = 1 := by omega
      subst hH1
      have hn : Near 53 (A.div64 ⟨W, 1⟩ ⟨m.width, 1⟩) W m.width := by
        have h1 := hA.near64 W ⟨m.width, 1⟩ (by omega) Nat.one_pos (by show 1 ≤ m.width * 2 ^ 32; have := hm.w0; omega) (by show m.width ≤ 1 * 2 ^ 32; omega)
        rw [Nat.mul_one] at h1
        exact h1
      have hp := at_nearest hA hn.weaken (fun k hk => by
        have h1 := hA.exact64 W k ⟨m.width, 1⟩ (by omega) Nat.one_pos (by show 1 ≤ m.width * 2 ^ 32; have := hm.w0; omega) (by show m.width ≤ 1 * 2 ^ 32; omega)
        exact h1 (by show W * 1 = k * m.width; omega)) hw hW' hm.w0 hW
      obtain ⟨d, e, l⟩ := near1D_ok (s := Image.ilResizeImage junk m W 1 D m.bpp m.bpc) hm hD hfit rfl g3 (fun x hx => (hp x hx).1)
      exact ⟨d, e, by rw [l, g3]⟩
    · exact ⟨_, rfl, g3⟩
  by_cases h3 : D ≤ 1 ∧ m.depth ≤ 1
  · have hD1 : D = 1 := by omega
    subst hD1
    have hd1 : m.depth = 1 := by have := hm.d0; omega
    obtain ⟨d2, e2, l2, s2⟩ := near2D_ok (A := A) (s := { Image.ilResizeImage junk m W H 1 m.bpp m.bpc with data := d1 }) hm hfit rfl hsb l1 hb (fun x hx => (nx x hx).1) (fun y hy => (ny y hy).1)
    refine ⟨{ Image.ilResizeImage junk m W H 1 m.bpp m.bpc with data := d2 }, _, _, fun x => x, ?_, rfl, rfl, rfl, rfl, rfl, rfl, by rw [show _ = d2.length from rfl, l2]; exact l1, nx, ny, Nearest.id hd1, ?_⟩
    · unfold iluScale_
      dsimp only
      rw [e1, bind_ok, if_pos h3]
      unfold iluScale2D
      rw [if_neg (by decide)]
      erw [e2]
      rfl
    · intro z y x c j hz hy hx hc hj
      obtain rfl : z = 0 := by omega
      exact s2 y x c j hy hx hc hj
  · obtain ⟨d2, e2, l2, s2⟩ := near3D_ok (A := A) (s := { Image.ilResizeImage junk m W H D m.bpp m.bpc with data := d1 }) hm hfit rfl hsb hpl l1 hb (fun x hx => (nx x hx).1) (fun y hy => (ny y hy).1)
      (fun z hz => (ax hd hD' hm.d0 hD z hz).1)
    refine ⟨{ Image.ilResizeImage junk m W H D m.bpp m.bpc with data := d2 }, _, _, _, ?_, rfl, rfl, rfl, rfl, rfl, rfl, by rw [show _ = d2.length from rfl, l2]; exact l1, nx, ny, ax hd hD' hm.d0 hD, s2⟩
    unfold iluScale_
    dsimp only
    rw [e1, bind_ok, if_neg h3]
    erw [e2]
    rfl

/-- **C104 (partial).** With the nearest filter, `iluScale(w, h, d)` makes the image as large as asked (0 counts as 1) and keeps its format, type and origin; every new pixel is a copy of
the old pixel at its place, as `Nearest` says.
Missing: the other filters; double components (`C104_violated_double`), sides of 2^24 and more, where single precision does not tell columns apart.  With `ILU_LINEAR` an image
cannot be enlarged safely (`C104_violated_linear`). -/
theorem C104_scale_partial (A : Arith) (junk junk' : Nat → UInt8) (m : Img) (w h d : Nat) (hA : A.Ieee) (hm : m.Whole) (_hf : m.format ≠ IL_COLOUR_INDEX) (ht : m.type ≠ IL_DOUBLE)
    (hw : m.width < 2 ^ 24) (hh : m.height < 2 ^ 24) (hd : m.depth < 2 ^ 24) (hW : w < 2 ^ 24) (hH : h < 2 ^ 24) (hD : d < 2 ^ 24)
    (hfit : max d 1 * max h 1 * max w 1 * m.bpp * m.bpc < 2 ^ 32) :
    ∃ m' fx fy fz, iluScale A false junk junk' m w h d = .ok (some m') ∧ m'.Consistent ∧ m'.width = max w 1 ∧ m'.height = max h 1 ∧ m'.depth = max d 1 ∧
      m'.bpp = m.bpp ∧ m'.bpc = m.bpc ∧ m'.format = m.format ∧ m'.type = m.type ∧ m'.origin = m.origin ∧
      Nearest m.width (max w 1) fx ∧ Nearest m.height (max h 1) fy ∧ Nearest m.depth (max d 1) fz ∧
      ∀ x y z b, m'.In x y z b → m'.px x y z b = m.px (fx x) (fy y) (fz z) b := by
  have a1 : ∀ n, Image.atLeast1 n = max n 1 := by intro n; unfold Image.atLeast1; split <;> omega
  unfold iluScale
  by_cases hs : m.width = w ∧ m.height = h ∧ m.depth = d
  · obtain ⟨rfl, rfl, rfl⟩ := hs
    rw [if_pos ⟨rfl, rfl, rfl⟩, Nat.max_eq_left hm.w0, Nat.max_eq_left hm.h0, Nat.max_eq_left hm.d0]
    exact ⟨m, fun x => x, fun x => x, fun x => x, rfl, hm.cons, rfl, rfl, rfl, rfl, rfl, rfl, rfl, rfl, Nearest.id rfl, Nearest.id rfl, Nearest.id rfl, fun _ _ _ _ _ => rfl⟩
  · rw [if_neg hs, a1, a1, a1]
    have hb : m.bpc = 1 ∨ m.bpc = 2 ∨ m.bpc = 4 := by
      have h1 := hm.bpcT
      have h0 := hm.bpc0
      unfold ilGetBpcType at h1
      simp only [ht] at h1
      repeat' split at h1
      all_goals first | omega | simp_all
    obtain ⟨t, fx, fy, fz, e, t1, t2, t3, t4, t5, t6, tl, nx, ny, nz, sp⟩ := scaled_ok hA junk hm (W := max w 1) (H := max h 1) (D := max d 1) (by omega) (by omega) (by omega) hfit hw hh hd
      (by omega) (by omega) (by omega) hb
    have hsz : max (max w 1) 1 * m.bpp * ilGetBpcType m.type * max (max h 1) 1 * max (max d 1) 1 = max d 1 * max h 1 * max w 1 * m.bpp * m.bpc := by
      rw [← hm.bpcT, Nat.max_eq_left (by omega : 1 ≤ max w 1), Nat.max_eq_left (by omega : 1 ≤ max h 1), Nat.max_eq_left (by omega : 1 ≤ max d 1)]; grind
    obtain ⟨n, e2, c, f1, f2, f3, f4, f5, f6, f7, f8⟩ := Image.C14_geometry_partial junk' (max w 1) (max h 1) (max d 1) m.bpp m.format m.type (some t.data)
      (by rw [← hm.bpcT]; exact Nat.ne_of_gt hm.bpc0) (by rw [hsz]; exact hfit) (fun s hs' => by cases hs'; rw [hsz, tl]; exact Nat.le_refl _)
    rw [Nat.max_eq_left (by omega)] at f1 f2 f3
    rw [← hm.bpcT] at f5
    have hdat : n.data = t.data := by
      rw [f8 _ rfl, List.take_of_length_le]
      rw [c.2.2.1, f1, f2, f3, f4, f5, tl]
      exact Nat.le_of_eq (by grind)
    refine ⟨{ n with origin := m.origin }, fx, fy, fz, ?_, ⟨c.1, c.2.1, c.2.2.1, c.2.2.2⟩, f1, f2, f3, f4, f5, f6, f7, rfl, nx, ny, nz, ?_⟩
    · rw [e, bind_ok, t1, t2, t3, t4, t5, t6, e2, bind_ok]
      rfl
    · rintro x y z b ⟨hx, hy, hz, hb'⟩
      simp only [f1, f2, f3, f4, f5] at hx hy hz hb'
      show n.data[pos n.width n.height (n.bpp * n.bpc) z y x b]? = m.data[pos m.width m.height (m.bpp * m.bpc) (fz z) (fy y) (fx x) b]?
      have hbd : b / m.bpc < m.bpp := (Nat.div_lt_iff_lt_mul hm.bpc0).mpr hb'
      rw [hdat, f1, f2, f4, f5, ← Nat.div_add_mod' b m.bpc, pos_add, pos_add]
      exact sp z y x _ _ hz hy hx hbd (Nat.mod_lt _ hm.bpc0)

/-- Arithmetic without rounding. -/
def exact : Arith :=
  { div32 := fun a b => ⟨a, b⟩, div64 := fun a b => ⟨a.num * b.den, a.den * b.num⟩, mul64 := fun a b => ⟨a.num * b.num, a.den * b.den⟩, mix := fun _ a _ => a }

theorem near_exact {e a b : Nat} (hb : 0 < b) : Near e ⟨a, b⟩ a b := by
  refine ⟨hb, ?_, ?_⟩
  · exact Nat.mul_le_mul_left _ (Nat.sub_le _ _)
  · exact Nat.mul_le_mul_left _ (Nat.le_add_right _ _)

theorem exact_ieee : exact.Ieee := by
  refine ⟨fun a b hb _ _ => near_exact hb, fun k b _ _ => rfl, fun n s _ hd h1 _ => ?_, fun n k s _ _ _ _ h => ?_⟩
  · have h0 : 0 < s.num := Nat.pos_of_ne_zero fun e => by rw [e] at h1; omega
    show Near 53 ⟨n * s.den, 1 * s.num⟩ _ _
    rw [Nat.one_mul]
    exact near_exact h0
  · show n * s.den = k * (1 * s.num)
    rw [Nat.one_mul]
    exact h

/-- Arithmetic in which every quotient of doubles that is not an integer is a little too large. -/
def rough : Arith :=
  { exact with div64 := fun a b => if a.num * b.den % (a.den * b.num) = 0 then ⟨a.num * b.den, a.den * b.num⟩ else ⟨a.num * b.den * (2 ^ 53 + 1), a.den * b.num * 2 ^ 53⟩ }

theorem rough_ieee : rough.Ieee := by
  refine ⟨exact_ieee.near32, exact_ieee.exact32, fun n s hn hd h1 h2 => ?_, fun n k s hn hd h1 h2 h => ?_⟩
  · simp only [rough]
    split
    · exact exact_ieee.near64 n s hn hd h1 h2
    · have h0 : 0 < s.num := Nat.pos_of_ne_zero fun e => by rw [e] at h1; omega
      rw [Nat.one_mul]
      refine ⟨Nat.mul_pos h0 (by decide), ?_, ?_⟩
      · show n * s.den * (s.num * 2 ^ 53) * (2 ^ 53 - 1) ≤ n * s.den * (2 ^ 53 + 1) * s.num * 2 ^ 53
        rw [show n * s.den * (s.num * 2 ^ 53) * (2 ^ 53 - 1) = n * s.den * s.num * 2 ^ 53 * (2 ^ 53 - 1) by grind,
          show n * s.den * (2 ^ 53 + 1) * s.num * 2 ^ 53 = n * s.den * s.num * 2 ^ 53 * (2 ^ 53 + 1) by grind]
        exact Nat.mul_le_mul_left _ (by decide)
      · show n * s.den * (2 ^ 53 + 1) * s.num * 2 ^ 53 ≤ n * s.den * (s.num * 2 ^ 53) * (2 ^ 53 + 1)
        exact Nat.le_of_eq (by grind)
  · simp only [rough]
    rw [if_pos (by show n * s.den % (1 * s.num) = 0; rw [h, Nat.one_mul]; exact Nat.mul_mod_left _ _)]
    exact exact_ieee.exact64 n k s hn hd h1 h2 h

/-- An RGB image of three by two pixels. -/
def rgb32 : Img := ⟨3, 2, 1, 3, 1, 9, 18, 18, IL_RGB, IL_UNSIGNED_BYTE, IL_ORIGIN_UPPER_LEFT, [1, 2, 3, 4, 5, 6, 7, 8, 9, 10, 11, 12, 13, 14, 15, 16, 17, 18]⟩

/-- An image of one grey pixel. -/
def grey1 : Img := ⟨1, 1, 1, 1, 1, 1, 1, 1, IL_LUMINANCE, IL_UNSIGNED_BYTE, IL_ORIGIN_LOWER_LEFT, [7]⟩

/-- The same with a double. -/
def grey8 : Img := ⟨1, 1, 1, 1, 8, 8, 8, 8, IL_LUMINANCE, IL_DOUBLE, IL_ORIGIN_LOWER_LEFT, [0, 0, 0, 0, 0, 0, 0, 64]⟩

/-- The hypotheses of `C104_scale_partial` are met by an RGB image scaled in all directions. -/
example : rough.Ieee ∧ rgb32.Whole ∧ rgb32.format ≠ IL_COLOUR_INDEX ∧ rgb32.type ≠ IL_DOUBLE ∧ rgb32.width < 2 ^ 24 ∧ max 2 1 * max 4 1 * max 5 1 * rgb32.bpp * rgb32.bpc < 2 ^ 32 :=
  ⟨rough_ieee, by constructor <;> first | decide | exact ⟨rfl, rfl, rfl, rfl⟩, by decide, by decide, by decide, by decide⟩

/-- What it says there: three columns become two, two rows become four. -/
example : iluScale exact false (fun _ => 0) (fun _ => 0) rgb32 2 4 1 =
    .ok (some ⟨2, 4, 1, 3, 1, 6, 24, 24, IL_RGB, IL_UNSIGNED_BYTE, IL_ORIGIN_UPPER_LEFT, [1, 2, 3, 4, 5, 6, 1, 2, 3, 4, 5, 6, 10, 11, 12, 13, 14, 15, 10, 11, 12, 13, 14, 15]⟩) := by decide

/-- **C104 violated** by the linear filter: doubling the width of a one-pixel image reads the pixel after the last one.  The quotients are powers of two, so that exact arithmetic is
what the host does. -/
theorem C104_violated_linear (junk junk' : Nat → UInt8) : grey1.Whole ∧ iluScale exact true junk junk' grey1 2 1 1 = .error .oobRead := by
  refine ⟨by constructor <;> first | decide | exact ⟨rfl, rfl, rfl, rfl⟩, ?_⟩
  rfl

/-- **C104 violated** for double components: nothing is copied, and the new pixels are whatever was in the memory. -/
theorem C104_violated_double (junk junk' : Nat → UInt8) : grey8.Whole ∧
    ∃ m', iluScale exact false junk junk' grey8 2 1 1 = .ok (some m') ∧ m'.width = 2 ∧ ∀ i, i < 16 → m'.data[i]? = some (junk i) := by
  refine ⟨by constructor <;> first | decide | exact ⟨rfl, rfl, rfl, rfl⟩, _, rfl, rfl, ?_⟩
  intro i hi
  show ((alloc junk 16).take 16 ++ _)[i]? = _
  simp only [alloc]
  rw [List.getElem?_append_left (by simp; omega)]
  simp [hi]

end DevIL.Scale
