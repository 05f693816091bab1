import Verif.Model.Ico
import Verif.Spec.Ico
import Verif.Lemmas.Games
import Mathlib.Data.Nat.Bitwise
/-! The loops over the pixels of an icon. -/
set_option autoImplicit false
namespace DevIL.Ico
open DevIL.Games DevIL.Detect DevIL.Image DevIL.DetectSpec DevIL.IcoSpec

theorem put4_ok {d : List UInt8} {j : Nat} (a b c e : UInt8) (h : j + 4 ≤ d.length) : ∃ d', put4 d j a b c e = .ok d' ∧ d'.length = d.length ∧
    (d'[j]? = some a ∧ d'[j + 1]? = some b ∧ d'[j + 2]? = some c ∧ d'[j + 3]? = some e) ∧ ∀ p, p < j → d'[p]? = d[p]? := by
  unfold put4
  rw [wr_of_lt (by omega), bind_ok, wr_of_lt (by rw [List.length_set]; omega), bind_ok, wr_of_lt (by rw [List.length_set, List.length_set]; omega), bind_ok,
    wr_of_lt (by rw [List.length_set, List.length_set, List.length_set]; omega)]
  refine ⟨_, rfl, by simp, ⟨?_, ?_, ?_, ?_⟩, fun p hp => ?_⟩
  · rw [List.getElem?_set_ne (by omega), List.getElem?_set_ne (by omega), List.getElem?_set_ne (by omega), List.getElem?_set_self (by omega)]
  · rw [List.getElem?_set_ne (by omega), List.getElem?_set_ne (by omega), List.getElem?_set_self (by rw [List.length_set]; omega)]
  · rw [List.getElem?_set_ne (by omega), List.getElem?_set_self (by rw [List.length_set, List.length_set]; omega)]
  · rw [List.getElem?_set_self (by rw [List.length_set, List.length_set, List.length_set]; omega)]
  · rw [List.getElem?_set_ne (by omega), List.getElem?_set_ne (by omega), List.getElem?_set_ne (by omega), List.getElem?_set_ne (by omega)]

/-- The four bytes of a pixel. -/
def Px (d : List UInt8) (t : Nat) (px : Nat → Option UInt8) : Prop := ∀ q, q < 4 → d[4 * t + q]? = px q

theorem Px.of {d : List UInt8} {t : Nat} {a b c e : UInt8} {px : Nat → Option UInt8} (h : d[4 * t]? = some a ∧ d[4 * t + 1]? = some b ∧ d[4 * t + 2]? = some c ∧ d[4 * t + 3]? = some e)
    (ha : px 0 = some a) (hb : px 1 = some b) (hc : px 2 = some c) (he : px 3 = some e) : Px d t px := by
  intro q hq
  obtain ⟨h0, h1, h2, h3⟩ := h
  match q, hq with
  | 0, _ => rw [ha]; exact h0
  | 1, _ => rw [hb]; exact h1
  | 2, _ => rw [hc]; exact h2
  | 3, _ => rw [he]; exact h3

theorem Px.keep {d d' : List UInt8} {t n : Nat} {px : Nat → Option UInt8} (h : Px d t px) (hk : ∀ p, p < n → d'[p]? = d[p]?) (ht : 4 * t + 4 ≤ n) : Px d' t px :=
  fun q hq => by rw [hk _ (by omega)]; exact h q hq

/-- One turn: some pixels of a row are stored, from column `x` on. -/
structure Turn (w : Nat) (S : Nat → Nat → St → Prop) (px : Nat → Nat → Nat → Option UInt8) (x y : Nat) (s s' : St) (c : Nat) : Prop where
  one : 1 ≤ c
  within : x + c ≤ w
  len : s'.d.length = s.d.length
  next : x + c < w → S (x + c) y s'
  last : x + c = w → S 0 (y + 1) s'
  set : ∀ i, i < c → Px s'.d (y * w + (x + i)) (px (x + i) y)
  keep : ∀ p, p < 4 * (y * w + x) → s'.d[p]? = s.d[p]?

theorem run_spec {w h : Nat} (hw : 0 < w) {step : St → C St} (S : Nat → Nat → St → Prop) (px : Nat → Nat → Nat → Option UInt8) (hj : ∀ x y s, S x y s → s.j = 4 * (y * w + x))
    (hstep : ∀ x y s, x < w → y < h → S x y s → s.d.length = 4 * (w * h) → ∃ s' c, step s = .ok s' ∧ Turn w S px x y s s' c) :
    ∀ f x y s, x < w → y < h ∨ (y = h ∧ x = 0) → S x y s → s.d.length = 4 * (w * h) → w * h < f + (y * w + x) → ∃ s', run (4 * (w * h)) step f s = .ok s' ∧ s'.d.length = 4 * (w * h) ∧
      (∀ x' y', x' < w → y' < h → y * w + x ≤ y' * w + x' → Px s'.d (y' * w + x') (px x' y')) ∧ ∀ p, p < 4 * (y * w + x) → s'.d[p]? = s.d[p]? := by
  intro f
  induction f with
  | zero =>
    intro x y s hx hy hS hl hf
    exfalso
    rcases hy with hy | ⟨rfl, rfl⟩
    · have h1 : (y + 1) * w ≤ h * w := Nat.mul_le_mul_right _ hy
      rw [Nat.succ_mul, Nat.mul_comm h w] at h1
      omega
    · rw [Nat.mul_comm w y] at hf; omega
  | succ f ih =>
    intro x y s hx hy hS hl hf
    have hjs := hj x y s hS
    rcases hy with hy | ⟨rfl, rfl⟩
    · have h1 : (y + 1) * w ≤ h * w := Nat.mul_le_mul_right _ hy
      rw [Nat.succ_mul, Nat.mul_comm h w] at h1
      obtain ⟨s1, c, e, T⟩ := hstep x y s hx hy hS hl
      have hwi := T.within
      have h1c := T.one
      have go : ∃ s', run (4 * (w * h)) step f s1 = .ok s' ∧ s'.d.length = 4 * (w * h) ∧
          (∀ x' y', x' < w → y' < h → y * w + x + c ≤ y' * w + x' → Px s'.d (y' * w + x') (px x' y')) ∧ ∀ p, p < 4 * (y * w + x + c) → s'.d[p]? = s1.d[p]? := by
        by_cases hc : x + c < w
        · obtain ⟨s', e', l', p', k'⟩ := ih (x + c) y s1 hc (.inl hy) (T.next hc) (by rw [T.len, hl]) (by omega)
          exact ⟨s', e', l', fun x' y' a b g => p' x' y' a b (by omega), fun p hp => k' p (by omega)⟩
        · have hc : x + c = w := by omega
          have hm : (y + 1) * w = y * w + x + c := by rw [Nat.succ_mul]; omega
          obtain ⟨s', e', l', p', k'⟩ := ih 0 (y + 1) s1 hw (by rcases Nat.lt_or_ge (y + 1) h with g | g; exact .inl g; exact .inr ⟨by omega, rfl⟩) (T.last hc) (by rw [T.len, hl]) (by rw [hm]; omega)
          rw [hm, Nat.add_zero] at k'
          exact ⟨s', e', l', fun x' y' a b g => p' x' y' a b (by rw [hm]; omega), k'⟩
      obtain ⟨s', e', l', p', k'⟩ := go
      refine ⟨s', ?_, l', fun x' y' a b g => ?_, fun p hp => ?_⟩
      · rw [run, if_neg (by omega), e, bind_ok, e']
      · by_cases hg : y * w + x + c ≤ y' * w + x'
        · exact p' x' y' a b hg
        · have hyy : y' = y := by
            rcases Nat.lt_trichotomy y' y with q | q | q
            · have : (y' + 1) * w ≤ y * w := Nat.mul_le_mul_right _ q
              rw [Nat.succ_mul] at this; omega
            · exact q
            · have : (y + 1) * w ≤ y' * w := Nat.mul_le_mul_right _ q
              rw [Nat.succ_mul] at this; omega
          subst hyy
          have := T.set (x' - x) (by omega)
          rw [show x + (x' - x) = x' by omega] at this
          exact this.keep k' (by omega)
      · rw [k' p (by omega), T.keep p hp]
    · refine ⟨s, ?_, hl, fun x' y' a b g => ?_, fun _ _ => rfl⟩
      · rw [run, if_pos (by rw [hjs, Nat.mul_comm w y]; omega)]
        rfl
      · exfalso
        have : (y' + 1) * w ≤ y * w := Nat.mul_le_mul_right _ b
        rw [Nat.succ_mul] at this; omega

/-! ### The mask -/

theorem zero_iff : ∀ e, e ≤ 8 → (128 >>> e = 0 ↔ e = 8) := by decide

theorem bit_iff {a e : Nat} (he : e < 8) : (a &&& 128 >>> e ≠ 0) ↔ a / 2 ^ (7 - e) % 2 = 1 := by
  have h : 128 >>> e = 2 ^ (7 - e) := by
    have : ∀ e, e < 8 → 128 >>> e = 2 ^ (7 - e) := by decide
    exact this e he
  rw [h, Nat.and_two_pow, Nat.testBit_eq_decide_div_mod_eq]
  by_cases g : a / 2 ^ (7 - e) % 2 = 1
  · have := Nat.two_pow_pos (7 - e)
    simp [g]
  · simp [g]

/-- The alpha the mask gives a pixel. -/
def alphaAt (mask : List UInt8) (ab x y : Nat) : UInt8 := if ((mask[y * ab + x / 8]?).getD 0).toNat / 2 ^ (7 - x % 8) % 2 = 1 then 0 else 255

theorem alpha_ok {mask : List UInt8} {ab x y e : Nat} (hc : y * ab + x / 8 < mask.length) (he : e = x % 8) : alphaOf mask (y * ab + x / 8) (128 >>> e) = .ok (alphaAt mask ab x y) := by
  subst he
  unfold alphaOf alphaAt
  rw [rd_of_lt hc, bind_ok, List.getElem?_eq_getElem hc, Option.getD_some]
  have := bit_iff (a := mask[y * ab + x / 8].toNat) (e := x % 8) (by omega)
  by_cases g : mask[y * ab + x / 8].toNat / 2 ^ (7 - x % 8) % 2 = 1
  · rw [if_pos (this.2 g), if_pos g]; rfl
  · rw [if_neg (fun t => g (this.1 t)), if_neg g]; rfl

/-! ### 32 bits -/

theorem turn32 {i : Icon} {w h : Nat} (hd : i.data.length = rowBytes w 32 * h) : ∀ x y s, x < w → y < h → (s.j = 4 * (y * w + x) ∧ s.k = s.j) → s.d.length = 4 * (w * h) →
    ∃ s' c, step32 i s = .ok s' ∧ Turn w (fun x y s => s.j = 4 * (y * w + x) ∧ s.k = s.j) (fun x y q => i.data[y * rowBytes w 32 + 4 * x + q]?) x y s s' c := by
  intro x y s hx hy hS hl
  have hr : rowBytes w 32 = 4 * w := by unfold rowBytes; omega
  rw [hr] at hd
  have h1 : (y + 1) * w ≤ h * w := Nat.mul_le_mul_right _ hy
  rw [Nat.succ_mul] at h1
  have h2 : 4 * w * h = 4 * (h * w) := by rw [Nat.mul_assoc, Nat.mul_comm w h]
  have h3 : w * h = h * w := Nat.mul_comm _ _
  obtain ⟨hj, hk⟩ := hS
  rw [h2] at hd
  have hb : s.k + 4 ≤ i.data.length := by omega
  obtain ⟨d', e, l, g, k⟩ := put4_ok (d := s.d) (j := s.j) i.data[s.k] i.data[s.k + 1] i.data[s.k + 2] i.data[s.k + 3] (by omega)
  refine ⟨{ s with d := d', j := s.j + 4, k := s.k + 4 }, 1, ?_, Nat.le_refl _, hx, l, fun _ => ⟨?_, ?_⟩, fun hxw => ⟨?_, ?_⟩, fun t ht => ?_, fun p hp => k p (by omega)⟩
  · unfold step32
    rw [rd_of_lt (by omega), bind_ok, rd_of_lt (by omega), bind_ok, rd_of_lt (by omega), bind_ok, rd_of_lt (by omega), bind_ok, e, bind_ok]
    rfl
  · show s.j + 4 = 4 * (y * w + (x + 1)); omega
  · show s.k + 4 = s.j + 4; omega
  · show s.j + 4 = 4 * ((y + 1) * w + 0); rw [Nat.succ_mul y w]; omega
  · show s.k + 4 = s.j + 4; omega
  · obtain rfl : t = 0 := by omega
    rw [hj] at g
    have hp : ∀ q, q < 4 → i.data[y * rowBytes w 32 + 4 * (x + 0) + q]? = i.data[s.k + q]? := by
      intro q _
      rw [hr, hk, hj, Nat.mul_left_comm]
      congr 1
      omega
    refine Px.of g ?_ ?_ ?_ ?_
    · rw [hp 0 (by decide)]; exact List.getElem?_eq_getElem _
    · rw [hp 1 (by decide)]; exact List.getElem?_eq_getElem _
    · rw [hp 2 (by decide)]; exact List.getElem?_eq_getElem _
    · rw [hp 3 (by decide)]; exact List.getElem?_eq_getElem _

/-! ### 24 bits -/

/-- Before a pixel. -/
structure S24 (w x y : Nat) (s : St) : Prop where
  j : s.j = 4 * (y * w + x)
  k : s.k = y * rowBytes w 24 + 3 * x
  l : s.l = 128 >>> (x % 8)
  cur : s.cur = y * rowBytes w 1 + x / 8
  x : s.x = x

theorem shift1 (l e : Nat) (h : l = 128 >>> e) : l >>> 1 = 128 >>> (e + 1) := by rw [h, ← Nat.shiftRight_add]

/-- After the pixels up to column `x` of a row. -/
theorem end_spec {w x y c : Nat} {s : St} (hl : s.l = 128 >>> (x % 8 + c)) (hc : x % 8 + c ≤ 8) (h1 : 1 ≤ c) (hcur : s.cur = y * rowBytes w 1 + x / 8) (hx : s.x = x + c) (hw : x + c ≤ w) (hw8 : w + 7 < 4294967296)
    (pad : Nat) :
    let s' := endPixel w pad (padding w 1) s
    s'.d = s.d ∧ s'.j = s.j ∧ (x + c < w → s'.k = s.k ∧ s'.l = 128 >>> ((x + c) % 8) ∧ s'.cur = y * rowBytes w 1 + (x + c) / 8 ∧ s'.x = x + c) ∧
      (x + c = w → s'.k = s.k + pad ∧ s'.l = 128 ∧ s'.cur = (y + 1) * rowBytes w 1 ∧ s'.x = 0) := by
  have hz := zero_iff (x % 8 + c) hc
  have hp : (w + 7) / 8 + padding w 1 = rowBytes w 1 := by
    unfold padding rowBytes
    rw [Nat.mul_one, u32_of_lt (n := w) (by omega), u32_of_lt (n := w + 7) (by omega)]
    omega
  unfold endPixel
  rw [hl, hx]
  by_cases g : x + c = w
  · rw [if_pos (.inr g), if_pos g]
    refine ⟨rfl, rfl, fun h => absurd h (by omega), fun _ => ⟨rfl, rfl, ?_, rfl⟩⟩
    show s.cur + 1 + padding w 1 = _
    rw [hcur, Nat.succ_mul, ← hp]
    omega
  · by_cases g8 : x % 8 + c = 8
    · rw [if_pos (.inl (hz.2 g8)), if_neg g]
      refine ⟨rfl, rfl, fun _ => ⟨rfl, ?_, ?_, rfl⟩, fun h => absurd h g⟩
      · show 128 = _
        rw [show (x + c) % 8 = 0 by omega]
        rfl
      · show s.cur + 1 = _
        rw [hcur]
        omega
    · rw [if_neg (fun t => t.elim (fun t => g8 (hz.1 t)) g)]
      refine ⟨rfl, rfl, fun _ => ⟨rfl, ?_, ?_, hx⟩, fun h => absurd h g⟩
      · rw [hl, show (x + c) % 8 = x % 8 + c by omega]
      · rw [hcur]
        omega

theorem mask_in {mask : List UInt8} {w h x y : Nat} (hm : mask.length = rowBytes w 1 * h) (hx : x < w) (hy : y < h) : y * rowBytes w 1 + x / 8 < mask.length := by
  have h1 : (y + 1) * rowBytes w 1 ≤ h * rowBytes w 1 := Nat.mul_le_mul_right _ hy
  rw [Nat.succ_mul, Nat.mul_comm h] at h1
  have : x / 8 < rowBytes w 1 := by unfold rowBytes; omega
  omega

theorem turn24 {i : Icon} {w h : Nat} (hw8 : w * 24 + 7 < 4294967296) (hd : i.data.length = rowBytes w 24 * h) (hm : i.mask.length = rowBytes w 1 * h) :
    ∀ x y s, x < w → y < h → S24 w x y s → s.d.length = 4 * (w * h) → ∃ s' c, step24 i w (padding w 24) (padding w 1) s = .ok s' ∧
      Turn w (S24 w) (fun x y q => if q = 3 then some (alphaAt i.mask (rowBytes w 1) x y) else i.data[y * rowBytes w 24 + 3 * x + q]?) x y s s' c := by
  intro x y s hx hy hS hl
  have h1 : (y + 1) * w ≤ h * w := Nat.mul_le_mul_right _ hy
  rw [Nat.succ_mul] at h1
  have h3 : w * h = h * w := Nat.mul_comm _ _
  have h2 : (y + 1) * rowBytes w 24 ≤ h * rowBytes w 24 := Nat.mul_le_mul_right _ hy
  rw [Nat.succ_mul, Nat.mul_comm h] at h2
  have hrow : 3 * w ≤ rowBytes w 24 := by unfold rowBytes; omega
  have hpad : 3 * w + padding w 24 = rowBytes w 24 := by
    unfold padding rowBytes
    rw [u32_of_lt (n := w * 24) (by omega), u32_of_lt (n := w * 24 + 7) (by omega)]
    omega
  obtain ⟨hj, hk, hll, hcur, hxx⟩ := hS
  have hb : s.k + 3 ≤ i.data.length := by omega
  obtain ⟨d', e, l, g, k⟩ := put4_ok (d := s.d) (j := s.j) i.data[s.k] i.data[s.k + 1] i.data[s.k + 2] (alphaAt i.mask (rowBytes w 1) x y) (by omega)
  obtain ⟨e1, e2, e3, e4⟩ := end_spec (w := w) (x := x) (y := y) (c := 1) (s := { s with d := d', l := s.l >>> 1, x := s.x + 1 }) (shift1 _ _ hll) (by omega) (by omega) hcur
    (by show s.x + 1 = _; rw [hxx]) hx (by omega) (padding w 24)
  generalize hs' : endPixel w (padding w 24) (padding w 1) { s with d := d', l := s.l >>> 1, x := s.x + 1 } = s1 at e1 e2 e3 e4
  simp only [] at e1 e2 e3 e4
  refine ⟨{ s1 with j := s1.j + 4, k := s1.k + 3 }, 1, ?_, Nat.le_refl _, hx, ?_, fun hlt => ?_, fun hlt => ?_, fun t ht => ?_, fun p hp => ?_⟩
  · unfold step24
    rw [rd_of_lt (by omega), bind_ok, rd_of_lt (by omega), bind_ok, rd_of_lt (by omega), bind_ok, hcur, hll, alpha_ok (mask_in hm hx hy) rfl, bind_ok, e, bind_ok]
    rw [← hcur, ← hll, hs']
    rfl
  · show s1.d.length = _
    rw [e1, l]
  · obtain ⟨a1, a2, a3, a4⟩ := e3 hlt
    exact ⟨by show s1.j + 4 = _; omega, by show s1.k + 3 = _; omega, a2, a3, a4⟩
  · obtain ⟨a1, a2, a3, a4⟩ := e4 hlt
    exact ⟨by show s1.j + 4 = _; rw [Nat.succ_mul y w]; omega, by show s1.k + 3 = _; rw [Nat.succ_mul y]; omega, a2, by show s1.cur = _; rw [a3]; omega, a4⟩
  · obtain rfl : t = 0 := by omega
    rw [hj] at g
    have hp : ∀ q, i.data[y * rowBytes w 24 + 3 * (x + 0) + q]? = i.data[s.k + q]? := by
      intro q
      rw [hk]
      rfl
    show Px s1.d _ _
    rw [e1]
    refine Px.of g ?_ ?_ ?_ ?_
    · rw [if_neg (by decide), hp 0]; exact List.getElem?_eq_getElem _
    · rw [if_neg (by decide), hp 1]; exact List.getElem?_eq_getElem _
    · rw [if_neg (by decide), hp 2]; exact List.getElem?_eq_getElem _
    · rw [if_pos rfl]; rfl
  · show s1.d[p]? = _
    rw [e1]
    exact k p (by omega)

/-! ### 1, 4 and 8 bits -/

/-- Before the pixels of a byte. -/
structure SPal (b w x y : Nat) (s : St) : Prop where
  j : s.j = 4 * (y * w + x)
  k : s.k = y * rowBytes w b + x * b / 8
  l : s.l = 128 >>> (x % 8)
  cur : s.cur = y * rowBytes w 1 + x / 8
  col : s.x = x
  whole : x * b % 8 = 0

/-- The number of a pixel's colour. -/
def indexOf (data : List UInt8) (b rb x y : Nat) : Nat := ((data[y * rb + x * b / 8]?).getD 0).toNat / 2 ^ (8 - b - x * b % 8) % 2 ^ b

/-- A pixel of an icon with a palette. -/
def palPx (i : Icon) (b w x y q : Nat) : Option UInt8 :=
  if q = 3 then some (alphaAt i.mask (rowBytes w 1) x y) else i.pal[indexOf i.data b (rowBytes w b) x y * 4 + q]?

/-- Inside the byte, after `t` pixels. -/
structure In (i : Icon) (b w x y : Nat) (s0 : St) (t : Nat) (s : St) : Prop where
  j : s.j = 4 * (y * w + (x + t))
  k : s.k = s0.k
  l : s.l = 128 >>> (x % 8 + t)
  cur : s.cur = s0.cur
  col : s.x = x + t
  len : s.d.length = s0.d.length
  set : ∀ u, u < t → Px s.d (y * w + (x + u)) (palPx i b w (x + u) y)
  keep : ∀ p, p < 4 * (y * w + x) → s.d[p]? = s0.d[p]?

theorem pal_row {b w x t : Nat} (hb : b = 1 ∨ b = 4 ∨ b = 8) (hx : x * b % 8 = 0) (ht : t < 8 / b) : (x + t) * b / 8 = x * b / 8 ∧ (x + t) * b % 8 = t * b ∧ (x + t) % 8 = x % 8 + t ∧ (x + t) / 8 = x / 8 ∧ t * b + b ≤ 8 := by
  rcases hb with rfl | rfl | rfl <;> omega

theorem putPal_ok {i : Icon} {b w h x y t : Nat} (hb : b = 1 ∨ b = 4 ∨ b = 8) (hd : i.data.length = rowBytes w b * h) (hm : i.mask.length = rowBytes w 1 * h) (hp : i.pal.length = 4 * 2 ^ b)
    {s0 s : St} (S : SPal b w x y s0) (I : In i b w x y s0 t s) (ht : t < 8 / b) (hx : x + t < w) (hy : y < h) (hl : s0.d.length = 4 * (w * h)) :
    ∃ s', (do
      let v ← rd i.data s.k
      putPal i ((v.toNat >>> (8 - b - t * b)) &&& (2 ^ b - 1)) s) = .ok s' ∧ In i b w x y s0 (t + 1) s' := by
  obtain ⟨r1, r2, r3, r4, r5⟩ := pal_row (w := w) hb S.whole ht
  have h1 : (y + 1) * w ≤ h * w := Nat.mul_le_mul_right _ hy
  rw [Nat.succ_mul, Nat.mul_comm h] at h1
  have h2 : (y + 1) * rowBytes w b ≤ h * rowBytes w b := Nat.mul_le_mul_right _ hy
  rw [Nat.succ_mul, Nat.mul_comm h] at h2
  have hrow : (x + t) * b / 8 < rowBytes w b := by
    have : (x + t) * b + b ≤ w * b := by rw [← Nat.succ_mul]; exact Nat.mul_le_mul_right _ hx
    unfold rowBytes
    generalize (x + t) * b = q at *
    generalize w * b = r at *
    omega
  have hk : s.k < i.data.length := by rw [I.k, S.k, ← r1]; omega
  have hv : (i.data[s.k].toNat >>> (8 - b - t * b)) &&& (2 ^ b - 1) = indexOf i.data b (rowBytes w b) (x + t) y := by
    unfold indexOf
    rw [Nat.shiftRight_eq_div_pow, Nat.and_two_pow_sub_one_eq_mod, r1, r2, ← S.k, ← I.k, List.getElem?_eq_getElem hk, Option.getD_some]
  have hlt : indexOf i.data b (rowBytes w b) (x + t) y < 2 ^ b := Nat.mod_lt _ (Nat.two_pow_pos b)
  rw [rd_of_lt hk, bind_ok, hv]
  generalize hix : indexOf i.data b (rowBytes w b) (x + t) y = v at hlt
  have hj := I.j
  have hlen := I.len
  obtain ⟨d', e, l, g, k⟩ := put4_ok (d := s.d) (j := s.j) (i.pal[v * 4]'(by omega)) (i.pal[v * 4 + 1]'(by omega)) (i.pal[v * 4 + 2]'(by omega)) (alphaAt i.mask (rowBytes w 1) (x + t) y) (by omega)
  refine ⟨{ s with d := d', j := s.j + 4, l := s.l >>> 1, x := s.x + 1 }, ?_, ?_⟩
  · unfold putPal
    rw [rd_of_lt (by omega), bind_ok, rd_of_lt (by omega), bind_ok, rd_of_lt (by omega), bind_ok, I.cur, S.cur, I.l, ← r4, ← r3, alpha_ok (mask_in hm hx hy) rfl, bind_ok, e, bind_ok]
    rfl
  · refine ⟨by show s.j + 4 = _; omega, I.k, shift1 _ _ I.l, I.cur, by show s.x + 1 = _; rw [I.col]; rfl, by show d'.length = _; rw [l, hlen], fun u hu => ?_, fun p hp => ?_⟩
    · show Px d' _ _
      by_cases hut : u = t
      · subst hut
        rw [hj] at g
        refine Px.of g ?_ ?_ ?_ ?_
        · unfold palPx; rw [if_neg (by decide), hix]; exact List.getElem?_eq_getElem _
        · unfold palPx; rw [if_neg (by decide), hix]; exact List.getElem?_eq_getElem _
        · unfold palPx; rw [if_neg (by decide), hix]; exact List.getElem?_eq_getElem _
        · unfold palPx; rw [if_pos rfl]
      · exact (I.set u (by omega)).keep k (by omega)
    · show d'[p]? = _
      rw [k p (by omega)]
      exact I.keep p hp

theorem turnPal {i : Icon} {b w h : Nat} (hb : b = 1 ∨ b = 4 ∨ b = 8) (hw8 : w * b + 7 < 4294967296) (hd : i.data.length = rowBytes w b * h) (hm : i.mask.length = rowBytes w 1 * h)
    (hp : i.pal.length = 4 * 2 ^ b) : ∀ x y s, x < w → y < h → SPal b w x y s → s.d.length = 4 * (w * h) → ∃ s' c, stepPal i b w (padding w b) (padding w 1) s = .ok s' ∧
      Turn w (SPal b w) (palPx i b w) x y s s' c := by
  intro x y s hx hy S hl
  have hb0 : 0 < 8 / b := by rcases hb with rfl | rfl | rfl <;> decide
  have hloop : ∃ s1, loopN (8 / b) (fun t s =>
      if (b ≠ 1 ∧ t = 0) ∨ s.x < w then do
        let v ← rd i.data s.k
        putPal i ((v.toNat >>> (8 - b - t * b)) &&& (2 ^ b - 1)) s
      else pure s) s = .ok s1 ∧ In i b w x y s (min (8 / b) (w - x)) s1 := by
    refine loopN_inv (fun t s1 => In i b w x y s (min t (w - x)) s1) ?_ (fun t s1 ht I => ?_)
    · rw [Nat.zero_min]
      exact ⟨S.j, rfl, S.l, rfl, S.col, rfl, fun u hu => absurd hu (by omega), fun _ _ => rfl⟩
    · by_cases hc : t < w - x
      · rw [show min t (w - x) = t by omega] at I
        rw [if_pos (by rw [I.col]; omega), show min (t + 1) (w - x) = t + 1 by omega]
        exact putPal_ok hb hd hm hp S I ht (by omega) hy hl
      · rw [show min t (w - x) = w - x by omega] at I
        rw [if_neg (by rw [I.col]; omega), show min (t + 1) (w - x) = w - x by omega]
        exact ⟨s1, rfl, I⟩
  obtain ⟨s1, e, I⟩ := hloop
  generalize hc : min (8 / b) (w - x) = c at I
  obtain ⟨r1, r2, r3, r4, r5⟩ := pal_row (w := w) (t := c - 1) hb S.whole (by omega)
  obtain ⟨e1, e2, e3, e4⟩ := end_spec (w := w) (x := x) (y := y) (c := c) (s := s1) I.l (by omega) (by omega) (by rw [I.cur, S.cur]) I.col (by omega)
    (by have : w * 1 ≤ w * b := Nat.mul_le_mul_left _ (by omega); omega) (padding w b)
  generalize hs' : endPixel w (padding w b) (padding w 1) s1 = s2 at e1 e2 e3 e4
  have hj := I.j
  have hk := I.k
  have hSk := S.k
  refine ⟨{ s2 with k := s2.k + 1 }, c, ?_, by omega, by omega, ?_, fun hlt => ?_, fun hlt => ?_, fun t ht => ?_, fun p hp => ?_⟩
  · unfold stepPal
    rw [e, bind_ok]
    show pure { endPixel w (padding w b) (padding w 1) s1 with k := (endPixel w (padding w b) (padding w 1) s1).k + 1 } = _
    rw [hs']
    rfl
  · show s2.d.length = _
    rw [e1, I.len]
  · obtain ⟨a1, a2, a3, a4⟩ := e3 hlt
    have h8 : c = 8 / b := by omega
    have hn : (x + c) * b / 8 = x * b / 8 + 1 ∧ (x + c) * b % 8 = 0 := by
      have := S.whole
      rcases hb with rfl | rfl | rfl <;> omega
    exact ⟨by show s2.j = _; rw [e2, hj], by show s2.k + 1 = _; rw [a1, hk, hSk, hn.1]; omega, a2, a3, a4, hn.2⟩
  · obtain ⟨a1, a2, a3, a4⟩ := e4 hlt
    have hn : x * b / 8 + 1 = (w * b + 7) / 8 := by
      have := S.whole
      subst hlt
      rcases hb with rfl | rfl | rfl <;> omega
    have hpad : (w * b + 7) / 8 + padding w b = rowBytes w b := by
      unfold padding rowBytes
      generalize w * b = q at *
      rw [u32_of_lt (n := q) (by omega), u32_of_lt (n := q + 7) (by omega)]
      omega
    refine ⟨by show s2.j = _; rw [e2, hj, Nat.succ_mul y w]; omega, ?_, a2, by show s2.cur = _; rw [a3]; omega, a4, by rw [Nat.zero_mul]⟩
    show s2.k + 1 = _
    rw [a1, hk, hSk, Nat.succ_mul y, Nat.zero_mul]
    omega
  · show Px s2.d _ _
    rw [e1]
    exact I.set t ht
  · show s2.d[p]? = _
    rw [e1]
    exact I.keep p hp

end DevIL.Ico
