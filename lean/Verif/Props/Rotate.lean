import Verif.Lemmas.Rotate
/-! C220 to C222: turning a picture. -/
set_option autoImplicit false
namespace DevIL.Rotate
open DevIL.RotateSpec

section
variable {α : Type}

theorem off90 {w h bpp x y : Nat} (hx : x < w) (hy : y < h) (hyw : y < w) (hwh : w = h) (hN : w * h * bpp < 4294967296) (hb : 0 < bpp) :
    u32 (x * (h * bpp) + sub32 (sub32 w 1) y * bpp) = (x * h + (w - 1 - y)) * bpp := by
  have hw : w < 4294967296 := by
    have h1 := Nat.mul_le_mul_right bpp (Nat.le_mul_of_pos_right w (show 0 < h by omega))
    have h2 := Nat.le_mul_of_pos_right w hb
    omega
  rw [sub32_le (a := w) (by omega) hw, sub32_le (by omega) (by omega), ← Nat.mul_assoc, ← Nat.add_mul]
  have hp : x * h + (w - 1 - y) < h * w := pos_lt (w := h) (h := w) (by omega) hx
  have := Nat.mul_le_mul_right bpp (Nat.le_of_lt hp)
  rw [Nat.mul_comm h w] at this
  exact u32_lt (by omega)

/-- **C220**, partial: turning a square picture by a quarter or by three quarters. -/
theorem C220_quarters_partial (fill : Nat → α) (n bpp : Nat) (src : List α) (hs : src.length = n * n * bpp) (hb : 0 < bpp) (hN : n * n * bpp < 4294967296) :
    (∃ d, rotate90 fill n n bpp src = .ok d ∧ Quarter src d n n bpp) ∧ ∃ d, rotate270 fill n n bpp src = .ok d ∧ ThreeQuarters src d n n bpp := by
  constructor
  · obtain ⟨d, e, h1, h2⟩ := turn_spec (off := fun x y => u32 (x * (n * bpp) + sub32 (sub32 n 1) y * bpp)) (T := fun x y => x * n + (n - 1 - y)) (dst := alloc fill (n * n * bpp)) hs
      (alloc_length _ _) hN (fun x y hx hy => ⟨pos_lt (by omega) hx, off90 hx hy hy rfl hN hb⟩) (fun x y x' y' hx hy hx' hy' he => by
        obtain ⟨a, b⟩ := px_inj (by omega) (by omega) he
        omega)
    exact ⟨d, e, h1, fun x y c hx hy hc => h2 x y c hx hy hc⟩
  · obtain ⟨d, e, h1, h2⟩ := turn_spec (off := fun x y => u32 (sub32 (sub32 n 1) x * (n * bpp) + y * bpp)) (T := fun x y => (n - 1 - x) * n + y) (dst := alloc fill (n * n * bpp)) hs
      (alloc_length _ _) hN (fun x y hx hy => ⟨pos_lt hy (by omega), by
        have hw : n < 4294967296 := by
          have h1 := Nat.mul_le_mul_right bpp (Nat.le_mul_of_pos_right n (show 0 < n by omega))
          have h2 := Nat.le_mul_of_pos_right n hb
          omega
        have := Nat.mul_le_mul_right bpp (Nat.le_of_lt (pos_lt (w := n) (h := n) hy (show n - 1 - x < n by omega)))
        rw [sub32_le (a := n) (by omega) hw, sub32_le (by omega) (by omega), ← Nat.mul_assoc, ← Nat.add_mul]
        exact u32_lt (by omega)⟩) (fun x y x' y' hx hy hx' hy' he => by
        obtain ⟨a, b⟩ := px_inj (by omega) (by omega) he
        omega)
    exact ⟨d, e, h1, fun x y c hx hy hc => h2 x y c hx hy hc⟩

example : ([1, 2, 3, 4] : List UInt8).length = 2 * 2 * 1 ∧ 0 < 1 ∧ 2 * 2 * 1 < 4294967296 := by decide

/-- **C220**, further: a quarter and then three quarters give the square picture back. -/
theorem C220_back_partial (fill fill' : Nat → α) (n bpp : Nat) (src : List α) (hs : src.length = n * n * bpp) (hb : 0 < bpp) (hN : n * n * bpp < 4294967296) :
    ∃ d d', rotate90 fill n n bpp src = .ok d ∧ rotate270 fill' n n bpp d = .ok d' ∧ ∀ x y c, x < n → y < n → c < bpp → At d' n bpp y x c = At src n bpp y x c := by
  obtain ⟨⟨d, e, h1, h2⟩, -⟩ := C220_quarters_partial fill n bpp src hs hb hN
  obtain ⟨-, d', e', h1', h2'⟩ := C220_quarters_partial fill' n bpp d h1 hb hN
  refine ⟨d, d', e, e', fun x y c hx hy hc => ?_⟩
  rw [← h2 x y c hx hy hc, ← h2' (n - 1 - y) x c (by omega) hx hc, show n - 1 - (n - 1 - y) = y by omega]

theorem sq_le {a b c : Nat} (h : a ≤ b) : a * b * c ≤ b * b * c := Nat.mul_le_mul_right c (Nat.mul_le_mul_right b h)

/-- **C220** fails: turning any picture that is not square by a quarter writes outside the new picture. -/
theorem C220_violated_quarter (fill : Nat → α) (w h bpp : Nat) (src : List α) (hs : src.length = w * h * bpp) (hb : 0 < bpp) (hw : 0 < w) (hh : 0 < h) (hne : w ≠ h) (hW : w * w * bpp ≤ 2147483648)
    (hH : h * h * bpp ≤ 2147483648) : rotate90 fill w h bpp src = .error .oobWrite := by
  have hwb : w * bpp ≤ w * w * bpp := Nat.mul_le_mul_right bpp (Nat.le_mul_of_pos_right w hw)
  have hww : w ≤ w * bpp := Nat.le_mul_of_pos_right w hb
  have hhb : h * bpp ≤ h * h * bpp := Nat.mul_le_mul_right bpp (Nat.le_mul_of_pos_right h hh)
  have hbb : bpp ≤ h * bpp := Nat.le_mul_of_pos_left bpp hh
  unfold rotate90
  by_cases hlt : w < h
  · have hN : w * h * bpp ≤ h * h * bpp := sq_le (by omega)
    have hoff : u32 (0 * (h * bpp) + sub32 (sub32 w 1) w * bpp) = 4294967296 - bpp := by
      have : sub32 (sub32 w 1) w = 4294967295 := by unfold sub32 u32; omega
      rw [this]; unfold u32; omega
    exact turn_fails (x := 0) (y := w) hs (alloc_length _ _) (by omega) hw hlt hb (by rw [hoff]; omega) (by rw [hoff]; omega)
  · have hN : w * h * bpp ≤ w * w * bpp := Nat.mul_le_mul_right bpp (Nat.mul_le_mul_left w (by omega))
    have h1 : (w - 1) * (h * bpp) + sub32 (sub32 w 1) 0 * bpp = ((w - 1) * (h + 1)) * bpp := by
      rw [sub32_le (a := w) (by omega) (by omega), sub32_le (by omega) (by omega), Nat.sub_zero, ← Nat.mul_assoc, ← Nat.add_mul, Nat.mul_add, Nat.mul_one]
    have h2 : w * h ≤ (w - 1) * (h + 1) := by
      obtain ⟨k, rfl⟩ : ∃ k, w = k + 1 := ⟨w - 1, by omega⟩
      rw [Nat.add_sub_cancel, Nat.mul_add, Nat.add_mul]
      omega
    have h3 : (w - 1) * (h + 1) ≤ w * w := Nat.mul_le_mul (by omega) (by omega)
    have h4 := Nat.mul_le_mul_right bpp h2
    have h5 := Nat.mul_le_mul_right bpp h3
    have hoff : u32 ((w - 1) * (h * bpp) + sub32 (sub32 w 1) 0 * bpp) = ((w - 1) * (h + 1)) * bpp := by rw [h1]; exact u32_lt (by omega)
    exact turn_fails (x := w - 1) (y := 0) hs (alloc_length _ _) (by omega) (by omega) hh hb (by rw [hoff]; omega) (by rw [hoff]; omega)

/-- **C220** fails: and so does turning by three quarters. -/
theorem C220_violated_three (fill : Nat → α) (w h bpp : Nat) (src : List α) (hs : src.length = w * h * bpp) (hb : 0 < bpp) (hw : 0 < w) (hh : 0 < h) (hne : w ≠ h) (hW : w * w * bpp ≤ 2147483648)
    (hH : h * h * bpp ≤ 2147483648) : rotate270 fill w h bpp src = .error .oobWrite := by
  have hwb : w * bpp ≤ w * w * bpp := Nat.mul_le_mul_right bpp (Nat.le_mul_of_pos_right w hw)
  have hww : w ≤ w * bpp := Nat.le_mul_of_pos_right w hb
  have hhb : h * bpp ≤ h * h * bpp := Nat.mul_le_mul_right bpp (Nat.le_mul_of_pos_right h hh)
  have hhh : h ≤ h * bpp := Nat.le_mul_of_pos_right h hb
  have hbb : bpp ≤ h * bpp := Nat.le_mul_of_pos_left bpp hh
  unfold rotate270
  by_cases hlt : w < h
  · have hN : w * h * bpp ≤ h * h * bpp := sq_le (by omega)
    have h1 : sub32 (sub32 h 1) 0 * (h * bpp) + 0 * bpp = ((h - 1) * h) * bpp := by
      rw [sub32_le (a := h) (by omega) (by omega), sub32_le (by omega) (by omega), Nat.sub_zero, ← Nat.mul_assoc, Nat.zero_mul, Nat.add_zero]
    have h4 : w * h * bpp ≤ (h - 1) * h * bpp := Nat.mul_le_mul_right bpp (Nat.mul_le_mul_right h (by omega))
    have h5 : (h - 1) * h * bpp ≤ h * h * bpp := Nat.mul_le_mul_right bpp (Nat.mul_le_mul_right h (by omega))
    have hoff : u32 (sub32 (sub32 h 1) 0 * (h * bpp) + 0 * bpp) = ((h - 1) * h) * bpp := by rw [h1]; exact u32_lt (by omega)
    exact turn_fails (x := 0) (y := 0) hs (alloc_length _ _) (by omega) hw hh hb (by rw [hoff]; omega) (by rw [hoff]; omega)
  · have hN : w * h * bpp ≤ w * w * bpp := Nat.mul_le_mul_right bpp (Nat.mul_le_mul_left w (by omega))
    have hoff : u32 (sub32 (sub32 h 1) h * (h * bpp) + 0 * bpp) = 4294967296 - h * bpp := by
      have h1 : sub32 (sub32 h 1) h = 4294967295 := by unfold sub32 u32; omega
      have h2 : 0 < h * bpp := Nat.mul_pos hh hb
      rw [h1, Nat.zero_mul, Nat.add_zero]
      generalize h * bpp = q at *
      unfold u32; omega
    exact turn_fails (x := h) (y := 0) hs (alloc_length _ _) (by omega) (by omega) hh hb (by rw [hoff]; omega) (by rw [hoff]; omega)

example : ([1, 2] : List UInt8).length = 2 * 1 * 1 ∧ 0 < 1 ∧ 0 < 2 ∧ 2 ≠ 1 ∧ 2 * 2 * 1 ≤ 2147483648 := by decide

/-- What turning by half does to any picture. -/
theorem upside (fill : Nat → α) (w h bpp : Nat) (src : List α) (hs : src.length = w * h * bpp) (hb : 0 < bpp) (hN : w * h * bpp < 4294967296) :
    ∃ d, rotate180 fill w h bpp src = .ok d ∧ Upside src d w h bpp := by
  obtain ⟨d, e, h1, h2⟩ := turn_spec (off := fun x y => u32 (sub32 (sub32 h 1) y * (w * bpp) + x * bpp)) (T := fun x y => (h - 1 - y) * w + x) (dst := alloc fill (w * h * bpp)) hs
    (alloc_length _ _) hN (fun x y hx hy => ⟨pos_lt hx (by omega), by
      have hw : h < 4294967296 := by
        have h1 := Nat.mul_le_mul_right bpp (Nat.le_mul_of_pos_left h (show 0 < w by omega))
        have h2 := Nat.le_mul_of_pos_right h hb
        omega
      have := Nat.mul_le_mul_right bpp (Nat.le_of_lt (pos_lt (w := w) (h := h) hx (show h - 1 - y < h by omega)))
      rw [sub32_le (a := h) (by omega) hw, sub32_le (by omega) (by omega), ← Nat.mul_assoc, ← Nat.add_mul]
      exact u32_lt (by omega)⟩) (fun x y x' y' hx hy hx' hy' he => by
      obtain ⟨a, b⟩ := px_inj (by omega) (by omega) he
      omega)
  exact ⟨d, e, h1, fun x y c hx hy hc => h2 x y c hx hy hc⟩

/-- **C221**, partial: turning by half stays in the memory of the picture, and turns pictures whose rows read the same from both ends. -/
theorem C221_half_partial (fill : Nat → α) (w h bpp : Nat) (src : List α) (hs : src.length = w * h * bpp) (hb : 0 < bpp) (hN : w * h * bpp < 4294967296) :
    ∃ d, rotate180 fill w h bpp src = .ok d ∧
      ((∀ x y c, x < w → y < h → c < bpp → At src w bpp y (w - 1 - x) c = At src w bpp y x c) → Half src d w h bpp) := by
  obtain ⟨d, e, h1, h2⟩ := upside fill w h bpp src hs hb hN
  refine ⟨d, e, fun hsym => ⟨h1, fun x y c hx hy hc => ?_⟩⟩
  rw [h2 (w - 1 - x) y c (by omega) hy hc, hsym x y c hx hy hc]

example : ∀ x, x < 3 → At ([1, 2, 1] : List UInt8) 3 1 0 (3 - 1 - x) 0 = At [1, 2, 1] 3 1 0 x 0 := by decide

/-- **C221** fails: turning by half mirrors instead, and is not a turn as soon as a row does not read the same from both ends. -/
theorem C221_violated_half (fill : Nat → α) (w h bpp : Nat) (src : List α) (hs : src.length = w * h * bpp) (hb : 0 < bpp) (hN : w * h * bpp < 4294967296) :
    ∃ d, rotate180 fill w h bpp src = .ok d ∧ Upside src d w h bpp ∧
      ((∃ x y c, x < w ∧ y < h ∧ c < bpp ∧ At src w bpp y (w - 1 - x) c ≠ At src w bpp y x c) → ¬ Half src d w h bpp) := by
  obtain ⟨d, e, h1, h2⟩ := upside fill w h bpp src hs hb hN
  refine ⟨d, e, ⟨h1, h2⟩, fun ⟨x, y, c, hx, hy, hc, hne⟩ hh => hne ?_⟩
  rw [← hh.2 x y c hx hy hc, h2 (w - 1 - x) y c (by omega) hy hc]

example : ∃ x y c, x < 2 ∧ y < 1 ∧ c < 1 ∧ At ([1, 2] : List UInt8) 2 1 y (2 - 1 - x) c ≠ At [1, 2] 2 1 y x c := ⟨0, 0, 0, by decide, by decide, by decide, by decide⟩

/-- **C222**: turning by any other angle stays in the memory of both pictures, and each pixel of the new picture is the pixel of the old one that the floats name, if there is one, and has the
colour the picture was cleared with otherwise, whatever the floats were. -/
theorem C222_any (fill : Nat → α) (w' h' : Nat) (sx sy : Nat → Nat → Int) (w h bpp : Nat) (src : List α) (hs : src.length = w * h * bpp) (hN : w * h * bpp < 4294967296)
    (hN' : w' * h' * bpp < 4294967296) : ∃ d, rotateAny fill w' h' sx sy w h bpp src = .ok d ∧ d.length = w' * h' * bpp ∧
      ∀ x y c, x < w' → y < h' → c < bpp →
        (∀ X Y : Nat, sx x y = X → sy x y = Y → X < w → Y < h → At d w' bpp y x c = At src w bpp Y X c) ∧
        (¬ (0 ≤ sx x y ∧ sx x y < w ∧ 0 ≤ sy x y ∧ sy x y < h) → At d w' bpp y x c = some (fill ((y * w' + x) * bpp + c))) := by
  unfold rotateAny
  let val : Nat → Nat → Nat → Option α := fun x y c =>
    if 0 ≤ sx x y ∧ sx x y < w ∧ 0 ≤ sy x y ∧ sy x y < h then At src w bpp (sy x y).toNat (sx x y).toNat c else some (fill ((y * w' + x) * bpp + c))
  have hpx : ∀ x y (d : List α), x < w' → y < h' → d.length = w' * h' * bpp → (∀ c, c < bpp → At d w' bpp y x c = some (fill ((y * w' + x) * bpp + c))) → ∃ d2,
      (if 0 ≤ sx x y ∧ sx x y < w ∧ 0 ≤ sy x y ∧ sy x y < h then
        copyPx (u32 (y * (w' * bpp) + x * bpp)) (u32 ((sy x y).toNat * (w * bpp) + (sx x y).toNat * bpp)) bpp src d
      else pure d : C (List α)) = .ok d2 ∧ d2.length = w' * h' * bpp ∧ (∀ c, c < bpp → At d2 w' bpp y x c = val x y c) ∧
      ∀ i, (∀ c, c < bpp → i ≠ (y * w' + x) * bpp + c) → d2[i]? = d[i]? := fun x y d hx hy hd hf => by
    by_cases hin : 0 ≤ sx x y ∧ sx x y < w ∧ 0 ≤ sy x y ∧ sy x y < h
    · rw [if_pos hin]
      have p1 : (sy x y).toNat * w + (sx x y).toNat < w * h := pos_lt (by omega) (by omega)
      have p2 := pos_lt hx hy
      have q1 := Nat.mul_le_mul_right bpp (Nat.le_of_lt p1)
      have q2 := Nat.mul_le_mul_right bpp (Nat.le_of_lt p2)
      rw [← Nat.mul_assoc, ← Nat.add_mul, ← Nat.mul_assoc, ← Nat.add_mul, u32_lt (by omega), u32_lt (by omega)]
      obtain ⟨d2, e2, k1, k2, k3⟩ := copyPx_spec hs hN hd hN' p1 p2
      exact ⟨d2, e2, k1, fun c hc => by show _ = if _ then _ else _; rw [if_pos hin]; exact k2 c hc, k3⟩
    · rw [if_neg hin, pure_eq_ok]
      exact ⟨d, rfl, hd, fun c hc => by show _ = if _ then _ else _; rw [if_neg hin]; exact hf c hc, fun _ _ => rfl⟩
  have keep : ∀ (d d2 : List α) x y x' y' c, x < w' → x' < w' → c < bpp → ¬ (x' = x ∧ y' = y) → (∀ i, (∀ c, c < bpp → i ≠ (y * w' + x) * bpp + c) → d2[i]? = d[i]?) →
      At d2 w' bpp y' x' c = At d w' bpp y' x' c := fun d d2 x y x' y' c hx hx' hc hne h => h _ (fun c' hc' he => by
    have := px_inj hx' hx (px_inj hc hc' he).1
    exact hne ⟨this.2, this.1⟩)
  obtain ⟨d, e, h1, h2, -⟩ := loopN_inv (f := fun x d => loopN h' (fun y d =>
      if 0 ≤ sx x y ∧ sx x y < w ∧ 0 ≤ sy x y ∧ sy x y < h then
        copyPx (u32 (y * (w' * bpp) + x * bpp)) (u32 ((sy x y).toNat * (w * bpp) + (sx x y).toNat * bpp)) bpp src d
      else pure d) d) (n := w') (s := alloc fill (w' * h' * bpp))
    (fun k (d : List α) => d.length = w' * h' * bpp ∧ (∀ x y c, x < k → y < h' → c < bpp → At d w' bpp y x c = val x y c) ∧
      ∀ x y c, k ≤ x → x < w' → y < h' → c < bpp → At d w' bpp y x c = some (fill ((y * w' + x) * bpp + c)))
    ⟨alloc_length _ _, fun x _ _ hx => absurd hx (by omega), fun x y c _ hx hy hc => alloc_get _ _ _ (px_lt (pos_lt hx hy) hc)⟩ (fun x d hx hI => by
      obtain ⟨i1, i2, i3⟩ := hI
      obtain ⟨t, et, t1, t2, t3, t4⟩ := loopN_inv (f := fun y d =>
          if 0 ≤ sx x y ∧ sx x y < w ∧ 0 ≤ sy x y ∧ sy x y < h then
            copyPx (u32 (y * (w' * bpp) + x * bpp)) (u32 ((sy x y).toNat * (w * bpp) + (sx x y).toNat * bpp)) bpp src d
          else pure d) (n := h') (s := d)
        (fun j (t : List α) => t.length = w' * h' * bpp ∧ (∀ y c, y < j → c < bpp → At t w' bpp y x c = val x y c) ∧
          (∀ y c, j ≤ y → y < h' → c < bpp → At t w' bpp y x c = some (fill ((y * w' + x) * bpp + c))) ∧
          ∀ x' y c, x' ≠ x → x' < w' → c < bpp → At t w' bpp y x' c = At d w' bpp y x' c)
        ⟨i1, fun _ _ hy => absurd hy (by omega), fun y c _ hy hc => i3 x y c (Nat.le_refl _) hx hy hc, fun _ _ _ _ _ _ => rfl⟩ (fun y t hy hJ => by
          obtain ⟨j1, j2, j3, j4⟩ := hJ
          obtain ⟨t2, e2, k1, k2, k3⟩ := hpx x y t hx hy j1 (fun c hc => j3 y c (Nat.le_refl _) hy hc)
          refine ⟨t2, e2, k1, fun y' c hy' hc => ?_, fun y' c hy' hy'' hc => ?_, fun x' y' c hne hx' hc => ?_⟩
          · by_cases he : y' = y
            · subst he; exact k2 c hc
            · rw [keep t t2 x y x y' c hx hx hc (by omega) k3]; exact j2 y' c (by omega) hc
          · rw [keep t t2 x y x y' c hx hx hc (by omega) k3]; exact j3 y' c (by omega) hy'' hc
          · rw [keep t t2 x y x' y' c hx hx' hc (by omega) k3]; exact j4 x' y' c hne hx' hc)
      refine ⟨t, et, t1, fun x' y c hx' hy hc => ?_, fun x' y c hx' hx'' hy hc => ?_⟩
      · by_cases he : x' = x
        · subst he; exact t2 y c hy hc
        · rw [t4 x' y c he (by omega) hc]; exact i2 x' y c (by omega) hy hc
      · rw [t4 x' y c (by omega) hx'' hc]; exact i3 x' y c (by omega) hx'' hy hc)
  refine ⟨d, e, h1, fun x y c hx hy hc => ⟨fun X Y eX eY hX hY => ?_, fun hin => ?_⟩⟩
  · rw [h2 x y c hx hy hc]
    show (if _ then _ else _) = _
    rw [if_pos (by omega), eX, eY, Int.toNat_natCast, Int.toNat_natCast]
  · rw [h2 x y c hx hy hc]
    show (if _ then _ else _) = _
    rw [if_neg hin]

example : ([1, 2, 3, 4] : List UInt8).length = 2 * 2 * 1 ∧ 2 * 2 * 1 < 4294967296 ∧ 3 * 3 * 1 < 4294967296 := by decide

end
end DevIL.Rotate
