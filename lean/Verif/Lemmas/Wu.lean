import Verif.Model.Wu
import Verif.Spec.Wu
import Verif.Comp
/-! Lemmas about Wu's quantizer. -/
set_option autoImplicit false
namespace DevIL.Wu
open DevIL.WuSpec

theorem sum_congr {n : Nat} {f g : Nat → Int} (h : ∀ i, i < n → f i = g i) : sumTo n f = sumTo n g := by
  induction n with
  | zero => rfl
  | succ n ih => unfold sumTo; rw [ih (fun i hi => h i (by omega)), h n (by omega)]

theorem sum_add {n : Nat} {f g e : Nat → Int} (h : ∀ i, i < n → f i + g i = e i) : sumTo n f + sumTo n g = sumTo n e := by
  induction n with
  | zero => rfl
  | succ n ih => unfold sumTo; have := ih (fun i hi => h i (by omega)); have := h n (by omega); omega

theorem sum_le {n : Nat} {f g : Nat → Int} (h : ∀ i, i < n → f i ≤ g i) : sumTo n f ≤ sumTo n g := by
  induction n with
  | zero => exact Int.le_refl _
  | succ n ih => unfold sumTo; have := ih (fun i hi => h i (by omega)); have := h n (by omega); omega

theorem sum_zero (n : Nat) : sumTo n (fun _ => 0) = 0 := by
  induction n with
  | zero => rfl
  | succ n ih => unfold sumTo; rw [ih]; rfl

theorem sum_nonneg {n : Nat} {f : Nat → Int} (h : ∀ i, i < n → 0 ≤ f i) : 0 ≤ sumTo n f := by
  have := sum_le (n := n) (f := fun _ => 0) (g := f) h
  rw [sum_zero] at this
  exact this

theorem sum_mono {n m : Nat} {f : Nat → Int} (hnm : n ≤ m) (h : ∀ i, i < m → 0 ≤ f i) : sumTo n f ≤ sumTo m f := by
  induction m with
  | zero => obtain rfl : n = 0 := by omega
            exact Int.le_refl _
  | succ m ih =>
    by_cases c : n = m + 1
    · rw [c]; exact Int.le_refl _
    · have := ih (by omega) (fun i hi => h i (by omega))
      have := h m (by omega)
      show sumTo n f ≤ sumTo m f + f m
      omega

theorem sum_const (n : Nat) (a : Int) : sumTo n (fun _ => a) = n * a := by
  induction n with
  | zero => simp [sumTo]
  | succ n ih => unfold sumTo; rw [ih]; rw [show ((n + 1 : Nat) : Int) = n + 1 by omega, Int.add_mul, Int.one_mul]

/-! ### Arrays -/

/-- The array has these values. -/
def IsArr {β : Type} (m : List β) (f : Nat → Nat → Nat → β) : Prop := m.length = 35937 ∧ ∀ r g b, r ≤ 32 → g ≤ 32 → b ≤ 32 → m[cell r g b]? = some (f r g b)

theorem cell_lt {r g b : Nat} (hr : r ≤ 32) (hg : g ≤ 32) (hb : b ≤ 32) : cell r g b < 35937 := by unfold cell; omega

theorem cell_inj {r g b r' g' b' : Nat} (hg : g ≤ 32) (hb : b ≤ 32) (hg' : g' ≤ 32) (hb' : b' ≤ 32) (h : cell r g b = cell r' g' b') : r = r' ∧ g = g' ∧ b = b' := by
  unfold cell at h; omega

theorem IsArr.rd {β : Type} {m : List β} {f : Nat → Nat → Nat → β} (h : IsArr m f) {r g b : Nat} (hr : r ≤ 32) (hg : g ≤ 32) (hb : b ≤ 32) : DevIL.rd m (cell r g b) = .ok (f r g b) :=
  rd_of_some (h.2 r g b hr hg hb)

theorem IsArr.wr {β : Type} {m : List β} {f f' : Nat → Nat → Nat → β} (h : IsArr m f) {r g b : Nat} (hr : r ≤ 32) (hg : g ≤ 32) (hb : b ≤ 32) {v : β} (h1 : f' r g b = v)
    (h2 : ∀ r' g' b', r' ≤ 32 → g' ≤ 32 → b' ≤ 32 → ¬ (r' = r ∧ g' = g ∧ b' = b) → f' r' g' b' = f r' g' b') : ∃ m', DevIL.wr m (cell r g b) v = .ok m' ∧ IsArr m' f' := by
  have hl : cell r g b < m.length := by rw [h.1]; exact cell_lt hr hg hb
  refine ⟨_, wr_of_lt hl, by rw [List.length_set]; exact h.1, fun r' g' b' hr' hg' hb' => ?_⟩
  by_cases c : r' = r ∧ g' = g ∧ b' = b
  · obtain ⟨rfl, rfl, rfl⟩ := c
    rw [List.getElem?_set_self hl, h1]
  · rw [List.getElem?_set_ne (fun e => c (by have := cell_inj hg hb hg' hb' e; omega)), h2 r' g' b' hr' hg' hb' c]
    exact h.2 r' g' b' hr' hg' hb'

theorem IsArr.congr {β : Type} {m : List β} {f f' : Nat → Nat → Nat → β} (h : IsArr m f) (hf : ∀ r g b, r ≤ 32 → g ≤ 32 → b ≤ 32 → f' r g b = f r g b) : IsArr m f' :=
  ⟨h.1, fun r g b hr hg hb => by rw [hf r g b hr hg hb]; exact h.2 r g b hr hg hb⟩

theorem addI_ok {a b : Int} (h0 : 0 ≤ a + b) (h1 : a + b ≤ 2147483647) : addI a b = .ok (a + b) := by unfold addI; rw [if_pos ⟨by omega, h1⟩]

/-! ### Sums over pixels -/

section
variable (X Y Z : Nat → Nat) (w : Nat → Int) (n : Nat)

/-- The pixels in a cell. -/
def H (r g b : Nat) : Int := sumTo n (fun i => if X i = r ∧ Y i = g ∧ Z i = b then w i else 0)
/-- The pixels in a line. -/
def Li (r g b : Nat) : Int := sumTo n (fun i => if X i = r ∧ Y i = g ∧ Z i ≤ b then w i else 0)
/-- The pixels in an area. -/
def Ar (r g b : Nat) : Int := sumTo n (fun i => if X i = r ∧ Y i ≤ g ∧ Z i ≤ b then w i else 0)
/-- The pixels up to a cell. -/
def P (r g b : Nat) : Int := sumTo n (fun i => if X i ≤ r ∧ Y i ≤ g ∧ Z i ≤ b then w i else 0)

/-- A cell in a box. -/
def In (c : Box) (r g b : Nat) : Prop := (c.r0 < r ∧ r ≤ c.r1) ∧ (c.g0 < g ∧ g ≤ c.g1) ∧ c.b0 < b ∧ b ≤ c.b1

instance (c : Box) (r g b : Nat) : Decidable (In c r g b) := by unfold In; infer_instance

/-- The pixels in a box. -/
def V (c : Box) : Int := sumTo n (fun i => if In c (X i) (Y i) (Z i) then w i else 0)

end

section
variable {X Y Z : Nat → Nat} {w : Nat → Int} {n : Nat}

theorem Li_succ (r g b : Nat) : Li X Y Z w n r g b + H X Y Z w n r g (b + 1) = Li X Y Z w n r g (b + 1) := by
  refine sum_add (fun i _ => ?_)
  by_cases h1 : X i = r ∧ Y i = g
  · by_cases h2 : Z i ≤ b
    · rw [if_pos (by omega), if_neg (by omega), if_pos (by omega)]; omega
    · by_cases h3 : Z i = b + 1
      · rw [if_neg (by omega), if_pos (by omega), if_pos (by omega)]; omega
      · rw [if_neg (by omega), if_neg (by omega), if_neg (by omega)]; rfl
  · rw [if_neg (by omega), if_neg (by omega), if_neg (by omega)]; rfl

theorem Ar_succ (r g b : Nat) : Ar X Y Z w n r g b + Li X Y Z w n r (g + 1) b = Ar X Y Z w n r (g + 1) b := by
  refine sum_add (fun i _ => ?_)
  by_cases h1 : X i = r ∧ Z i ≤ b
  · by_cases h2 : Y i ≤ g
    · rw [if_pos (by omega), if_neg (by omega), if_pos (by omega)]; omega
    · by_cases h3 : Y i = g + 1
      · rw [if_neg (by omega), if_pos (by omega), if_pos (by omega)]; omega
      · rw [if_neg (by omega), if_neg (by omega), if_neg (by omega)]; rfl
  · rw [if_neg (by omega), if_neg (by omega), if_neg (by omega)]; rfl

theorem P_succ (r g b : Nat) : P X Y Z w n r g b + Ar X Y Z w n (r + 1) g b = P X Y Z w n (r + 1) g b := by
  refine sum_add (fun i _ => ?_)
  by_cases h1 : Y i ≤ g ∧ Z i ≤ b
  · by_cases h2 : X i ≤ r
    · rw [if_pos (by omega), if_neg (by omega), if_pos (by omega)]; omega
    · by_cases h3 : X i = r + 1
      · rw [if_neg (by omega), if_pos (by omega), if_pos (by omega)]; omega
      · rw [if_neg (by omega), if_neg (by omega), if_neg (by omega)]; rfl
  · rw [if_neg (by omega), if_neg (by omega), if_neg (by omega)]; rfl

/-- The sum over the box from the sums up to its corners. -/
theorem V_eq (c : Box) (hr : c.r0 ≤ c.r1) (hg : c.g0 ≤ c.g1) (hb : c.b0 ≤ c.b1) :
    P X Y Z w n c.r1 c.g1 c.b1 - P X Y Z w n c.r1 c.g1 c.b0 - P X Y Z w n c.r1 c.g0 c.b1 + P X Y Z w n c.r1 c.g0 c.b0 - P X Y Z w n c.r0 c.g1 c.b1 + P X Y Z w n c.r0 c.g1 c.b0
      + P X Y Z w n c.r0 c.g0 c.b1 - P X Y Z w n c.r0 c.g0 c.b0 = V X Y Z w n c := by
  unfold P V
  induction n with
  | zero => rfl
  | succ n ih =>
    unfold sumTo
    have : (if X n ≤ c.r1 ∧ Y n ≤ c.g1 ∧ Z n ≤ c.b1 then w n else 0) - (if X n ≤ c.r1 ∧ Y n ≤ c.g1 ∧ Z n ≤ c.b0 then w n else 0) - (if X n ≤ c.r1 ∧ Y n ≤ c.g0 ∧ Z n ≤ c.b1 then w n else 0)
      + (if X n ≤ c.r1 ∧ Y n ≤ c.g0 ∧ Z n ≤ c.b0 then w n else 0) - (if X n ≤ c.r0 ∧ Y n ≤ c.g1 ∧ Z n ≤ c.b1 then w n else 0) + (if X n ≤ c.r0 ∧ Y n ≤ c.g1 ∧ Z n ≤ c.b0 then w n else 0)
      + (if X n ≤ c.r0 ∧ Y n ≤ c.g0 ∧ Z n ≤ c.b1 then w n else 0) - (if X n ≤ c.r0 ∧ Y n ≤ c.g0 ∧ Z n ≤ c.b0 then w n else 0) = (if In c (X n) (Y n) (Z n) then w n else 0) := by
      unfold In
      clear ih
      rcases (by omega : X n ≤ c.r0 ∧ X n ≤ c.r1 ∧ ¬ c.r0 < X n ∨ ¬ X n ≤ c.r0 ∧ X n ≤ c.r1 ∧ c.r0 < X n ∨ ¬ X n ≤ c.r0 ∧ ¬ X n ≤ c.r1 ∧ c.r0 < X n) with ⟨a1, a2, a3⟩ | ⟨a1, a2, a3⟩ | ⟨a1, a2, a3⟩ <;>
      rcases (by omega : Y n ≤ c.g0 ∧ Y n ≤ c.g1 ∧ ¬ c.g0 < Y n ∨ ¬ Y n ≤ c.g0 ∧ Y n ≤ c.g1 ∧ c.g0 < Y n ∨ ¬ Y n ≤ c.g0 ∧ ¬ Y n ≤ c.g1 ∧ c.g0 < Y n) with ⟨b1, b2, b3⟩ | ⟨b1, b2, b3⟩ | ⟨b1, b2, b3⟩ <;>
      rcases (by omega : Z n ≤ c.b0 ∧ Z n ≤ c.b1 ∧ ¬ c.b0 < Z n ∨ ¬ Z n ≤ c.b0 ∧ Z n ≤ c.b1 ∧ c.b0 < Z n ∨ ¬ Z n ≤ c.b0 ∧ ¬ Z n ≤ c.b1 ∧ c.b0 < Z n) with ⟨d1, d2, d3⟩ | ⟨d1, d2, d3⟩ | ⟨d1, d2, d3⟩ <;>
      simp only [a1, a2, a3, b1, b2, b3, d1, d2, d3, true_and, and_true, false_and, and_false, if_true, if_false] <;> omega
    have key : ∀ a b c d e f g h i a' b' c' d' e' f' g' h' i' : Int, a - b - c + d - e + f + g - h = i → a' - b' - c' + d' - e' + f' + g' - h' = i' →
        (a + a') - (b + b') - (c + c') + (d + d') - (e + e') + (f + f') + (g + g') - (h + h') = i + i' := by intros; omega
    exact key _ _ _ _ _ _ _ _ _ _ _ _ _ _ _ _ _ _ ih this

variable (hX : ∀ i, i < n → 1 ≤ X i) (hY : ∀ i, i < n → 1 ≤ Y i) (hZ : ∀ i, i < n → 1 ≤ Z i) (hw : ∀ i, i < n → 0 ≤ w i)

include hw in
theorem ite_bounds (p : Nat → Prop) [DecidablePred p] : 0 ≤ sumTo n (fun i => if p i then w i else 0) ∧ sumTo n (fun i => if p i then w i else 0) ≤ sumTo n w := by
  refine ⟨sum_nonneg (fun i hi => ?_), sum_le (fun i hi => ?_)⟩
  · split
    · exact hw i hi
    · exact Int.le_refl _
  · split
    · exact Int.le_refl _
    · exact hw i hi

theorem none_sum (p : Nat → Prop) [DecidablePred p] (h : ∀ i, i < n → ¬ p i) : sumTo n (fun i => if p i then w i else 0) = 0 := by
  rw [sum_congr (g := fun _ => 0) (fun i hi => if_neg (h i hi)), sum_zero]

/-- What the array holds when the loops stand at `r`, `g` and `b`. -/
def T (X Y Z : Nat → Nat) (w : Nat → Int) (n r g j r' g' b' : Nat) : Int :=
  if r' < r ∨ r' = r ∧ (g' < g ∨ g' = g ∧ b' ≤ j) then P X Y Z w n r' g' b' else H X Y Z w n r' g' b'

/-- What `area` holds. -/
def IsArea (X Y Z : Nat → Nat) (w : Nat → Int) (n r g j : Nat) (a : List Int) : Prop :=
  a.length = 33 ∧ ∀ x, x ≤ 32 → a[x]? = some (if x ≤ j then Ar X Y Z w n r g x else Ar X Y Z w n r (g - 1) x)

include hX hY hZ hw in
theorem m3dB_spec (ht : sumTo n w ≤ 2147483647) {r g j : Nat} (hr0 : 1 ≤ r) (hr : r ≤ 32) (hg0 : 1 ≤ g) (hg : g ≤ 32) (hj : j < 32) {t : List Int × List Int × Int}
    (h1 : IsArr t.1 (T X Y Z w n r g j)) (h2 : IsArea X Y Z w n r g j t.2.1) (h3 : t.2.2 = Li X Y Z w n r g j) :
    ∃ t', m3dB r g j t = .ok t' ∧ IsArr t'.1 (T X Y Z w n r g (j + 1)) ∧ IsArea X Y Z w n r g (j + 1) t'.2.1 ∧ t'.2.2 = Li X Y Z w n r g (j + 1) := by
  obtain ⟨m, area, line⟩ := t
  simp only [] at h1 h2 h3
  subst h3
  have e1 : T X Y Z w n r g j r g (j + 1) = H X Y Z w n r g (j + 1) := by unfold T; rw [if_neg (by omega)]
  have e2 : T X Y Z w n r g j (r - 1) g (j + 1) = P X Y Z w n (r - 1) g (j + 1) := by unfold T; rw [if_pos (by omega)]
  have hc : cell r g (j + 1) - 1089 = cell (r - 1) g (j + 1) := by unfold cell; omega
  have s1 := Li_succ (X := X) (Y := Y) (Z := Z) (w := w) (n := n) r g j
  have s2 := Ar_succ (X := X) (Y := Y) (Z := Z) (w := w) (n := n) r (g - 1) (j + 1)
  have s3 := P_succ (X := X) (Y := Y) (Z := Z) (w := w) (n := n) (r - 1) g (j + 1)
  rw [show g - 1 + 1 = g by omega] at s2
  rw [show r - 1 + 1 = r by omega] at s3
  have b1 : 0 ≤ Li X Y Z w n r g (j + 1) ∧ Li X Y Z w n r g (j + 1) ≤ sumTo n w := ite_bounds hw _
  have b2 : 0 ≤ Ar X Y Z w n r g (j + 1) ∧ Ar X Y Z w n r g (j + 1) ≤ sumTo n w := ite_bounds hw _
  have b3 : 0 ≤ P X Y Z w n r g (j + 1) ∧ P X Y Z w n r g (j + 1) ≤ sumTo n w := ite_bounds hw _
  have ha := h2.2 (j + 1) (by omega)
  rw [if_neg (by omega)] at ha
  obtain ⟨m', em, hm'⟩ := h1.wr (f' := T X Y Z w n r g (j + 1)) hr hg (by omega : j + 1 ≤ 32) (v := P X Y Z w n r g (j + 1)) (by unfold T; rw [if_pos (by omega)]) (fun r' g' b' _ _ _ hne => by
    unfold T
    by_cases c : r' < r ∨ r' = r ∧ (g' < g ∨ g' = g ∧ b' ≤ j)
    · rw [if_pos c, if_pos (by omega)]
    · rw [if_neg c, if_neg (by omega)])
  unfold m3dB
  simp only []
  rw [h1.rd hr hg (by omega), bind_ok, e1, addI_ok (by omega) (by omega), bind_ok, rd_of_some ha, bind_ok, s1, addI_ok (by omega) (by omega), bind_ok, s2, wr_of_lt (by rw [h2.1]; omega), bind_ok,
    hc, h1.rd (by omega) hg (by omega), bind_ok, e2, addI_ok (by omega) (by omega), bind_ok, s3, em, bind_ok]
  refine ⟨_, rfl, hm', ⟨by rw [List.length_set]; exact h2.1, fun x hx => ?_⟩, rfl⟩
  by_cases c : x = j + 1
  · subst c
    rw [List.getElem?_set_self (by rw [h2.1]; omega), if_pos (Nat.le_refl _)]
  · rw [List.getElem?_set_ne (Ne.symm c), h2.2 x hx]
    by_cases c2 : x ≤ j
    · rw [if_pos c2, if_pos (by omega)]
    · rw [if_neg c2, if_neg (by omega)]

include hX hY hZ hw in
theorem M3d_spec (ht : sumTo n w ≤ 2147483647) {m : List Int} (hm : IsArr m (H X Y Z w n)) : ∃ m', M3d m = .ok m' ∧ IsArr m' (P X Y Z w n) := by
  have zP : ∀ r g b, r = 0 ∨ g = 0 ∨ b = 0 → P X Y Z w n r g b = 0 := fun r g b h => none_sum _ (fun i hi => by have := hX i hi; have := hY i hi; have := hZ i hi; omega)
  have zH : ∀ r g b, r = 0 ∨ g = 0 ∨ b = 0 → H X Y Z w n r g b = 0 := fun r g b h => none_sum _ (fun i hi => by have := hX i hi; have := hY i hi; have := hZ i hi; omega)
  have zA : ∀ r g b, g = 0 ∨ b = 0 → Ar X Y Z w n r g b = 0 := fun r g b h => none_sum _ (fun i hi => by have := hX i hi; have := hY i hi; have := hZ i hi; omega)
  have zL : ∀ r g, Li X Y Z w n r g 0 = 0 := fun r g => none_sum _ (fun i hi => by have := hX i hi; have := hY i hi; have := hZ i hi; omega)
  have hT : ∀ {r g j r2 g2 j2 : Nat}, (∀ r' g' b', r' ≤ 32 → g' ≤ 32 → b' ≤ 32 → 1 ≤ r' → 1 ≤ g' → 1 ≤ b' →
      ((r' < r ∨ r' = r ∧ (g' < g ∨ g' = g ∧ b' ≤ j)) ↔ (r' < r2 ∨ r' = r2 ∧ (g' < g2 ∨ g' = g2 ∧ b' ≤ j2)))) → ∀ {m : List Int}, IsArr m (T X Y Z w n r g j) → IsArr m (T X Y Z w n r2 g2 j2) := by
    intro r g j r2 g2 j2 h m hm
    refine hm.congr (fun r' g' b' hr hg hb => ?_)
    by_cases c : r' = 0 ∨ g' = 0 ∨ b' = 0
    · unfold T
      rw [zP r' g' b' c, zH r' g' b' c]
      split <;> split <;> rfl
    · have := h r' g' b' hr hg hb (by omega) (by omega) (by omega)
      unfold T
      by_cases c2 : r' < r ∨ r' = r ∧ (g' < g ∨ g' = g ∧ b' ≤ j)
      · rw [if_pos c2, if_pos (this.mp c2)]
      · rw [if_neg c2, if_neg (fun x => c2 (this.mpr x))]
  unfold M3d
  have h0 : IsArr m (T X Y Z w n (0 + 1) 1 0) := by
    refine hm.congr (fun r' g' b' hr hg hb => ?_)
    unfold T
    split
    · by_cases c : r' = 0 ∨ g' = 0 ∨ b' = 0
      · rw [zP r' g' b' c, zH r' g' b' c]
      · omega
    · rfl
  have hs : ∀ k m, k < 32 → IsArr m (T X Y Z w n (k + 1) 1 0) → ∃ m', (do
      let (m, _) ← loopN 32 (m3dG (k + 1)) (m, List.replicate 33 0)
      pure m : C (List Int)) = .ok m' ∧ IsArr m' (T X Y Z w n (k + 1 + 1) 1 0) := by
    intro k m hk hm
    have ha : IsArea X Y Z w n (k + 1) (0 + 1) 0 (List.replicate 33 0) := ⟨List.length_replicate, fun x hx => by
      rw [List.getElem?_replicate, if_pos (by omega), show 0 + 1 - 1 = 0 from rfl, zA _ 0 _ (.inl rfl)]
      split
      · rw [zA _ _ x (.inr (by omega))]
      · rfl⟩
    have hj : ∀ j (t : List Int × List Int), j < 32 → (IsArr t.1 (T X Y Z w n (k + 1) (j + 1) 0) ∧ IsArea X Y Z w n (k + 1) (j + 1) 0 t.2) →
        ∃ t', m3dG (k + 1) j t = .ok t' ∧ (IsArr t'.1 (T X Y Z w n (k + 1) (j + 1 + 1) 0) ∧ IsArea X Y Z w n (k + 1) (j + 1 + 1) 0 t'.2) := by
      intro j t hj ht'
      obtain ⟨⟨m2, a2, l2⟩, e2, h2, h3, -⟩ := loopN_inv (f := m3dB (k + 1) (j + 1)) (fun b (t : List Int × List Int × Int) =>
        IsArr t.1 (T X Y Z w n (k + 1) (j + 1) b) ∧ IsArea X Y Z w n (k + 1) (j + 1) b t.2.1 ∧ t.2.2 = Li X Y Z w n (k + 1) (j + 1) b) (n := 32)
        (s := (t.1, t.2, 0)) ⟨ht'.1, ht'.2, (zL _ _).symm⟩ (fun b t hb hI => m3dB_spec hX hY hZ hw ht (by omega) (by omega) (by omega) (by omega) hb hI.1 hI.2.1 hI.2.2)
      refine ⟨(m2, a2), ?_, hT (fun r' g' b' _ _ _ _ _ _ => by omega) h2, h3.1, fun x hx => ?_⟩
      · unfold m3dG
        rw [e2, bind_ok]
        rfl
      · show a2[x]? = _
        rw [h3.2 x hx, if_pos (by omega), show j + 1 + 1 - 1 = j + 1 from rfl]
        split
        · rw [zA _ _ x (.inr (by omega)), zA _ _ x (.inr (by omega))]
        · rfl
    obtain ⟨⟨m1, area⟩, e1, h1⟩ := loopN_inv (f := m3dG (k + 1)) (fun j (t : List Int × List Int) => IsArr t.1 (T X Y Z w n (k + 1) (j + 1) 0) ∧ IsArea X Y Z w n (k + 1) (j + 1) 0 t.2) (n := 32)
      (s := (m, List.replicate 33 0)) ⟨hm, ha⟩ hj
    refine ⟨m1, ?_, hT (fun r' g' b' _ _ _ _ _ _ => by omega) h1.1⟩
    rw [e1, bind_ok]
    rfl
  obtain ⟨m', e, h⟩ := loopN_inv (fun k m => IsArr m (T X Y Z w n (k + 1) 1 0)) h0 hs
  refine ⟨m', e, h.congr (fun r g b hr hg hb => ?_)⟩
  unfold T
  rw [if_pos (by omega)]

/-- A box within the cube. -/
def Ok (c : Box) : Prop := (c.r0 < c.r1 ∧ c.r1 ≤ 32) ∧ (c.g0 < c.g1 ∧ c.g1 ≤ 32) ∧ c.b0 < c.b1 ∧ c.b1 ≤ 32

theorem Vol_spec {m : List Int} (hm : IsArr m (P X Y Z w n)) {c : Box} (h : Ok c) : Vol c m = .ok (V X Y Z w n c) := by
  obtain ⟨⟨a1, a2⟩, ⟨a3, a4⟩, a5, a6⟩ := h
  unfold Vol
  rw [hm.rd a2 a4 a6, bind_ok, hm.rd a2 a4 (by omega), bind_ok, hm.rd a2 (by omega) a6, bind_ok, hm.rd a2 (by omega) (by omega), bind_ok, hm.rd (by omega) a4 a6, bind_ok,
    hm.rd (by omega) a4 (by omega), bind_ok, hm.rd (by omega) (by omega) a6, bind_ok, hm.rd (by omega) (by omega) (by omega), bind_ok, V_eq c (by omega) (by omega) (by omega), pure_eq_ok]

end
end DevIL.Wu
