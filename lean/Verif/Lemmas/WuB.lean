import Verif.Lemmas.Wu
/-! More lemmas about Wu's quantizer: the histogram, the boxes and the entries of the palette. -/
set_option autoImplicit false
namespace DevIL.Wu
open DevIL.WuSpec

/-! ### The histogram -/

/-- The place of a pixel. -/
def pl (data : List UInt8) (c i : Nat) : Nat := (data.getD (3 * i + c) 0).toNat / 8 + 1

theorem pl_pos (data : List UInt8) (c i : Nat) : 1 ≤ pl data c i := by unfold pl; omega
theorem pl_le (data : List UInt8) (c i : Nat) : pl data c i ≤ 32 := by
  unfold pl; have := (data.getD (3 * i + c) 0).toNat_lt; omega

theorem comp_bounds (data : List UInt8) (c i : Nat) : 0 ≤ comp data c i ∧ comp data c i ≤ 255 := by
  unfold comp; have := (data.getD (3 * i + c) 0).toNat_lt; omega

theorem get_data {data : List UInt8} {p : Nat} (h : p < data.length) : rd data p = .ok (data.getD p 0) := by
  rw [rd_of_lt h]; congr 1; simp [h]

section
variable {X Y Z : Nat → Nat} {w : Nat → Int} {n : Nat}

theorem sum_succ (k : Nat) (f : Nat → Int) : sumTo (k + 1) f = sumTo k f + f k := rfl

theorem bump_spec {a : List Int} {k : Nat} (hk : k < n) (ha : IsArr a (H X Y Z w k)) (hX : X k ≤ 32) (hY : Y k ≤ 32) (hZ : Z k ≤ 32) (hw : ∀ i, i < n → 0 ≤ w i) (ht : sumTo n w ≤ 2147483647) :
    ∃ a', bump a (cell (X k) (Y k) (Z k)) (w k) = .ok a' ∧ IsArr a' (H X Y Z w (k + 1)) := by
  have e : H X Y Z w (k + 1) (X k) (Y k) (Z k) = H X Y Z w k (X k) (Y k) (Z k) + w k := by
    unfold H
    rw [sum_succ, if_pos ⟨rfl, rfl, rfl⟩]
  have b : 0 ≤ H X Y Z w (k + 1) (X k) (Y k) (Z k) ∧ H X Y Z w (k + 1) (X k) (Y k) (Z k) ≤ sumTo (k + 1) w := ite_bounds (fun i hi => hw i (by omega)) _
  have m := sum_mono (n := k + 1) (m := n) (f := w) (by omega) hw
  obtain ⟨a', e1, h1⟩ := ha.wr (f' := H X Y Z w (k + 1)) hX hY hZ e (fun r g b _ _ _ hne => by
    unfold H
    rw [sum_succ, if_neg (fun h => hne ⟨h.1.symm, h.2.1.symm, h.2.2.symm⟩), Int.add_zero])
  refine ⟨a', ?_, h1⟩
  unfold bump
  rw [ha.rd hX hY hZ, bind_ok, addI_ok (by omega) (by omega), bind_ok, e1]

end

theorem zeros_arr (X Y Z : Nat → Nat) (w : Nat → Int) : IsArr zeros (H X Y Z w 0) := by
  refine ⟨List.length_replicate, fun r g b hr hg hb => ?_⟩
  unfold zeros
  rw [List.getElem?_replicate, if_pos (cell_lt hr hg hb)]
  rfl

/-- The sums after `k` pixels. -/
structure Hist (data : List UInt8) (k : Nat) (f : (Nat → Int) → Nat → Nat → Nat → Int) (s : Stats) : Prop where
  wt : IsArr s.wt (f (fun _ => 1))
  mr : IsArr s.mr (f (comp data 0))
  mg : IsArr s.mg (f (comp data 1))
  mb : IsArr s.mb (f (comp data 2))

theorem total_one {n : Nat} (h : 255 * n ≤ 2147483647) : sumTo n (fun _ => 1) ≤ 2147483647 := by rw [sum_const]; omega

theorem total_comp (data : List UInt8) (c : Nat) {n : Nat} (h : 255 * n ≤ 2147483647) : sumTo n (comp data c) ≤ 2147483647 := by
  have := sum_le (n := n) (f := comp data c) (g := fun _ => 255) (fun i _ => (comp_bounds data c i).2)
  rw [sum_const] at this
  omega

theorem Hist_loop {data : List UInt8} {n m : Nat} (hd : data.length = 3 * m) (hnm : n ≤ m) (hn : 255 * n ≤ 2147483647) :
    ∃ t, loopN n (histStep data) (⟨zeros, zeros, zeros, zeros⟩, List.replicate m 0) = .ok t ∧ Hist data n (fun w => H (pl data 0) (pl data 1) (pl data 2) w n) t.1 ∧ t.2.length = m ∧
      ∀ i, i < n → t.2[i]? = some (cell (pl data 0 i) (pl data 1 i) (pl data 2 i)) := by
  refine loopN_inv (fun k (t : Stats × List Nat) => Hist data k (fun w => H (pl data 0) (pl data 1) (pl data 2) w k) t.1 ∧ t.2.length = m ∧
      ∀ i, i < k → t.2[i]? = some (cell (pl data 0 i) (pl data 1 i) (pl data 2 i))) ⟨⟨zeros_arr _ _ _ _, zeros_arr _ _ _ _, zeros_arr _ _ _ _, zeros_arr _ _ _ _⟩, List.length_replicate,
      fun i hi => absurd hi (by omega)⟩ (fun k t hk hI => ?_)
  obtain ⟨⟨h1, h2, h3, h4⟩, h5, h6⟩ := hI
  obtain ⟨a1, e1, i1⟩ := bump_spec (n := n) hk h1 (pl_le data 0 k) (pl_le data 1 k) (pl_le data 2 k) (fun _ _ => by decide) (total_one hn)
  obtain ⟨a2, e2, i2⟩ := bump_spec (n := n) hk h2 (pl_le data 0 k) (pl_le data 1 k) (pl_le data 2 k) (fun i _ => (comp_bounds data 0 i).1) (total_comp data 0 hn)
  obtain ⟨a3, e3, i3⟩ := bump_spec (n := n) hk h3 (pl_le data 0 k) (pl_le data 1 k) (pl_le data 2 k) (fun i _ => (comp_bounds data 1 i).1) (total_comp data 1 hn)
  obtain ⟨a4, e4, i4⟩ := bump_spec (n := n) hk h4 (pl_le data 0 k) (pl_le data 1 k) (pl_le data 2 k) (fun i _ => (comp_bounds data 2 i).1) (total_comp data 2 hn)
  have e : histStep data k t = .ok (⟨a1, a2, a3, a4⟩, t.2.set k (cell (pl data 0 k) (pl data 1 k) (pl data 2 k))) := by
    unfold histStep
    rw [get_data (by omega), bind_ok, get_data (by omega), bind_ok, get_data (by omega), bind_ok]
    simp only []
    rw [wr_of_lt (by omega), bind_ok]
    have x0 : (data.getD (3 * k) 0).toNat / 8 + 1 = pl data 0 k := rfl
    have x1 : (data.getD (3 * k + 1) 0).toNat / 8 + 1 = pl data 1 k := rfl
    have x2 : (data.getD (3 * k + 2) 0).toNat / 8 + 1 = pl data 2 k := rfl
    have y0 : ((data.getD (3 * k) 0).toNat : Int) = comp data 0 k := rfl
    have y1 : ((data.getD (3 * k + 1) 0).toNat : Int) = comp data 1 k := rfl
    have y2 : ((data.getD (3 * k + 2) 0).toNat : Int) = comp data 2 k := rfl
    rw [x0, x1, x2, y0, y1, y2, e1, bind_ok, e2, bind_ok, e3, bind_ok, e4, bind_ok, pure_eq_ok]
  refine ⟨_, e, ⟨i1, i2, i3, i4⟩, (List.length_set ..).trans h5, fun i hi => ?_⟩
  simp only []
  by_cases c : i = k
  · subst c
    rw [List.getElem?_set_self (by omega)]
  · rw [List.getElem?_set_ne (Ne.symm c)]
    exact h6 i (by omega)

theorem Hist3d_spec {data : List UInt8} {n : Nat} (hd : data.length = 3 * n) (hn : 255 * n ≤ 2147483647) :
    ∃ t, Hist3d data n = .ok t ∧ Hist data n (fun w => H (pl data 0) (pl data 1) (pl data 2) w n) t.1 ∧ t.2.length = n ∧
      ∀ i, i < n → t.2[i]? = some (cell (pl data 0 i) (pl data 1 i) (pl data 2 i)) := Hist_loop hd (Nat.le_refl _) hn

/-- More than 8421504 white pixels. -/
theorem Hist3d_white {n : Nat} (hn : 8421505 ≤ n) : Hist3d (List.replicate (3 * n) 255) n = .error .overflow := by
  have hd : (List.replicate (3 * n) (255 : UInt8)).length = 3 * n := List.length_replicate
  obtain ⟨t, e, ⟨h1, h2, -, -⟩, h5, -⟩ := Hist_loop hd (n := 8421504) (by omega) (by decide)
  have hv : ∀ i c, i < n → c < 3 → (List.replicate (3 * n) (255 : UInt8)).getD (3 * i + c) 0 = 255 := fun i c hi hc => by
    rw [List.getD_eq_getElem?_getD, List.getElem?_replicate, if_pos (by omega)]; rfl
  have hp : ∀ i c, i < n → c < 3 → pl (List.replicate (3 * n) 255) c i = 32 := fun i c hi hc => by unfold pl; rw [hv i c hi hc]; rfl
  have hc0 : ∀ i, i < n → comp (List.replicate (3 * n) 255) 0 i = 255 := fun i hi => by unfold comp; rw [hv i 0 hi (by decide)]; rfl
  generalize hdata : List.replicate (3 * n) (255 : UInt8) = data at *
  have b1 : rd t.1.wt (cell 32 32 32) = .ok _ := h1.rd (by decide) (by decide) (by decide)
  have b2 : rd t.1.mr (cell 32 32 32) = .ok _ := h2.rd (by decide) (by decide) (by decide)
  have s1 : H (pl data 0) (pl data 1) (pl data 2) (fun _ => 1) 8421504 32 32 32 = 8421504 := by
    unfold H
    rw [sum_congr (g := fun _ => 1), sum_const]
    · rfl
    · intro i hi; rw [if_pos ⟨hp i 0 (by omega) (by decide), hp i 1 (by omega) (by decide), hp i 2 (by omega) (by decide)⟩]
  have s2 : H (pl data 0) (pl data 1) (pl data 2) (comp data 0) 8421504 32 32 32 = 2147483520 := by
    unfold H
    rw [sum_congr (g := fun _ => 255), sum_const]
    · rfl
    · intro i hi; rw [if_pos ⟨hp i 0 (by omega) (by decide), hp i 1 (by omega) (by decide), hp i 2 (by omega) (by decide)⟩]; exact hc0 i (by omega)
  rw [s1] at b1
  rw [s2] at b2
  have l1 : cell 32 32 32 < t.1.wt.length := by rw [h1.1]; decide
  unfold Hist3d
  refine loopN_error (k := 8421504) (by omega) e ?_
  unfold histStep
  have hv' := hv 8421504
  rw [get_data (by omega), bind_ok, get_data (by omega), bind_ok, get_data (by omega), bind_ok, show data.getD (3 * 8421504) 0 = 255 from hv' 0 (by omega) (by decide), hv' 1 (by omega) (by decide),
    hv' 2 (by omega) (by decide)]
  simp only []
  rw [wr_of_lt (by omega), bind_ok]
  have hcell : cell ((255 : UInt8).toNat / 8 + 1) ((255 : UInt8).toNat / 8 + 1) ((255 : UInt8).toNat / 8 + 1) = cell 32 32 32 := rfl
  rw [hcell]
  unfold bump
  rw [b1, bind_ok, addI, if_pos (by decide), bind_ok, wr_of_lt l1, bind_ok, b2, bind_ok,
    show addI 2147483520 ((255 : UInt8).toNat : Int) = .error .overflow from by rw [addI, if_neg (by decide)], bind_error, bind_error]

/-! ### Cutting -/

/-- The arrays have their size. -/
def Full (s : Stats) : Prop := s.wt.length = 35937 ∧ s.mr.length = 35937 ∧ s.mg.length = 35937 ∧ s.mb.length = 35937

theorem rd_any {m : List Int} (h : m.length = 35937) {r g b : Nat} (hr : r ≤ 32) (hg : g ≤ 32) (hb : b ≤ 32) : ∃ x, rd m (cell r g b) = .ok x :=
  ⟨_, rd_of_lt (by rw [h]; exact cell_lt hr hg hb)⟩

theorem four_ok {f : List Int → C Int} {s : Stats} (hs : Full s) (h : ∀ m : List Int, m.length = 35937 → ∃ x, f m = .ok x) : ∃ q, four f s = .ok q := by
  obtain ⟨h1, h2, h3, h4⟩ := hs
  obtain ⟨x1, e1⟩ := h _ h1
  obtain ⟨x2, e2⟩ := h _ h2
  obtain ⟨x3, e3⟩ := h _ h3
  obtain ⟨x4, e4⟩ := h _ h4
  refine ⟨⟨x2, x3, x4, x1⟩, ?_⟩
  unfold four
  rw [e2, bind_ok, e3, bind_ok, e4, bind_ok, e1, bind_ok, pure_eq_ok]

theorem Bottom_ok {c : Box} (hc : Ok c) (d : Dir) {m : List Int} (h : m.length = 35937) : ∃ x, Bottom c d m = .ok x := by
  obtain ⟨⟨a1, a2⟩, ⟨a3, a4⟩, a5, a6⟩ := hc
  have key : ∀ {r g b r' g' b' r2 g2 b2 r3 g3 b3 : Nat}, r ≤ 32 → g ≤ 32 → b ≤ 32 → r' ≤ 32 → g' ≤ 32 → b' ≤ 32 → r2 ≤ 32 → g2 ≤ 32 → b2 ≤ 32 → r3 ≤ 32 → g3 ≤ 32 → b3 ≤ 32 → ∃ x, (do
      let x1 ← rd m (cell r g b)
      let x2 ← rd m (cell r' g' b')
      let x3 ← rd m (cell r2 g2 b2)
      let x4 ← rd m (cell r3 g3 b3)
      pure (-x1 + x2 + x3 - x4) : C Int) = .ok x := by
    intro r g b r' g' b' r2 g2 b2 r3 g3 b3 h1 h2 h3 h4 h5 h6 h7 h8 h9 h10 h11 h12
    obtain ⟨x1, e1⟩ := rd_any h h1 h2 h3
    obtain ⟨x2, e2⟩ := rd_any h h4 h5 h6
    obtain ⟨x3, e3⟩ := rd_any h h7 h8 h9
    obtain ⟨x4, e4⟩ := rd_any h h10 h11 h12
    rw [e1, bind_ok, e2, bind_ok, e3, bind_ok, e4, bind_ok]
    exact ⟨_, rfl⟩
  cases d <;> exact key (by omega) (by omega) (by omega) (by omega) (by omega) (by omega) (by omega) (by omega) (by omega) (by omega) (by omega) (by omega)

theorem Top_ok {c : Box} (hc : Ok c) (d : Dir) {pos : Nat} (hp : pos ≤ 32) {m : List Int} (h : m.length = 35937) : ∃ x, Top c d pos m = .ok x := by
  obtain ⟨⟨a1, a2⟩, ⟨a3, a4⟩, a5, a6⟩ := hc
  have key : ∀ {r g b r' g' b' r2 g2 b2 r3 g3 b3 : Nat}, r ≤ 32 → g ≤ 32 → b ≤ 32 → r' ≤ 32 → g' ≤ 32 → b' ≤ 32 → r2 ≤ 32 → g2 ≤ 32 → b2 ≤ 32 → r3 ≤ 32 → g3 ≤ 32 → b3 ≤ 32 → ∃ x, (do
      let x1 ← rd m (cell r g b)
      let x2 ← rd m (cell r' g' b')
      let x3 ← rd m (cell r2 g2 b2)
      let x4 ← rd m (cell r3 g3 b3)
      pure (x1 - x2 - x3 + x4) : C Int) = .ok x := by
    intro r g b r' g' b' r2 g2 b2 r3 g3 b3 h1 h2 h3 h4 h5 h6 h7 h8 h9 h10 h11 h12
    obtain ⟨x1, e1⟩ := rd_any h h1 h2 h3
    obtain ⟨x2, e2⟩ := rd_any h h4 h5 h6
    obtain ⟨x3, e3⟩ := rd_any h h7 h8 h9
    obtain ⟨x4, e4⟩ := rd_any h h10 h11 h12
    rw [e1, bind_ok, e2, bind_ok, e3, bind_ok, e4, bind_ok]
    exact ⟨_, rfl⟩
  cases d <;> exact key (by omega) (by omega) (by omega) (by omega) (by omega) (by omega) (by omega) (by omega) (by omega) (by omega) (by omega) (by omega)

theorem Vol_ok {c : Box} (hc : Ok c) {m : List Int} (h : m.length = 35937) : ∃ x, Vol c m = .ok x := by
  obtain ⟨⟨a1, a2⟩, ⟨a3, a4⟩, a5, a6⟩ := hc
  obtain ⟨x1, e1⟩ := rd_any h a2 a4 a6
  obtain ⟨x2, e2⟩ := rd_any h a2 a4 (by omega : c.b0 ≤ 32)
  obtain ⟨x3, e3⟩ := rd_any h a2 (by omega : c.g0 ≤ 32) a6
  obtain ⟨x4, e4⟩ := rd_any h a2 (by omega : c.g0 ≤ 32) (by omega : c.b0 ≤ 32)
  obtain ⟨x5, e5⟩ := rd_any h (by omega : c.r0 ≤ 32) a4 a6
  obtain ⟨x6, e6⟩ := rd_any h (by omega : c.r0 ≤ 32) a4 (by omega : c.b0 ≤ 32)
  obtain ⟨x7, e7⟩ := rd_any h (by omega : c.r0 ≤ 32) (by omega : c.g0 ≤ 32) a6
  obtain ⟨x8, e8⟩ := rd_any h (by omega : c.r0 ≤ 32) (by omega : c.g0 ≤ 32) (by omega : c.b0 ≤ 32)
  unfold Vol
  rw [e1, bind_ok, e2, bind_ok, e3, bind_ok, e4, bind_ok, e5, bind_ok, e6, bind_ok, e7, bind_ok, e8, bind_ok]
  exact ⟨_, rfl⟩

section
variable {F : Type} [LinearOrder F] {fl : Fl F}

theorem Maximize_spec {s : Stats} (hs : Full s) {c : Box} (hc : Ok c) (d : Dir) {first last : Nat} (hl : last ≤ 32) (whole : Q) :
    ∃ t, Maximize fl s c d first last whole = .ok t ∧ fl.zero ≤ t.1 ∧ (t.2 = none → t.1 = fl.zero) ∧ ∀ k, t.2 = some k → first ≤ k ∧ k < last := by
  obtain ⟨base, eb⟩ := four_ok (f := Bottom c d) hs (fun m h => Bottom_ok hc d h)
  unfold Maximize
  rw [eb, bind_ok]
  refine loopN_inv (fun _ (t : F × Option Nat) => fl.zero ≤ t.1 ∧ (t.2 = none → t.1 = fl.zero) ∧ ∀ k, t.2 = some k → first ≤ k ∧ k < last)
    ⟨le_refl _, fun _ => rfl, fun k h => by cases h⟩ (fun j t hj hI => ?_)
  obtain ⟨top, et⟩ := four_ok (f := Top c d (first + j)) hs (fun m h => Top_ok hc d (by omega) h)
  unfold maxStep
  simp only []
  rw [et, bind_ok]
  split
  · exact ⟨t, rfl, hI⟩
  · split
    · exact ⟨t, rfl, hI⟩
    · refine ⟨_, rfl, ?_⟩
      split
      · rename_i h
        exact ⟨le_of_lt (lt_of_le_of_lt hI.1 h), fun h => (by cases h), fun k h => (by cases h; omega)⟩
      · exact hI

/-- A box is cut into two. -/
def Halves (c a b : Box) : Prop := Ok a ∧ Ok b ∧ ∀ x y z, (In c x y z ↔ In a x y z ∨ In b x y z) ∧ ¬ (In a x y z ∧ In b x y z)

theorem Cut_spec {s : Stats} (hs : Full s) {c : Box} (hc : Ok c) : ∃ r, Cut fl s c = .ok r ∧ ∀ a b, r = some (a, b) → Halves c a b := by
  obtain ⟨whole, ew⟩ := four_ok (f := Vol c) hs (fun m h => Vol_ok hc h)
  have hc' := hc
  obtain ⟨⟨a1, a2⟩, ⟨a3, a4⟩, a5, a6⟩ := hc'
  obtain ⟨mr, er, r1, r2, r3⟩ := Maximize_spec (fl := fl) hs hc .red (first := c.r0 + 1) a2 whole
  obtain ⟨mg, eg, g1, g2, g3⟩ := Maximize_spec (fl := fl) hs hc .green (first := c.g0 + 1) a4 whole
  obtain ⟨mb, eb, b1, b2, b3⟩ := Maximize_spec (fl := fl) hs hc .blue (first := c.b0 + 1) a6 whole
  unfold Cut
  rw [ew, bind_ok, er, bind_ok, eg, bind_ok, eb, bind_ok]
  by_cases h1 : mg.1 ≤ mr.1 ∧ mb.1 ≤ mr.1
  · rw [if_pos h1]
    match hm : mr.2 with
    | none => exact ⟨none, rfl, fun a b h => by cases h⟩
    | some k =>
      have hk := r3 k hm
      refine ⟨_, rfl, fun a b h => ?_⟩
      cases h
      refine ⟨⟨⟨by simp only []; omega, by simp only []; omega⟩, ⟨a3, a4⟩, a5, a6⟩, ⟨⟨by simp only []; omega, by simp only []; omega⟩, ⟨a3, a4⟩, a5, a6⟩, fun x y z => ⟨?_, ?_⟩⟩ <;> unfold In <;> simp only [] <;> omega
  · rw [if_neg h1]
    by_cases h2 : mr.1 ≤ mg.1 ∧ mb.1 ≤ mg.1
    · rw [if_pos h2]
      match hm : mg.2 with
      | none =>
        have := g2 hm
        exact absurd ⟨by rw [this]; exact r1, le_trans h2.2 (by rw [this]; exact r1)⟩ h1
      | some k =>
        have hk := g3 k hm
        refine ⟨_, rfl, fun a b h => ?_⟩
        cases h
        refine ⟨⟨⟨a1, a2⟩, ⟨by simp only []; omega, by simp only []; omega⟩, a5, a6⟩, ⟨⟨a1, a2⟩, ⟨by simp only []; omega, by simp only []; omega⟩, a5, a6⟩, fun x y z => ⟨?_, ?_⟩⟩ <;> unfold In <;> simp only [] <;> omega
    · rw [if_neg h2]
      match hm : mb.2 with
      | none =>
        have := b2 hm
        have hb : mb.1 ≤ mr.1 := by rw [this]; exact r1
        have hb' : mb.1 ≤ mg.1 := by rw [this]; exact g1
        rcases le_total mg.1 mr.1 with h | h
        · exact absurd ⟨h, hb⟩ h1
        · exact absurd ⟨h, hb'⟩ h2
      | some k =>
        have hk := b3 k hm
        refine ⟨_, rfl, fun a b h => ?_⟩
        cases h
        refine ⟨⟨⟨a1, a2⟩, ⟨a3, a4⟩, by simp only []; omega, by simp only []; omega⟩, ⟨⟨a1, a2⟩, ⟨a3, a4⟩, by simp only []; omega, by simp only []; omega⟩, fun x y z => ⟨?_, ?_⟩⟩ <;> unfold In <;> simp only [] <;> omega

/-- Each cell is in exactly one of the boxes. -/
def Part (cubes : List Box) : Prop :=
  (∀ c ∈ cubes, Ok c) ∧ ∀ x y z, In box0 x y z → ∃ (k : Nat) (c : Box), cubes[k]? = some c ∧ In c x y z ∧ ∀ (k' : Nat) (c' : Box), cubes[k']? = some c' → In c' x y z → k' = k

theorem part_box0 : Part [box0] := by
  refine ⟨fun c hc => ?_, fun x y z h => ⟨0, box0, rfl, h, fun k' c' hk _ => ?_⟩⟩
  · rw [List.mem_singleton.mp hc]; exact ⟨⟨by decide, by decide⟩, ⟨by decide, by decide⟩, by decide, by decide⟩
  · match k', hk with
    | 0, _ => rfl
    | k + 1, hk => simp at hk

theorem part_cut {cubes : List Box} (h : Part cubes) {next : Nat} {c a b : Box} (hn : cubes[next]? = some c) (hh : Halves c a b) : Part (cubes.set next a ++ [b]) := by
  obtain ⟨h1, h2⟩ := h
  obtain ⟨oa, ob, hi⟩ := hh
  have hlt : next < cubes.length := (List.getElem?_eq_some_iff.mp hn).1
  have get : ∀ (k : Nat) (c' : Box), (cubes.set next a ++ [b])[k]? = some c' → (k = next ∧ c' = a) ∨ (k = cubes.length ∧ c' = b) ∨ (k ≠ next ∧ cubes[k]? = some c') := by
    intro k c' hk
    by_cases hkl : k < cubes.length
    · rw [List.getElem?_append_left (by rw [List.length_set]; exact hkl)] at hk
      by_cases e : k = next
      · subst e; rw [List.getElem?_set_self hkl] at hk; exact .inl ⟨rfl, by cases hk; rfl⟩
      · rw [List.getElem?_set_ne (Ne.symm e)] at hk; exact .inr (.inr ⟨e, hk⟩)
    · rw [List.getElem?_append_right (by rw [List.length_set]; omega), List.length_set] at hk
      by_cases e : k = cubes.length
      · subst e; rw [Nat.sub_self] at hk; exact .inr (.inl ⟨rfl, by cases hk; rfl⟩)
      · rw [List.getElem?_eq_none (by simp only [List.length_singleton]; omega)] at hk; cases hk
  refine ⟨fun c' hc' => ?_, fun x y z hx => ?_⟩
  · obtain ⟨k, hk⟩ := List.mem_iff_getElem?.mp hc'
    rcases get k c' hk with ⟨-, rfl⟩ | ⟨-, rfl⟩ | ⟨-, hk⟩
    · exact oa
    · exact ob
    · exact h1 c' (List.mem_of_getElem? hk)
  · obtain ⟨k, c', hk, hin, hu⟩ := h2 x y z hx
    by_cases e : k = next
    · subst e
      rw [hn] at hk
      cases hk
      rcases (hi x y z).1.mp hin with hia | hib
      · refine ⟨k, a, ?_, hia, fun k' c' hk' hin' => ?_⟩
        · rw [List.getElem?_append_left (by rw [List.length_set]; exact hlt), List.getElem?_set_self hlt]
        · rcases get k' c' hk' with ⟨h, -⟩ | ⟨-, rfl⟩ | ⟨hne, hk'⟩
          · exact h
          · exact absurd ⟨hia, hin'⟩ (hi x y z).2
          · exact absurd (hu k' c' hk' hin') hne
      · refine ⟨cubes.length, b, ?_, hib, fun k' c' hk' hin' => ?_⟩
        · rw [List.getElem?_append_right (by rw [List.length_set]; omega), List.length_set, Nat.sub_self]; rfl
        · rcases get k' c' hk' with ⟨-, rfl⟩ | ⟨h, -⟩ | ⟨hne, hk'⟩
          · exact absurd ⟨hin', hib⟩ (hi x y z).2
          · exact h
          · exact absurd (hu k' c' hk' hin') hne
    · have hkl : k < cubes.length := (List.getElem?_eq_some_iff.mp hk).1
      refine ⟨k, c', ?_, hin, fun k' c2 hk' hin' => ?_⟩
      · rw [List.getElem?_append_left (by rw [List.length_set]; exact hkl), List.getElem?_set_ne (Ne.symm e)]; exact hk
      · rcases get k' c2 hk' with ⟨rfl, rfl⟩ | ⟨-, rfl⟩ | ⟨-, hk'⟩
        · exact absurd (hu k' c hn ((hi x y z).1.mpr (.inl hin'))).symm e
        · exact absurd (hu next c hn ((hi x y z).1.mpr (.inr hin'))).symm e
        · exact hu k' c2 hk' hin'

theorem search_spec {vv : List F} (h : vv ≠ []) : vv[(search fl vv).2]? = some (search fl vv).1 := by
  unfold search
  generalize vv.length - 1 = m
  induction m with
  | zero =>
    match vv, h with
    | v :: vs, _ => rfl
  | succ m ih =>
    rw [List.range_succ, List.foldl_append]
    simp only [List.foldl_cons, List.foldl_nil]
    split
    · rename_i v hv
      split
      · exact hv
      · exact ih
    · exact ih

/-- The boxes that may be cut. -/
def pos (fl : Fl F) (vv : List F) : Nat := vv.countP (fun v => decide (fl.zero < v))

theorem pos_le (vv : List F) : pos fl vv ≤ vv.length := List.countP_le_length

theorem pos_set {vv : List F} {k : Nat} {v : F} (h : vv[k]? = some v) (hv : fl.zero < v) : pos fl (vv.set k fl.zero) + 1 = pos fl vv := by
  unfold pos
  induction vv generalizing k with
  | nil => simp at h
  | cons a vs ih =>
    match k with
    | 0 =>
      simp only [List.getElem?_cons_zero, Option.some.injEq] at h
      subst h
      rw [List.set_cons_zero, List.countP_cons, List.countP_cons, if_neg (by simp), if_pos (by simpa using hv)]
    | k + 1 =>
      rw [List.getElem?_cons_succ] at h
      rw [List.set_cons_succ, List.countP_cons, List.countP_cons]
      have := ih h
      omega

theorem split_spec {s : Stats} (hs : Full s) {K : Nat} (hK : K ≤ 256) (fuel : Nat) : ∀ (cubes : List Box) (vv : List F) (next : Nat), Part cubes → vv.length = cubes.length → 1 ≤ cubes.length →
    cubes.length ≤ K → (cubes.length = 1 ∧ next = 0 ∨ ∃ v, vv[next]? = some v ∧ fl.zero < v) → (K - cubes.length) * (K + 1) + pos fl vv < fuel →
    ∃ cs, split fl s K fuel cubes vv next = .ok cs ∧ Part cs ∧ 1 ≤ cs.length ∧ cs.length ≤ K := by
  induction fuel with
  | zero => intro cubes vv next _ _ _ _ _ hf; omega
  | succ fuel ih =>
    intro cubes vv next hp hl h1 h2 hn hf
    unfold split
    by_cases c1 : cubes.length < K
    · rw [if_pos c1, if_neg (by omega)]
      have hlt : next < cubes.length := by
        rcases hn with h | ⟨v, h, -⟩
        · omega
        · have := (List.getElem?_eq_some_iff.mp h).1; omega
      have hget : cubes[next]? = some cubes[next] := List.getElem?_eq_getElem hlt
      rw [rd_of_some hget, bind_ok]
      obtain ⟨r, er, hr⟩ := Cut_spec (fl := fl) hs (hp.1 _ (List.mem_of_getElem? hget))
      rw [er, bind_ok]
      match r, hr with
      | some (a, b), hr =>
        simp only []
        rw [wr_of_lt hlt, bind_ok, wr_of_lt (by omega), bind_ok, pure_eq_ok, bind_ok]
        simp only []
        have hp' := part_cut hp hget (hr a b rfl)
        have hl' : (vv.set next (value fl a) ++ [value fl b]).length = (cubes.set next a ++ [b]).length := by simp only [List.length_append, List.length_set, List.length_singleton, hl]
        have hl2 : (cubes.set next a ++ [b]).length = cubes.length + 1 := by simp only [List.length_append, List.length_set, List.length_singleton]
        by_cases c2 : (search fl (vv.set next (value fl a) ++ [value fl b])).1 ≤ fl.zero
        · rw [if_pos c2]
          exact ⟨_, rfl, hp', by omega, by omega⟩
        · rw [if_neg c2]
          refine ih _ _ _ hp' hl' (by omega) (by omega) (.inr ⟨_, search_spec (by simp), lt_of_not_ge c2⟩) ?_
          have := pos_le (fl := fl) (vv.set next (value fl a) ++ [value fl b])
          have e : (K - cubes.length) * (K + 1) = (K - (cubes.length + 1)) * (K + 1) + (K + 1) := by
            rw [← Nat.succ_mul]; congr 1; omega
          rw [hl2]
          omega
      | none, hr =>
        simp only []
        rw [wr_of_lt (by omega), bind_ok, pure_eq_ok, bind_ok]
        simp only []
        by_cases c2 : (search fl (vv.set next fl.zero)).1 ≤ fl.zero
        · rw [if_pos c2]
          exact ⟨_, rfl, hp, h1, h2⟩
        · rw [if_neg c2]
          have hne : vv.set next fl.zero ≠ [] := by
            intro h; have := congrArg List.length h; rw [List.length_set] at this; simp only [List.length_nil] at this; omega
          refine ih _ _ _ hp (by rw [List.length_set]; exact hl) h1 h2 (.inr ⟨_, search_spec hne, lt_of_not_ge c2⟩) ?_
          rcases hn with ⟨h, rfl⟩ | ⟨v, h, hv⟩
          · exfalso
            match vv, hl.trans h with
            | [v], _ => exact c2 (le_refl _)
          · have := pos_set h hv
            omega
    · rw [if_neg c1]
      exact ⟨_, rfl, hp, h1, h2⟩

end
end DevIL.Wu
