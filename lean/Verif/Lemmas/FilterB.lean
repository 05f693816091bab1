import Verif.Lemmas.Filter
import Mathlib.Tactic.Ring
import Mathlib.Tactic.NormNum
/-! Lemmas about the 3x3 filters. -/
set_option autoImplicit false
namespace DevIL.Filter
open DevIL.FilterSpec Utility

/-! ### What goes wrong -/

theorem notSafe_bind {α β : Type} {c : C α} {g : α → C β} (h : ¬ C.Safe c ∨ ∀ a, ¬ C.Safe (g a)) : ¬ C.Safe (c >>= g) := by
  rintro ⟨b, e⟩
  cases hc : c with
  | error f => rw [hc] at e; cases e
  | ok a =>
    rw [hc, bind_ok] at e
    rcases h with h | h
    · exact h ⟨a, hc⟩
    · exact h a ⟨b, e⟩

theorem notSafe_loop {σ : Type} {F : Nat → σ → C σ} {n : Nat} (k : Nat) (hk : k < n) (h : ∀ t, ¬ C.Safe (F k t)) (s : σ) : ¬ C.Safe (loopN n F s) := by
  induction n with
  | zero => omega
  | succ n ih =>
    rw [loopN_succ]
    by_cases e : k = n
    · subst e; exact notSafe_bind (.inr h)
    · exact notSafe_bind (.inl (ih (by omega)))

theorem notSafe_first {σ : Type} {F : Nat → σ → C σ} {n : Nat} (hn : 0 < n) (s : σ) (h : ¬ C.Safe (F 0 s)) : ¬ C.Safe (loopN n F s) := by
  induction n with
  | zero => omega
  | succ n ih =>
    rw [loopN_succ]
    by_cases e : n = 0
    · subst e
      rw [loopN_zero, bind_ok]; exact h
    · exact notSafe_bind (.inl (ih (by omega)))

theorem notSafe_steps {σ : Type} {stop p : Nat} {f : Nat → σ → C σ} {s : σ} (hs : 0 < stop) (h : ¬ C.Safe (f 0 s)) : ¬ C.Safe (steps stop p f s) := by
  unfold steps forStep
  split
  · split
    · exact C.not_safe_error _
    · refine notSafe_first ?_ s (by simpa using h)
      exact Nat.div_pos (by omega) (by omega)
  · exact C.not_safe_error _

theorem notSafe_within {σ : Type} {p stop : Nat} {f : Nat → σ → C σ} {s : σ} (hp : 0 < p) (hs : 0 < stop) (h : ¬ C.Safe (f 0 s)) :
    ¬ C.Safe (within p 0 stop f s) := notSafe_first (by omega) s h

theorem pixelWide_fails (mean : Nat → Nat → Nat) (k : Nat) (m : Img) {p : Nat} (hp : 0 < p) (hw : 0 < m.width) (hh : 0 < m.height) (hd : 0 < m.depth)
    (hb : 0 < m.bpp) (d : List UInt8) : ¬ C.Safe (pixelWide mean k m none p d) := by
  unfold pixelWide
  refine notSafe_steps hd (notSafe_steps hh (notSafe_steps hw (notSafe_bind (.inl (notSafe_first hb _ (notSafe_bind (.inr (fun a => ?_))))))))
  unfold blockPutWide
  exact notSafe_within hp hd (notSafe_within hp hh (notSafe_within hp hw (C.not_safe_error _)))

theorem weigh_fails {d : List UInt8} {base c : Nat} {offs : List Nat} (mat : List Int) (k : Nat) (hk : k < 9) (h : d.length ≤ base + u32 (offs.getD k 0 + c)) :
    ¬ C.Safe (weigh d base offs c mat) := by
  unfold weigh
  refine notSafe_loop k hk (fun t => notSafe_bind (.inl ?_)) _
  rw [rd_of_ge h]
  exact C.not_safe_error _

theorem filterAt_fails {d : List UInt8} {base dst c : Nat} {offs : List Nat} (mat : List Int) (scale bias : Int) (k : Nat) (hk : k < 9)
    (h : d.length ≤ base + u32 (offs.getD k 0 + c)) (o : List UInt8) : ¬ C.Safe (filterAt d base offs dst c mat scale bias o) := by
  unfold filterAt
  exact notSafe_bind (.inl (weigh_fails mat k hk h))

theorem plane_eq {m : Img} (h : Bytes m) : m.bps = m.width * m.bpp ∧ m.plane = m.height * m.bps ∧ m.data.length = m.depth * m.plane ∧ m.size = m.depth * m.plane := by
  obtain ⟨e1, e2, e3, e4⟩ := h.consistent
  have hb := h.bpc
  rw [hb, Nat.mul_one] at e1
  rw [hb, Nat.mul_one] at e2 e3
  refine ⟨e1, by rw [e2, e1]; ring, ?_, ?_⟩
  · rw [e4, e3, e2]; ring
  · rw [e3, e2]; ring

theorem plane_le {m : Img} (h : Bytes m) : m.bpp ≤ m.bps ∧ m.bps ≤ m.plane ∧ m.plane ≤ m.size := by
  obtain ⟨e1, e2, -, e4⟩ := plane_eq h
  refine ⟨?_, ?_, ?_⟩
  · rw [e1]; exact Nat.le_mul_of_pos_left _ h.width
  · rw [e2]; exact Nat.le_mul_of_pos_left _ h.height
  · rw [e4]; exact Nat.le_mul_of_pos_left _ h.depth

theorem last_plane {m : Img} (h : Bytes m) : m.data.length = (m.depth - 1) * m.plane + m.plane := by
  rw [(plane_eq h).2.2.1]
  have := h.depth
  obtain ⟨n, e⟩ : ∃ n, m.depth = n + 1 := ⟨m.depth - 1, by omega⟩
  rw [e, Nat.add_mul, Nat.one_mul]; rfl

theorem filter_fails_tall (junk : Nat → UInt8) {m : Img} (h : Bytes m) (hh : 3 ≤ m.height) (mat : List Int) (scale bias : Int) :
    ¬ C.Safe (filter junk m mat scale bias) := by
  unfold filter
  have hd := h.depth
  refine notSafe_loop (m.depth - 1) (by omega) (fun o => notSafe_bind (.inr (fun o => notSafe_bind (.inr (fun o => notSafe_bind (.inr (fun o => ?_))))))) _
  unfold sides
  refine notSafe_bind (.inr (fun o => notSafe_loop (m.height - 3) (by omega) (fun o => notSafe_loop 0 h.bpp (fun o => filterAt_fails mat scale bias 8 (by omega) ?_ o) o) o))
  obtain ⟨e1, e2, -, -⟩ := plane_eq h
  obtain ⟨l1, l2, l3⟩ := plane_le h
  have hs := h.size
  have hl := last_plane h
  have e3 : (m.height - 3 + 2) * m.bps + m.bps = m.plane := by
    rw [e2]
    obtain ⟨n, e⟩ : ∃ n, m.height = n + 3 := ⟨m.height - 3, by omega⟩
    rw [e]; simp only [Nat.add_sub_cancel]; ring
  generalize hY : (m.height - 3 + 2) * m.bps = Y at e3
  simp only [sideOffs, List.map_cons, List.getD_cons_succ, List.getD_cons_zero]
  rw [hl]
  unfold u32
  omega

theorem filter_fails_flat (junk : Nat → UInt8) {m : Img} (h : Bytes m) (hh : m.height = 1) (hw : 3 ≤ m.width) (mat : List Int) (scale bias : Int) :
    ¬ C.Safe (filter junk m mat scale bias) := by
  unfold filter
  have hd := h.depth
  refine notSafe_loop (m.depth - 1) (by omega) (fun o => notSafe_bind (.inr (fun o => notSafe_bind (.inr (fun o => notSafe_bind (.inl ?_)))))) _
  unfold rows
  refine notSafe_bind (.inl (notSafe_loop 0 (by omega) (fun o => notSafe_loop 0 h.bpp (fun o => filterAt_fails mat scale bias 6 (by omega) ?_ o) o) o))
  obtain ⟨e1, e2, -, -⟩ := plane_eq h
  obtain ⟨l1, l2, l3⟩ := plane_le h
  have hs := h.size
  have hl := last_plane h
  rw [hh, Nat.one_mul] at e2
  simp only [firstOffs, List.map_cons, List.getD_cons_succ, List.getD_cons_zero]
  rw [hl, e2, e1]
  simp only [Nat.zero_add, Nat.sub_self, Nat.add_zero]
  rw [e1] at e2
  unfold u32
  omega

/-! ### Two rows -/

theorem fits_ok {v : Int} (h : v.natAbs < 2 ^ 31) : fits v = .ok v := by
  unfold fits
  rw [if_pos (by omega)]; rfl

/-- The sum of the absolute values of the first `n` weights. -/
def heft (mat : List Int) (n : Nat) : Nat := ((List.range n).map fun k => (mat.getD k 0).natAbs).sum

theorem heft_succ (mat : List Int) (n : Nat) : heft mat (n + 1) = heft mat n + (mat.getD n 0).natAbs := by
  unfold heft; rw [List.range_succ]; simp

theorem heft_le {mat : List Int} {n k : Nat} (h : n ≤ k) : heft mat n ≤ heft mat k := by
  induction k with
  | zero => have : n = 0 := by omega
            subst this; exact Nat.le_refl _
  | succ k ih =>
    by_cases e : n = k + 1
    · subst e; exact Nat.le_refl _
    · rw [heft_succ]; have := ih (by omega); omega

theorem heft_all {mat : List Int} (h : mat.length = 9) : heft mat 9 = (mat.map Int.natAbs).sum := by
  match mat, h with
  | [a0, a1, a2, a3, a4, a5, a6, a7, a8], _ => simp [heft, List.range_succ]

theorem weigh_ok {d : List UInt8} {base c : Nat} {offs : List Nat} {mat : List Int} {v : Nat → UInt8} (hm : Light mat)
    (h : ∀ k, k < 9 → d[base + u32 (offs.getD k 0 + c)]? = some (v k)) :
    weigh d base offs c mat = .ok ((List.range 9).map fun k => mat.getD k 0 * ((v k).toNat : Int)).sum := by
  obtain ⟨s, e, hs, -⟩ := loopN_inv (f := fun k s => do
      let v ← rd d (base + u32 (offs.getD k 0 + c))
      let p ← fits ((v.toNat : Int) * mat.getD k 0)
      fits (s + p)) (s := (0 : Int))
    (fun n s => s = ((List.range n).map fun k => mat.getD k 0 * ((v k).toNat : Int)).sum ∧ s.natAbs ≤ 255 * heft mat n) (n := 9) ⟨by simp, by simp⟩ (by
    rintro k s hk ⟨e, hb⟩
    have hH := heft_le (mat := mat) (show k + 1 ≤ 9 by omega)
    rw [heft_succ, heft_all hm.1] at hH
    have hl := hm.2
    have hv : (v k).toNat ≤ 255 := by have := (v k).toNat_lt; omega
    have hp : (((v k).toNat : Int) * mat.getD k 0).natAbs ≤ 255 * (mat.getD k 0).natAbs := by
      rw [Int.natAbs_mul]; exact Nat.mul_le_mul (by simpa using hv) (Nat.le_refl _)
    have h1 : (s + ((v k).toNat : Int) * mat.getD k 0).natAbs ≤ s.natAbs + (((v k).toNat : Int) * mat.getD k 0).natAbs := Int.natAbs_add_le _ _
    refine ⟨s + ((v k).toNat : Int) * mat.getD k 0, ?_, ?_, ?_⟩
    · simp only [rd_of_some (h k hk), bind_ok]
      rw [fits_ok (by omega), bind_ok, fits_ok (by omega)]
    · rw [List.range_succ]
      simp only [List.map_append, List.sum_append, List.map_cons, List.map_nil, List.sum_cons, List.sum_nil]
      rw [e]; ring
    · rw [heft_succ]; omega)
  unfold weigh
  rw [e, hs]

theorem base_pos {m : Img} (h : Bytes m) (z y x c : Nat) : z * m.plane + ((y * m.width + x) * m.bpp + c) = pos m.width m.height m.bpp z y x c := by
  obtain ⟨e1, e2, -, -⟩ := plane_eq h
  rw [e2, e1]; unfold pos; ring

theorem off_lt {m : Img} (h : Bytes m) {y x c : Nat} (hy : y < m.height) (hx : x < m.width) (hc : c < m.bpp) : (y * m.width + x) * m.bpp + c < 2 ^ 31 := by
  have := pos_lt (z := 0) h.depth hy hx hc (Nat.le_of_eq h.size_eq.symm)
  rw [← base_pos h, Nat.zero_mul, Nat.zero_add] at this
  exact Nat.lt_trans this h.size

theorem filterAt_upd {m : Img} (h : Bytes m) {z y x c : Nat} (hz : z < m.depth) (hy : y < m.height) (hx : x < m.width) (hc : c < m.bpp) {offs : List Nat} {dst : Nat}
    (hto : dst = (y * m.width + x) * m.bpp) {mat : List Int} {scale bias : Int} (hm : Light mat) (hs : scale ≠ 0) (q : Nat → Nat × Nat)
    (hq : ∀ k, k < 9 → (q k).1 < m.height ∧ (q k).2 < m.width ∧ offs.getD k 0 = ((q k).1 * m.width + (q k).2) * m.bpp) {d0 : List UInt8}
    (hd : d0.length = m.data.length) {v : Nat → Option UInt8} (hv : v (pos m.width m.height m.bpp z y x c) =
      some (shade ((List.range 9).map fun k => mat.getD k 0 * (((m.px (q k).2 (q k).1 z c).getD 0).toNat : Int)).sum scale bias)) :
    Upd (fun o => filterAt m.data (z * m.plane) offs dst c mat scale bias o) d0 (fun _ => False) (fun i => i = pos m.width m.height m.bpp z y x c) v := by
  have hlt := pos_lt hz hy hx hc (Nat.le_of_eq h.len.symm)
  refine (Upd.wr (x := shade _ scale bias) (by rw [hd]; exact hlt) hv).congr (fun o _ => ?_) (fun _ h => h) (fun _ _ => Iff.rfl) (fun _ _ _ => rfl)
  unfold filterAt
  rw [weigh_ok (v := fun k => (m.px (q k).2 (q k).1 z c).getD 0) hm, bind_ok]
  · unfold tone
    rw [if_neg hs, hto, u32_of_lt (Nat.lt_trans (off_lt h hy hx hc) (by omega)), base_pos h]
    rfl
  · intro k hk
    obtain ⟨h1, h2, h3⟩ := hq k hk
    obtain ⟨w, e1, e2⟩ := px_some h (x := (q k).2) (y := (q k).1) h2 h1 hz hc
    rw [h3, u32_of_lt (Nat.lt_trans (off_lt h h1 h2 hc) (by omega)), base_pos h, e2, e1]; rfl

theorem keep_upd {m : Img} (h : Bytes m) {z y x c i : Nat} (hz : z < m.depth) (hy : y < m.height) (hx : x < m.width) (hc : c < m.bpp)
    (hi : i = (y * m.width + x) * m.bpp + c) {d0 : List UInt8} (hd : d0.length = m.data.length) {v : Nat → Option UInt8}
    (hv : v (pos m.width m.height m.bpp z y x c) = m.px x y z c) :
    Upd (fun o => keep m.data (z * m.plane) i o) d0 (fun _ => False) (fun i => i = pos m.width m.height m.bpp z y x c) v := by
  obtain ⟨w, e1, e2⟩ := px_some h hx hy hz hc
  have hlt := pos_lt hz hy hx hc (Nat.le_of_eq h.len.symm)
  refine (Upd.wr (x := w) (by rw [hd]; exact hlt) (by rw [hv, e1])).congr (fun o _ => ?_) (fun _ h => h) (fun _ _ => Iff.rfl) (fun _ _ _ => rfl)
  unfold keep
  rw [hi, base_pos h, rd_of_some e2, bind_ok]

/-- The weights the code uses: that of the lower right neighbour goes to the lower left one. -/
def skewed (mat : List Int) : List Int :=
  [mat.getD 0 0, mat.getD 1 0, mat.getD 2 0, mat.getD 3 0, mat.getD 4 0, mat.getD 5 0, mat.getD 6 0 + mat.getD 8 0, mat.getD 7 0, 0]

/-- The result for two rows. -/
def want (m : Img) (mat : List Int) (scale bias : Int) (x y z c : Nat) : Option UInt8 :=
  if x = 0 ∨ x + 1 = m.width then m.px x y z c else some (shade (weighted m (skewed mat) x y z c) scale bias)

/-- Where the nine values come from. -/
def source (x y k : Nat) : Nat × Nat := (rowAt 2 y (k / 3), if k = 8 then x - 1 else x + k % 3 - 1)

theorem source_sum {m : Img} (hh : m.height = 2) (mat : List Int) (x y z c : Nat) :
    ((List.range 9).map fun k => mat.getD k 0 * (((m.px (source x y k).2 (source x y k).1 z c).getD 0).toNat : Int)).sum = weighted m (skewed mat) x y z c := by
  unfold weighted
  rw [hh]
  simp only [List.range_succ, List.range_zero, List.nil_append, List.map_append, List.map_cons, List.map_nil, List.sum_append, List.sum_cons, List.sum_nil, source, skewed]
  simp
  ring

theorem loop_empty {σ : Type} {f : Nat → σ → C σ} {n : Nat} (h : n = 0) (s : σ) : loopN n f s = .ok s := by subst h; rfl

theorem decode {w h k z y x c : Nat} (hy : y < h) (hx : x < w) (hc : c < k) : pos w h k z y x c / k / w / h = z ∧ pos w h k z y x c / k / w % h = y ∧
    pos w h k z y x c / k % w = x ∧ pos w h k z y x c % k = c := by
  have e1 : pos w h k z y x c / k = (z * h + y) * w + x := div_block hc
  have e2 : pos w h k z y x c % k = c := Nat.mul_add_mod_of_lt hc
  have e3 : ((z * h + y) * w + x) / w = z * h + y := div_block hx
  have e4 : ((z * h + y) * w + x) % w = x := Nat.mul_add_mod_of_lt hx
  rw [e1, e2, e3, e4]
  exact ⟨div_block hy, Nat.mul_add_mod_of_lt hy, rfl, rfl⟩


theorem source_ok {m : Img} (hh : m.height = 2) {x y k : Nat} (hx : 1 ≤ x) (hxw : x + 1 < m.width) (hk : k < 9) :
    (source x y k).1 < m.height ∧ (source x y k).2 < m.width := by
  unfold source rowAt
  refine ⟨by dsimp only; omega, ?_⟩
  dsimp only
  split <;> omega

theorem firstOffs_eq {m : Img} (h : Bytes m) (hh : m.height = 2) {x k : Nat} (hx : 1 ≤ x) (hxw : x + 1 < m.width) (hk : k < 9) :
    (firstOffs m x).getD k 0 = ((source x 0 k).1 * m.width + (source x 0 k).2) * m.bpp := by
  have hb := h.bpp
  have l0 := off_lt h (y := 0) (x := x - 1) (c := 0) (by omega) (by omega) hb
  have l1 := off_lt h (y := 0) (x := x) (c := 0) (by omega) (by omega) hb
  have l2 := off_lt h (y := 0) (x := x + 1) (c := 0) (by omega) (by omega) hb
  have l3 := off_lt h (y := 1) (x := x - 1) (c := 0) (by omega) (by omega) hb
  have l4 := off_lt h (y := 1) (x := x) (c := 0) (by omega) (by omega) hb
  simp only [Nat.zero_mul, Nat.zero_add, Nat.add_zero, Nat.one_mul] at l0 l1 l2 l3 l4
  have cases9 : k = 0 ∨ k = 1 ∨ k = 2 ∨ k = 3 ∨ k = 4 ∨ k = 5 ∨ k = 6 ∨ k = 7 ∨ k = 8 := by omega
  rcases cases9 with rfl | rfl | rfl | rfl | rfl | rfl | rfl | rfl | rfl <;>
    simp only [firstOffs, source, rowAt, List.map_cons, List.getD_cons_succ, List.getD_cons_zero] <;> norm_num <;> exact u32_of_lt (by omega)

theorem lastOffs_eq {m : Img} (h : Bytes m) (hh : m.height = 2) {x k : Nat} (hx : 1 ≤ x) (hxw : x + 1 < m.width) (hk : k < 9) :
    (lastOffs m (u32 ((m.height - 1) * m.bps)) x).getD k 0 = ((source x 1 k).1 * m.width + (source x 1 k).2) * m.bpp := by
  have hb := h.bpp
  obtain ⟨e1, -, -, -⟩ := plane_eq h
  have l0 := off_lt h (y := 1) (x := x - 1) (c := 0) (by omega) (by omega) hb
  have l1 := off_lt h (y := 1) (x := x) (c := 0) (by omega) (by omega) hb
  have l2 := off_lt h (y := 1) (x := x + 1) (c := 0) (by omega) (by omega) hb
  simp only [Nat.one_mul, Nat.add_zero, Nat.add_mul (m.width), ← e1] at l0 l1 l2
  have e2 : u32 ((m.height - 1) * m.bps) = m.bps := by rw [hh]; simp only [Nat.add_one_sub_one, Nat.one_mul]; exact u32_of_lt (by omega)
  rw [e2]
  have cases9 : k = 0 ∨ k = 1 ∨ k = 2 ∨ k = 3 ∨ k = 4 ∨ k = 5 ∨ k = 6 ∨ k = 7 ∨ k = 8 := by omega
  rcases cases9 with rfl | rfl | rfl | rfl | rfl | rfl | rfl | rfl | rfl <;>
    simp only [lastOffs, source, rowAt, List.map_cons, List.getD_cons_succ, List.getD_cons_zero] <;> norm_num <;> (try rw [Nat.add_mul m.width, ← e1]) <;>
    unfold u32 <;> omega

/-- The filter on two rows. -/
theorem filter_two (junk : Nat → UInt8) {m : Img} (h : Bytes m) (hh : m.height = 2) {mat : List Int} {scale bias : Int} (hm : Light mat)
    (hs : scale ≠ 0) : ∃ o : List UInt8, filter junk m mat scale bias = .ok o ∧ o.length = m.data.length ∧
      ∀ z y x c, z < m.depth → y < m.height → x < m.width → c < m.bpp → o[pos m.width m.height m.bpp z y x c]? = want m mat scale bias x y z c := by
  obtain ⟨e1, e2, e3, e4⟩ := plane_eq h
  obtain ⟨l1, l2, l3⟩ := plane_le h
  have hsz := h.size
  have hW := h.width
  have hal : (alloc junk m.size).length = m.data.length := by unfold alloc; rw [List.length_map, List.length_range, h.consistent.2.2.2]
  let v : Nat → Option UInt8 := fun i => want m mat scale bias (i / m.bpp % m.width) (i / m.bpp / m.width % m.height) (i / m.bpp / m.width / m.height) (i % m.bpp)
  have hv : ∀ z y x c, y < m.height → x < m.width → c < m.bpp → v (pos m.width m.height m.bpp z y x c) = want m mat scale bias x y z c := by
    intro z y x c hy hx hc
    obtain ⟨a, b, c, d⟩ := decode (z := z) hy hx hc
    show want _ _ _ _ _ _ _ _ = _
    rw [a, b, c, d]
  have hcorner : ∀ z y x c, y < m.height → x < m.width → c < m.bpp → (x = 0 ∨ x + 1 = m.width) → v (pos m.width m.height m.bpp z y x c) = m.px x y z c := by
    intro z y x c hy hx hc hx'
    rw [hv z y x c hy hx hc]; unfold want; rw [if_pos hx']
  have hin : ∀ z y x c, y < m.height → 1 ≤ x → x + 1 < m.width → c < m.bpp → v (pos m.width m.height m.bpp z y x c) =
      some (shade ((List.range 9).map fun k => mat.getD k 0 * (((m.px (source x y k).2 (source x y k).1 z c).getD 0).toNat : Int)).sum scale bias) := by
    intro z y x c hy hx hxw hc
    rw [hv z y x c hy (by omega) hc, source_sum hh]; unfold want; rw [if_neg (by omega)]
  have hwb : (m.width - 1) * m.bpp + m.bpp = m.bps := by
    rw [e1]
    obtain ⟨n, e⟩ : ∃ n, m.width = n + 1 := ⟨m.width - 1, by omega⟩
    rw [e]; simp only [Nat.add_sub_cancel]; ring
  have hpl : m.plane = m.bps + m.bps := by rw [e2, hh]; ring
  have key : Upd (fun o => loopN m.depth (fun z o => do
      let o ← inside m (z * m.plane) mat scale bias o
      let o ← corners m (z * m.plane) o
      let o ← rows m (z * m.plane) mat scale bias o
      sides m (z * m.plane) mat scale bias o) o) (alloc junk m.size) (fun _ => False)
      (fun i => ∃ z, z < m.depth ∧ ((∃ c, c < m.bpp ∧ (i = pos m.width m.height m.bpp z 0 0 c ∨ i = pos m.width m.height m.bpp z 0 (m.width - 1) c ∨
          i = pos m.width m.height m.bpp z 1 0 c ∨ i = pos m.width m.height m.bpp z 1 (m.width - 1) c)) ∨
        ((∃ x, x < m.width - 2 ∧ ∃ c, c < m.bpp ∧ i = pos m.width m.height m.bpp z 0 (x + 1) c) ∨
          (∃ x, x < m.width - 2 ∧ ∃ c, c < m.bpp ∧ i = pos m.width m.height m.bpp z 1 (x + 1) c)))) v := by
    refine Upd.loopW (fun z hz => ?_)
    have u1 : Upd (fun o => corners m (z * m.plane) o) (alloc junk m.size) (fun _ => False) (fun i => ∃ c, c < m.bpp ∧
        (i = pos m.width m.height m.bpp z 0 0 c ∨ i = pos m.width m.height m.bpp z 0 (m.width - 1) c ∨
          i = pos m.width m.height m.bpp z 1 0 c ∨ i = pos m.width m.height m.bpp z 1 (m.width - 1) c)) v := by
      unfold corners
      refine Upd.loopW (fun c hc => ?_)
      have k1 := keep_upd h hz (y := 0) (x := 0) (i := c) (by omega) hW hc (by simp) hal (hcorner z 0 0 c (by omega) hW hc (.inl rfl))
      have k2 := keep_upd h hz (y := 0) (x := m.width - 1) (i := u32 (m.bps + 4294967296 - m.bpp + c)) (by omega) (by omega) hc (by unfold u32; simp only [Nat.zero_mul, Nat.zero_add]; omega) hal
        (hcorner z 0 (m.width - 1) c (by omega) (by omega) hc (.inr (by omega)))
      have k3 := keep_upd h hz (y := 1) (x := 0) (i := u32 ((m.height - 1) * m.bps + c)) (by omega) hW hc (by rw [hh]; unfold u32; simp only [Nat.one_mul, Nat.add_zero, Nat.add_one_sub_one, ← e1]; omega) hal
        (hcorner z 1 0 c (by omega) hW hc (.inl rfl))
      have k4 := keep_upd h hz (y := 1) (x := m.width - 1) (i := u32 (m.height * m.bps + 4294967296 - m.bpp + c)) (by omega) (by omega) hc
        (by rw [hh]; unfold u32; simp only [Nat.one_mul, Nat.add_mul, ← e1]; omega) hal (hcorner z 1 (m.width - 1) c (by omega) (by omega) hc (.inr (by omega)))
      refine (Upd.seq k1 (Upd.seq k2 (Upd.seq k3 k4 (fun _ _ h => h.elim)) (fun _ _ h => by simp at h)) (fun _ _ h => by simp at h)).congr
        (fun o _ => rfl) (fun _ h => by simp at h) (fun _ _ => Iff.rfl) (fun _ _ _ => rfl)
    have u2 : Upd (fun o => rows m (z * m.plane) mat scale bias o) (alloc junk m.size) (fun _ => False) (fun i =>
        ((∃ x, x < m.width - 2 ∧ ∃ c, c < m.bpp ∧ i = pos m.width m.height m.bpp z 0 (x + 1) c) ∨
          (∃ x, x < m.width - 2 ∧ ∃ c, c < m.bpp ∧ i = pos m.width m.height m.bpp z 1 (x + 1) c))) v := by
      unfold rows
      have r1 := Upd.loopW (n := m.width - 2) (body := fun x o => loopN m.bpp (fun c o =>
          filterAt m.data (z * m.plane) (firstOffs m (x + 1)) (u32 ((x + 1) * m.bpp)) c mat scale bias o) o) (d0 := alloc junk m.size)
          (R := fun x i => ∃ c, c < m.bpp ∧ i = pos m.width m.height m.bpp z 0 (x + 1) c) (v := v) (fun x hx => Upd.loopW (fun c hc => by
        have := off_lt h (y := 0) (x := x + 1) (c := c) (by omega) (by omega) hc
        refine filterAt_upd h hz (by omega) (by omega) hc (by rw [Nat.zero_mul, Nat.zero_add] at this ⊢; exact u32_of_lt (by omega)) hm hs (source (x + 1) 0)
          (fun k hk => ⟨(source_ok hh (by omega) (by omega) hk).1, (source_ok hh (by omega) (by omega) hk).2, firstOffs_eq h hh (by omega) (by omega) hk⟩) hal
          (hin z 0 (x + 1) c (by omega) (by omega) (by omega) hc)))
      have r2 := Upd.loopW (n := m.width - 2) (body := fun x o => loopN m.bpp (fun c o =>
          filterAt m.data (z * m.plane) (lastOffs m (u32 ((m.height - 1) * m.bps)) (x + 1)) (u32 (u32 ((m.height - 1) * m.bps) + (x + 1) * m.bpp)) c mat scale bias o) o)
          (d0 := alloc junk m.size) (R := fun x i => ∃ c, c < m.bpp ∧ i = pos m.width m.height m.bpp z 1 (x + 1) c) (v := v) (fun x hx => Upd.loopW (fun c hc => by
        have := off_lt h (y := 1) (x := x + 1) (c := c) (by omega) (by omega) hc
        refine filterAt_upd h hz (by omega) (by omega) hc (by
          rw [Nat.one_mul, Nat.add_mul m.width, ← e1] at this ⊢
          rw [hh]; unfold u32; simp only [Nat.add_one_sub_one, Nat.one_mul]; omega) hm hs (source (x + 1) 1)
          (fun k hk => ⟨(source_ok hh (by omega) (by omega) hk).1, (source_ok hh (by omega) (by omega) hk).2, lastOffs_eq h hh (by omega) (by omega) hk⟩) hal
          (hin z 1 (x + 1) c (by omega) (by omega) (by omega) hc)))
      exact (Upd.seq r1 r2 (fun _ _ h => h.elim)).congr (fun o _ => rfl) (fun _ h => by simp at h) (fun _ _ => Iff.rfl) (fun _ _ _ => rfl)
    refine (Upd.seq u1 u2 (fun _ _ h => h.elim)).congr (fun o _ => ?_) (fun _ h => by simp at h) (fun _ _ => Iff.rfl) (fun _ _ _ => rfl)
    have z2 : m.height - 2 = 0 := by omega
    unfold inside sides
    simp only [loop_empty z2, bind_ok]
    cases corners m (z * m.plane) o with
    | error f => rfl
    | ok o =>
      simp only [bind_ok]
      cases rows m (z * m.plane) mat scale bias o <;> rfl
  obtain ⟨o, e, l, s⟩ := key (alloc junk m.size) rfl (fun _ h => h.elim)
  refine ⟨o, e, by rw [l, hal], fun z y x c hz hy hx hc => ?_⟩
  have hlt := pos_lt hz hy hx hc (Nat.le_of_eq h.len.symm)
  rw [(s _ (by rw [hal]; exact hlt)).1, hv z y x c hy hx hc]
  refine ⟨z, hz, ?_⟩
  have hy2 : y = 0 ∨ y = 1 := by omega
  by_cases hx0 : x = 0
  · subst hx0
    rcases hy2 with rfl | rfl
    · exact .inl ⟨c, hc, .inl rfl⟩
    · exact .inl ⟨c, hc, .inr (.inr (.inl rfl))⟩
  · by_cases hx1 : x = m.width - 1
    · subst hx1
      rcases hy2 with rfl | rfl
      · exact .inl ⟨c, hc, .inr (.inl rfl)⟩
      · exact .inl ⟨c, hc, .inr (.inr (.inr rfl))⟩
    · rcases hy2 with rfl | rfl
      · exact .inr (.inl ⟨x - 1, by omega, c, hc, by rw [Nat.sub_add_cancel (by omega)]⟩)
      · exact .inr (.inr ⟨x - 1, by omega, c, hc, by rw [Nat.sub_add_cancel (by omega)]⟩)

end DevIL.Filter
