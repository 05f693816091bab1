import Verif.Model.DxtSave
import Verif.Lemmas.Dxt
import Verif.Lemmas.Stream
import Verif.Props.Lump
/-! Lemmas about the DXT compressor: the order of the blocks, the pixels of a block, the choice of the closest entry, and the packed codes. -/
set_option autoImplicit false
namespace DevIL.DxtSave
open DevIL.Image DevIL.Lump DevIL.Dxt

/-! ### Appending in a loop -/

theorem loop_append {β : Type} {n : Nat} {F : Nat → List β → C (List β)} {G : Nat → List β} (h : ∀ k s, k < n → F k s = .ok (s ++ G k)) (s : List β) :
    loopN n F s = .ok (s ++ (List.range n).flatMap G) := by
  induction n with
  | zero => simp
  | succ n ih =>
    rw [loopN_succ, ih (fun k s hk => h k s (by omega)), bind_ok, h n _ (by omega), List.range_succ, List.flatMap_append, List.append_assoc]
    simp

theorem flatMap_at {β : Type} {n L : Nat} {B : Nat → List β} (h : ∀ k, k < n → (B k).length = L) :
    ((List.range n).flatMap B).length = n * L ∧ ∀ k i, k < n → i < L → ((List.range n).flatMap B)[k * L + i]? = (B k)[i]? := by
  induction n with
  | zero => simp
  | succ n ih =>
    obtain ⟨h1, h2⟩ := ih (fun k hk => h k (by omega))
    rw [List.range_succ, List.flatMap_append]
    have e : [n].flatMap B = B n := by simp
    rw [e]
    refine ⟨by rw [List.length_append, h1, h n (by omega)]; grind, fun k i hk hi => ?_⟩
    by_cases hkn : k < n
    · have : k * L + i < n * L := by
        have := Nat.mul_le_mul_right L (show k + 1 ≤ n by omega)
        rw [Nat.succ_mul] at this
        omega
      rw [List.getElem?_append_left (by omega), h2 k i hkn hi]
    · have : k = n := by omega
      subst this
      rw [List.getElem?_append_right (by omega), h1]
      congr 1
      omega

theorem output_flatMap {n : Nat} (B : Nat → List WOp) : output ((List.range n).flatMap B) = (List.range n).flatMap (fun k => output (B k)) := by
  unfold output
  rw [List.flatMap_assoc]

theorem for4 {σ : Type} (n : Nat) (g : Nat → σ → C σ) (s : σ) : forStep 0 n 4 g s = loopN ((n + 3) / 4) (fun k s => g (4 * k) s) s := by
  unfold forStep
  rw [if_neg (by decide)]
  simp only [Nat.sub_zero, Nat.zero_add, Nat.mul_comm 4]

/-- What is written for an image, if the block at `(4 * x, 4 * y, z)` is written as `g z y x`, of `n` bytes. -/
theorem eachBlk_spec {m : Img} {f : Nat → Nat → Nat → C (List WOp)} {g : Nat → Nat → Nat → List WOp} {n : Nat}
    (hf : ∀ z y x, z < m.depth → y < (m.height + 3) / 4 → x < (m.width + 3) / 4 →
      f z (4 * y) (4 * x) = .ok (g z y x) ∧ (∀ op ∈ g z y x, Plain op) ∧ (output (g z y x)).length = n) :
    ∃ ops, eachBlk m f = .ok ops ∧ (∀ op ∈ ops, Plain op) ∧
      (output ops).length = m.depth * ((m.height + 3) / 4) * ((m.width + 3) / 4) * n ∧
      ∀ z y x i, z < m.depth → y < (m.height + 3) / 4 → x < (m.width + 3) / 4 → i < n →
        (output ops)[((z * ((m.height + 3) / 4) + y) * ((m.width + 3) / 4) + x) * n + i]? = (output (g z y x))[i]? := by
  refine ⟨(List.range m.depth).flatMap fun z => (List.range ((m.height + 3) / 4)).flatMap fun y => (List.range ((m.width + 3) / 4)).flatMap fun x => g z y x, ?_, ?_, ?_⟩
  · unfold eachBlk
    have := loop_append (n := m.depth) (F := fun z s => forStep 0 m.height 4 (fun y s => forStep 0 m.width 4 (fun x s => do
      let o ← f z y x
      pure (s ++ o)) s) s) (G := fun z => (List.range ((m.height + 3) / 4)).flatMap fun y => (List.range ((m.width + 3) / 4)).flatMap fun x => g z y x)
      (fun z s hz => by
        rw [for4]
        refine loop_append (fun y s hy => ?_) s
        rw [for4]
        refine loop_append (fun x s hx => ?_) s
        rw [(hf z y x hz hy hx).1, bind_ok]
        rfl) []
    rw [this]
    simp
  · intro op hop
    simp only [List.mem_flatMap, List.mem_range] at hop
    obtain ⟨z, hz, y, hy, x, hx, h⟩ := hop
    exact (hf z y x hz hy hx).2.1 op h
  · have h1 : ∀ z y, z < m.depth → y < (m.height + 3) / 4 →
        (output ((List.range ((m.width + 3) / 4)).flatMap fun x => g z y x)).length = (m.width + 3) / 4 * n ∧
        ∀ x i, x < (m.width + 3) / 4 → i < n →
          (output ((List.range ((m.width + 3) / 4)).flatMap fun x => g z y x))[x * n + i]? = (output (g z y x))[i]? := by
      intro z y hz hy
      rw [output_flatMap]
      exact flatMap_at (fun x hx => (hf z y x hz hy hx).2.2)
    have h2 : ∀ z, z < m.depth →
        (output ((List.range ((m.height + 3) / 4)).flatMap fun y => (List.range ((m.width + 3) / 4)).flatMap fun x => g z y x)).length =
          (m.height + 3) / 4 * ((m.width + 3) / 4 * n) ∧
        ∀ y i, y < (m.height + 3) / 4 → i < (m.width + 3) / 4 * n →
          (output ((List.range ((m.height + 3) / 4)).flatMap fun y => (List.range ((m.width + 3) / 4)).flatMap fun x => g z y x))[y * ((m.width + 3) / 4 * n) + i]? =
            (output ((List.range ((m.width + 3) / 4)).flatMap fun x => g z y x))[i]? := by
      intro z hz
      rw [output_flatMap]
      exact flatMap_at (fun y hy => (h1 z y hz hy).1)
    have h3 := flatMap_at (B := fun z => output ((List.range ((m.height + 3) / 4)).flatMap fun y => (List.range ((m.width + 3) / 4)).flatMap fun x => g z y x))
      (fun z hz => (h2 z hz).1)
    rw [output_flatMap]
    refine ⟨by rw [h3.1]; grind, fun z y x i hz hy hx hi => ?_⟩
    have b1 : x * n + i < (m.width + 3) / 4 * n := by
      have := Nat.mul_le_mul_right n (show x + 1 ≤ (m.width + 3) / 4 by omega)
      rw [Nat.succ_mul] at this
      omega
    have b2 : y * ((m.width + 3) / 4 * n) + (x * n + i) < (m.height + 3) / 4 * ((m.width + 3) / 4 * n) := by
      have := Nat.mul_le_mul_right ((m.width + 3) / 4 * n) (show y + 1 ≤ (m.height + 3) / 4 by omega)
      rw [Nat.succ_mul] at this
      omega
    rw [← (h1 z y hz hy).2 x i hx hi, ← (h2 z hz).2 y _ hy b1, ← h3.2 z _ hz b2]
    congr 1
    grind

/-! ### The pixels of a block -/

/-- The row of pixel `j` of a block at `yp`. -/
def brow (h yp j : Nat) : Nat := min (yp + j) (h - 1)

/-- The column of pixel `(i, j)` of a block at `(xp, yp)`. -/
def bcol (w h xp yp j i : Nat) : Nat := if xp + i < w ∧ yp + j < h then xp + i else xp

theorem getBlock_spec {β : Type} {data : List β} {base w h xp yp : Nat} (hx : xp < w) (hy : yp < h) {P : Nat → β}
    (hP : ∀ i, i < w * h → data[base + i]? = some (P i)) :
    ∃ blk, GetBlock data base w h xp yp = .ok blk ∧ blk.length = 16 ∧
      ∀ j i, j < 4 → i < 4 → blk[4 * j + i]? = some (P (brow h yp j * w + bcol w h xp yp j i)) := by
  have hb : ∀ j, brow h yp j < h := fun j => by unfold brow; omega
  have hr : ∀ r c, r < h → c < w → r * w + c < w * h := by
    intro r c hr hc
    have := Nat.mul_le_mul_right w (show r + 1 ≤ h by omega)
    rw [Nat.succ_mul, Nat.mul_comm h w] at this
    omega
  have row : ∀ (y : Nat) (s : List β), loopN 4 (fun x blk => do
      let v ← rd data (base + (if xp + x < w ∧ yp + y < h then brow h yp y * w + xp + x else brow h yp y * w + xp))
      pure (blk ++ [v])) s = .ok (s ++ (List.range 4).flatMap (fun i => [P (brow h yp y * w + bcol w h xp yp y i)])) := by
    intro y s
    refine loop_append (fun x s _ => ?_) s
    have e : (if xp + x < w ∧ yp + y < h then brow h yp y * w + xp + x else brow h yp y * w + xp) = brow h yp y * w + bcol w h xp yp y x := by
      unfold bcol; split <;> omega
    rw [e, rd_of_some (hP _ (hr _ _ (hb y) (by unfold bcol; split <;> omega)))]
    rfl
  have outer : ∀ n, loopN n (fun y s => do
      let blk ← loopN 4 (fun x blk => do
        let v ← rd data (base + (if xp + x < w ∧ yp + y < h then s.2 + x else s.2))
        pure (blk ++ [v])) s.1
      pure (blk, if yp + y + 1 < h then s.2 + w else s.2)) (([] : List β), yp * w + xp) =
      .ok ((List.range n).flatMap (fun y => (List.range 4).flatMap (fun i => [P (brow h yp y * w + bcol w h xp yp y i)])), brow h yp n * w + xp) := by
    intro n
    induction n with
    | zero =>
      have e : brow h yp 0 = yp := by unfold brow; omega
      simp [e]
    | succ n ih =>
      rw [loopN_succ, ih, bind_ok]
      dsimp only
      rw [row n, bind_ok, List.range_succ (n := n), List.flatMap_append, pure_eq_ok]
      congr 2
      · split
        · have : brow h yp (n + 1) = brow h yp n + 1 := by unfold brow; omega
          rw [this, Nat.succ_mul]
          omega
        · have : brow h yp (n + 1) = brow h yp n := by unfold brow; omega
          rw [this]
  refine ⟨(List.range 4).flatMap (fun y => (List.range 4).flatMap (fun i => [P (brow h yp y * w + bcol w h xp yp y i)])), ?_, ?_, ?_⟩
  · unfold GetBlock
    rw [outer 4]
    rfl
  · rfl
  · intro j i hj hi
    have inner : ∀ y, ((List.range 4).flatMap (fun i => [P (brow h yp y * w + bcol w h xp yp y i)])).length = 4 := fun y => rfl
    have := (flatMap_at (n := 4) (L := 4) (B := fun y => (List.range 4).flatMap (fun i => [P (brow h yp y * w + bcol w h xp yp y i)]))
      (fun y _ => inner y)).2 j i hj hi
    rw [Nat.mul_comm 4 j, this]
    obtain rfl | rfl | rfl | rfl : i = 0 ∨ i = 1 ∨ i = 2 ∨ i = 3 := by omega
    all_goals rfl

/-! ### The closest entry -/

theorem closest_spec {n : Nat} {d : Nat → Nat} (hn : 0 < n) (hd : ∀ j, j < n → d j < 4294967295) :
    closest n d < n ∧ (∀ j, j < n → d (closest n d) ≤ d j) ∧ ∀ j, j < closest n d → d (closest n d) < d j := by
  have key : ∀ k, k ≤ n →
      (k = 0 → (List.range k).foldl (fun s j => if d j < s.1 then (d j, j) else s) (4294967295, 0) = (4294967295, 0)) ∧
      (0 < k → ∃ c, c < k ∧ (List.range k).foldl (fun s j => if d j < s.1 then (d j, j) else s) (4294967295, 0) = (d c, c) ∧
        (∀ j, j < k → d c ≤ d j) ∧ ∀ j, j < c → d c < d j) := by
    intro k
    induction k with
    | zero => exact fun _ => ⟨fun _ => rfl, fun h => absurd h (by decide)⟩
    | succ k ih =>
      intro hk
      refine ⟨fun h => by omega, fun _ => ?_⟩
      rw [List.range_succ, List.foldl_append]
      obtain ⟨h0, h1⟩ := ih (by omega)
      by_cases k0 : k = 0
      · subst k0
        have := hd 0 (by omega)
        refine ⟨0, by omega, ?_, fun j hj => ?_, fun j hj => by omega⟩
        · simp [this]
        · obtain rfl : j = 0 := by omega
          exact Nat.le_refl _
      · obtain ⟨c, hc, e, hmin, hfirst⟩ := h1 (by omega)
        rw [e]
        simp only [List.foldl_cons, List.foldl_nil]
        by_cases hlt : d k < d c
        · rw [if_pos hlt]
          refine ⟨k, by omega, rfl, fun j hj => ?_, fun j hj => ?_⟩
          · by_cases hjk : j = k
            · subst hjk; exact Nat.le_refl _
            · have := hmin j (by omega); omega
          · have := hmin j hj; omega
        · rw [if_neg hlt]
          refine ⟨c, by omega, rfl, fun j hj => ?_, hfirst⟩
          by_cases hjk : j = k
          · subst hjk; omega
          · exact hmin j (by omega)
  obtain ⟨c, hc, e, h1, h2⟩ := (key n (Nat.le_refl n)).2 hn
  have ec : closest n d = c := by unfold closest; rw [e]
  rw [ec]
  exact ⟨hc, h1, h2⟩

/-! ### The limits of the alphas -/

theorem alphaEnds (blk : List UInt8) :
    (∀ i, i < 16 → (ChooseAlphaEndpoints blk).1 ≤ blk.getD i 0 ∧ blk.getD i 0 ≤ (ChooseAlphaEndpoints blk).2) ∧
    (∃ i, i < 16 ∧ (ChooseAlphaEndpoints blk).1 = blk.getD i 0) ∧ (∃ i, i < 16 ∧ (ChooseAlphaEndpoints blk).2 = blk.getD i 0) := by
  have key : ∀ k, ∃ s, (List.range k).foldl (fun (s : UInt8 × UInt8) i => (if blk.getD i 0 < s.1 then blk.getD i 0 else s.1, if blk.getD i 0 > s.2 then blk.getD i 0 else s.2)) (255, 0) = s ∧
      (∀ i, i < k → s.1 ≤ blk.getD i 0 ∧ blk.getD i 0 ≤ s.2) ∧ (s.1 = 255 ∨ ∃ i, i < k ∧ s.1 = blk.getD i 0) ∧ (s.2 = 0 ∨ ∃ i, i < k ∧ s.2 = blk.getD i 0) := by
    intro k
    induction k with
    | zero => exact ⟨_, rfl, fun i hi => by omega, .inl rfl, .inl rfl⟩
    | succ k ih =>
      obtain ⟨s, e, h1, h2, h3⟩ := ih
      rw [List.range_succ, List.foldl_append, e]
      refine ⟨_, rfl, fun i hi => ?_, ?_, ?_⟩
      · simp only [List.foldl_cons, List.foldl_nil]
        have hk : i = k ∨ i < k := by omega
        rcases hk with rfl | hk
        · constructor
          · split
            · exact UInt8.le_refl _
            · rename_i h; exact UInt8.not_lt.mp h
          · split
            · exact UInt8.le_refl _
            · rename_i h; exact UInt8.not_lt.mp h
        · obtain ⟨a, b⟩ := h1 i hk
          constructor
          · split
            · rename_i h; exact UInt8.le_of_lt (UInt8.lt_of_lt_of_le h a)
            · exact a
          · split
            · rename_i h; exact UInt8.le_of_lt (UInt8.lt_of_le_of_lt b h)
            · exact b
      · simp only [List.foldl_cons, List.foldl_nil]
        split
        · exact .inr ⟨k, by omega, rfl⟩
        · rcases h2 with h | ⟨i, hi, h⟩
          · exact .inl h
          · exact .inr ⟨i, by omega, h⟩
      · simp only [List.foldl_cons, List.foldl_nil]
        split
        · exact .inr ⟨k, by omega, rfl⟩
        · rcases h3 with h | ⟨i, hi, h⟩
          · exact .inl h
          · exact .inr ⟨i, by omega, h⟩
  obtain ⟨s, e, h1, h2, h3⟩ := key 16
  have es : ChooseAlphaEndpoints blk = s := e
  rw [es]
  refine ⟨h1, ?_, ?_⟩
  · rcases h2 with h | h
    · have := (h1 0 (by decide)).1
      rw [h] at this
      refine ⟨0, by decide, ?_⟩
      rw [h]
      refine UInt8.le_antisymm this ?_
      rw [UInt8.le_iff_toNat_le]
      have := UInt8.toNat_lt (blk.getD 0 0)
      show _ ≤ 255
      omega
    · exact h
  · rcases h3 with h | h
    · have := (h1 0 (by decide)).2
      rw [h] at this
      refine ⟨0, by decide, ?_⟩
      rw [h]
      refine UInt8.le_antisymm ?_ this
      rw [UInt8.le_iff_toNat_le]
      show 0 ≤ _
      omega
    · exact h

/-! ### The end colours -/

theorem colourEnds (blk : List Nat) :
    ∃ hi lo, hi < 16 ∧ lo < 16 ∧ ChooseEndpoints blk = (blk.getD hi 0, blk.getD lo 0) ∧
      ∀ i, i < 16 → NormSquared (ShortToColor888 (blk.getD lo 0)) ≤ NormSquared (ShortToColor888 (blk.getD i 0)) ∧
        NormSquared (ShortToColor888 (blk.getD i 0)) ≤ NormSquared (ShortToColor888 (blk.getD hi 0)) := by
  have key : ∀ (norm : Nat → Nat) k, 0 < k → ∃ s, (List.range k).foldl (fun (s : Nat × Nat) i => (if norm i > norm s.1 then i else s.1, if norm i < norm s.2 then i else s.2)) (0, 0) = s ∧
      s.1 < k ∧ s.2 < k ∧ ∀ i, i < k → norm s.2 ≤ norm i ∧ norm i ≤ norm s.1 := by
    intro norm k
    induction k with
    | zero => intro h; omega
    | succ k ih =>
      intro _
      rw [List.range_succ, List.foldl_append]
      by_cases k0 : k = 0
      · subst k0
        refine ⟨(0, 0), by simp, by decide, by decide, fun i hi => ?_⟩
        obtain rfl : i = 0 := by omega
        exact ⟨Nat.le_refl _, Nat.le_refl _⟩
      · obtain ⟨s, e, a, b, h⟩ := ih (by omega)
        rw [e]
        refine ⟨_, rfl, ?_, ?_, fun i hi => ?_⟩
        · simp only [List.foldl_cons, List.foldl_nil]; split <;> omega
        · simp only [List.foldl_cons, List.foldl_nil]; split <;> omega
        · simp only [List.foldl_cons, List.foldl_nil]
          have hs := h
          have hk : i = k ∨ i < k := by omega
          rcases hk with rfl | hk
          · constructor
            · split <;> omega
            · split <;> omega
          · have := h i hk
            constructor
            · split <;> omega
            · split <;> omega
  obtain ⟨s, e, a, b, h⟩ := key (fun i => NormSquared (ShortToColor888 (blk.getD i 0))) 16 (by decide)
  refine ⟨s.1, s.2, a, b, ?_, h⟩
  unfold ChooseEndpoints
  dsimp only
  rw [e]

/-! ### Packed codes -/

theorem bits_fold (M : Nat → Nat) (hM : ∀ i, M i < 4) (n : Nat) :
    (List.range n).foldl (fun bits i => bits ||| M i <<< (i * 2)) 0 < 4 ^ n ∧
    ∀ k, k < n → (List.range n).foldl (fun bits i => bits ||| M i <<< (i * 2)) 0 / 4 ^ k % 4 = M k := by
  induction n with
  | zero => exact ⟨Nat.one_pos, fun k hk => by omega⟩
  | succ n ih =>
    obtain ⟨h1, h2⟩ := ih
    rw [List.range_succ, List.foldl_append]
    simp only [List.foldl_cons, List.foldl_nil]
    have e : (List.range n).foldl (fun bits i => bits ||| M i <<< (i * 2)) 0 ||| M n <<< (n * 2) =
        M n * 4 ^ n + (List.range n).foldl (fun bits i => bits ||| M i <<< (i * 2)) 0 := by
      have h1' := h1
      rw [show (4 : Nat) ^ n = 2 ^ (n * 2) by rw [Nat.mul_comm, Nat.pow_mul]] at h1'
      rw [Nat.or_comm, ← Nat.shiftLeft_add_eq_or_of_lt h1', Nat.shiftLeft_eq, Nat.mul_comm n 2, Nat.pow_mul]
    rw [e]
    have hp : 0 < 4 ^ n := Nat.pow_pos (by decide)
    have hm := hM n
    refine ⟨?_, fun k hk => ?_⟩
    · have := Nat.mul_le_mul_right (4 ^ n) (show M n ≤ 3 by omega)
      rw [Nat.pow_succ]
      omega
    · by_cases hkn : k = n
      · subst hkn
        rw [Nat.add_comm, Nat.add_mul_div_right _ _ hp, Nat.div_eq_of_lt h1, Nat.zero_add, Nat.mod_eq_of_lt hm]
      · have hk' : k < n := by omega
        rw [← h2 k hk']
        have : (4 : Nat) ^ n = 4 ^ (n - k - 1) * 4 * 4 ^ k := by
          rw [← Nat.pow_succ, ← Nat.pow_add]
          congr 1
          omega
        rw [this, ← Nat.mul_assoc, ← Nat.mul_assoc, Nat.add_comm, Nat.add_mul_div_right _ _ (Nat.pow_pos (by decide)), Nat.add_mul_mod_self_right]

end DevIL.DxtSave
