import Verif.Lemmas.PnmText
/-! Lemmas about bitmaps (P4 files). -/
set_option autoImplicit false
namespace DevIL.Pnm
open DevIL.Lump DevIL.PnmSpec DevIL.Image DevIL.Utility

/-- The header of a bitmap. -/
theorem header4_spec {fuel : Nat} {g1 g2 : List Item} {w h rest word : List UInt8} {i3 : Item} {b : UInt8} {l : R}
    (hat : At l ([80, 52] ++ gap g1 ++ w ++ gap g2 ++ h ++ i3.bytes ++ b :: rest)) (hgap : ∀ i ∈ g1 ++ g2 ++ [i3], i.Ok) (hg1 : g1 ≠ []) (hg2 : g2 ≠ [])
    (wn : IsNumber w) (hn : IsNumber h) (wl : w.length < 180) (hl : h.length < 180) (hb : b ≠ 32)
    (h0 : 0 < number w ∧ 0 < number h) (hw : number w < 2147483648) (hh : number h < 2147483648) (hwl : word.length = 180) (hf : l.size + 2 < fuel) :
    ∃ word1 l1 word2 l2, iGetWord fuel false word l = .ok (true, word1, l1) ∧ typeOf word1 = 4 ∧
      numbers fuel 4 word1 l1 = .ok (some ⟨4, number w, number h, 1, 1⟩, word2, l2) ∧ At l2 (b :: rest) ∧ l2.size = l.size := by
  obtain ⟨i1, g1', rfl⟩ : ∃ i g, g1 = i :: g := by
    cases g1 with
    | nil => exact absurd rfl hg1
    | cons i g => exact ⟨i, g, rfl⟩
  obtain ⟨i2, g2', rfl⟩ : ∃ i g, g2 = i :: g := by
    cases g2 with
    | nil => exact absurd rfl hg2
    | cons i g => exact ⟨i, g, rfl⟩
  obtain ⟨bw, tw, ew, hbw⟩ := number_head wn
  obtain ⟨bh, th, eh, hbh⟩ := number_head hn
  have hi3 : gap [i3] = i3.bytes := by simp [gap]
  have hat1 : At l (gap [] ++ ([80, 52] ++ (gap (i1 :: g1') ++ bw :: (tw ++ (gap (i2 :: g2') ++ (h ++ (gap [i3] ++ b :: rest))))))) := by
    rw [show gap [] = [] from rfl, List.nil_append, hi3]
    rw [ew] at hat
    simpa using hat
  obtain ⟨word1, l1, e1, hw1, a1, s1⟩ := getWord hat1 (by simp) (by simp) (by
    intro d hd
    simp only [List.mem_cons, List.not_mem_nil, or_false] at hd
    rcases hd with rfl | rfl <;> decide) (by simp) hwl (hgap i1 (by simp)) hbw hf
  have hat2 : At l1 (gap (dropSpaces g1') ++ (w ++ (gap (i2 :: g2') ++ bh :: (th ++ (gap [i3] ++ b :: rest))))) := by
    rw [ew]
    rw [eh] at a1
    simpa using a1
  obtain ⟨word2, l2, e2, hw2, a2, s2⟩ := getWord (fuel := fuel) hat2 (fun i hi => hgap i (by
    have : i ∈ g1' := (List.dropWhile_sublist _).subset hi
    simp [this])) wn.1 (alnum_number wn) wl hw1.1 (hgap i2 (by simp)) hbh (by omega)
  have hat3 : At l2 (gap (dropSpaces g2') ++ (h ++ (gap [i3] ++ b :: rest))) := by
    rw [eh]
    simpa using a2
  obtain ⟨word3, l3, e3, hw3, a3, s3⟩ := getWord (fuel := fuel) hat3 (fun i hi => hgap i (by
    have : i ∈ g2' := (List.dropWhile_sublist _).subset hi
    simp [this])) hn.1 (alnum_number hn) hl hw2.1 (hgap i3 (by simp)) hb (by omega)
  refine ⟨word1, l1, word3, l3, e1, ?_, ?_, by simpa [dropSpaces, gap] using a3, by omega⟩
  · obtain ⟨_, t, rfl⟩ := hw1
    rfl
  · unfold numbers
    rw [e2, bind_ok]
    dsimp only
    rw [if_neg (by simp), atoi_word hw2 wn.2 hw, bind_ok, if_neg (by omega), e3, bind_ok]
    dsimp only
    rw [if_neg (by simp), atoi_word hw3 hn.2 hh, bind_ok, if_neg (by omega), if_pos (by simp)]
    rfl

/-- What the loader makes of `n` bits, from bit `k - 1` down. -/
def spread (cur : Nat) : Nat → Nat → List UInt8
  | _, 0 => []
  | k, n + 1 => (if cur / 2 ^ (k - 1) % 2 = 1 then 255 else 0) :: spread cur (k - 1) n

theorem spread_length (cur n : Nat) : ∀ k, (spread cur k n).length = n := by
  induction n with
  | zero => intro k; rfl
  | succ n ih => intro k; simp [spread, ih]

theorem bits_spec {w cur : Nat} (k : Nat) : ∀ {x j : Nat} {d : List UInt8}, x ≤ w → j + min k (w - x) ≤ d.length →
    bits w cur k x j d = .ok (x + min k (w - x), j + min k (w - x), splice d j (spread cur k (min k (w - x)))) := by
  induction k with
  | zero => intro x j d _ _; simp [bits, spread]
  | succ k ih =>
    intro x j d hx hj
    unfold bits
    by_cases h : x < w
    · rw [if_pos h, wr_splice (by omega), bind_ok, ih (by omega) (by rw [splice_length (by simp only [List.length_cons, List.length_nil]; omega)]; omega)]
      have e : min (k + 1) (w - x) = min k (w - (x + 1)) + 1 := by omega
      rw [e]
      have e2 : splice (splice d j [if cur / 2 ^ k % 2 = 1 then (255 : UInt8) else 0]) (j + 1) (spread cur k (min k (w - (x + 1)))) =
          splice d j (spread cur (k + 1) (min k (w - (x + 1)) + 1)) := by
        rw [show j + 1 = j + [if cur / 2 ^ k % 2 = 1 then (255 : UInt8) else 0].length from rfl, splice_splice (by omega)]
        rfl
      rw [e2]
      congr 2
      · omega
      · congr 1
        omega
    · rw [if_neg h, show min (k + 1) (w - x) = 0 by omega]
      simp [spread]

/-- The pixels of a row. -/
def rowPix (n : Nat) (bs : List UInt8) : List UInt8 := (bs.flatMap fun b => spread b.toNat 8 8).take n

theorem spread_take (cur : Nat) {n m : Nat} : ∀ {k : Nat}, n ≤ m → spread cur k n = (spread cur k m).take n := by
  induction n generalizing m with
  | zero => intro k _; simp [spread]
  | succ n ih =>
    intro k h
    obtain ⟨m, rfl⟩ : ∃ q, m = q + 1 := ⟨m - 1, by omega⟩
    simp only [spread, List.take_succ_cons]
    rw [ih (m := m) (by omega)]

theorem rowPix_cons (n : Nat) (b : UInt8) (bs : List UInt8) : rowPix n (b :: bs) = spread b.toNat 8 (min 8 n) ++ rowPix (n - 8) bs := by
  unfold rowPix
  rw [List.flatMap_cons, List.take_append, spread_length]
  congr 1
  rw [spread_take b.toNat (Nat.min_le_left 8 n), List.take_eq_take_iff, spread_length]
  omega

theorem rowPix_length {n : Nat} {bs : List UInt8} (h : n ≤ 8 * bs.length) : (rowPix n bs).length = n := by
  have : ∀ bs : List UInt8, (bs.flatMap fun b => spread b.toNat 8 8).length = 8 * bs.length := by
    intro bs
    induction bs with
    | nil => rfl
    | cons b bs ih => rw [List.flatMap_cons, List.length_append, spread_length, ih, List.length_cons]; omega
  unfold rowPix
  rw [List.length_take, this]
  omega

/-- The rest of a row. -/
theorem bitLoop_row {w size : Nat} {bs : List UInt8} : ∀ {rest d : List UInt8} {fuel x j : Nat} {l : R}, At l (bs ++ rest) → x < w →
    w - x ≤ 8 * bs.length → 8 * bs.length < w - x + 8 → j + (w - x) ≤ d.length → j + (w - x) ≤ size →
    bitLoop w size (fuel + bs.length) x j d l = bitLoop w size fuel 0 (j + (w - x)) (splice d j (rowPix (w - x) bs)) (adv l bs.length) := by
  induction bs with
  | nil => intro rest d fuel x j l _ h1 h2; simp only [List.length_nil] at h2; omega
  | cons b bs ih =>
    intro rest d fuel x j l hat hx h1 h2 hj hs
    simp only [List.length_cons] at h1 h2
    rw [List.length_cons, ← Nat.add_assoc]
    conv_lhs => unfold bitLoop
    rw [if_neg (by omega), At.getb hat, bind_ok]
    dsimp only
    rw [bits_spec 8 (by omega) (by omega), bind_ok]
    dsimp only
    rw [rowPix_cons]
    by_cases hlast : w - x ≤ 8
    · have hb : bs = [] := List.eq_nil_of_length_eq_zero (by omega)
      subst hb
      rw [if_pos (by omega), show min 8 (w - x) = w - x by omega, show w - x - 8 = 0 by omega]
      simp [rowPix]
    · have e := ih (rest := rest) (d := splice d j (spread b.toNat 8 8)) (fuel := fuel) (x := x + 8) (j := j + 8) (l := adv l 1) (At.adv_cons hat) (by omega) (by omega)
        (by omega) (by rw [splice_length (by rw [spread_length]; omega)]; omega) (by omega)
      have e8 : splice (splice d j (spread b.toNat 8 8)) (j + 8) (rowPix (w - (x + 8)) bs) = splice d j (spread b.toNat 8 8 ++ rowPix (w - (x + 8)) bs) := by
        have := splice_splice (d := d) (o := spread b.toNat 8 8) (o' := rowPix (w - (x + 8)) bs) (q := j) (by omega)
        rwa [spread_length] at this
      rw [show min 8 (w - x) = 8 by omega, if_neg (by omega), e, e8, adv_adv, show j + 8 + (w - (x + 8)) = j + (w - x) by omega,
        show w - (x + 8) = w - x - 8 by omega, Nat.add_comm 1]

/-- The rows of a bitmap. -/
theorem bitLoop_rows {w : Nat} (hw : 0 < w) {rows : List (List UInt8)} : ∀ {rest d : List UInt8} {fuel j : Nat} {l : R}, At l (rows.flatten ++ rest) →
    (∀ r ∈ rows, r.length = (w + 7) / 8) → j + rows.length * w = d.length → rows.flatten.length < fuel →
    ∃ l', bitLoop w d.length fuel 0 j d l = .ok (splice d j (rows.flatMap (rowPix w)), l') := by
  induction rows with
  | nil =>
    intro rest d fuel j l _ _ hj hf
    simp only [List.length_nil] at hj
    obtain ⟨f, rfl⟩ : ∃ f, fuel = f + 1 := ⟨fuel - 1, by omega⟩
    refine ⟨l, ?_⟩
    unfold bitLoop
    rw [if_pos (by omega)]
    simp
  | cons r rows ih =>
    intro rest d fuel j l hat hr hj hf
    have h8 := hr r (by simp)
    simp only [List.flatten_cons, List.length_append] at hf
    rw [List.length_cons, Nat.add_mul, Nat.one_mul] at hj
    have hat1 : At l (r ++ (rows.flatten ++ rest)) := by simpa using hat
    obtain ⟨f, rfl⟩ : ∃ f, fuel = f + r.length := ⟨fuel - r.length, by omega⟩
    rw [bitLoop_row hat1 hw (by omega) (by omega) (by omega) (by omega)]
    have hl : (rowPix w r).length = w := rowPix_length (by omega)
    obtain ⟨l', e⟩ := ih (d := splice d j (rowPix w r)) (fuel := f) (j := j + w) (At.adv hat1) (fun x hx => hr x (by simp [hx]))
      (by rw [splice_length (by omega)]; omega) (by omega)
    refine ⟨l', ?_⟩
    rw [splice_length (by omega)] at e
    rw [Nat.sub_zero, e]
    have := splice_splice (d := d) (o := rowPix w r) (o' := rows.flatMap (rowPix w)) (q := j) (by omega)
    rw [hl] at this
    rw [this]
    simp

/-- Whatever the input, the loop ends within the block. -/
theorem bitLoop_any {w h : Nat} (hw : 0 < w) (fuel : Nat) : ∀ {row x j : Nat} {d : List UInt8} {l : R}, Good l → x < w → (row < h ∨ (row = h ∧ x = 0)) →
    j = row * w + x → d.length = h * w → h * w - j < fuel → ∃ d' l', bitLoop w d.length fuel x j d l = .ok (d', l') ∧ d'.length = d.length := by
  induction fuel with
  | zero => intro row x j d l _ _ _ _ _ hf; omega
  | succ fuel ih =>
    intro row x j d l hg hx hrow hj hd hf
    unfold bitLoop
    by_cases hend : d.length ≤ j
    · rw [if_pos hend]
      exact ⟨d, l, rfl, rfl⟩
    · rw [if_neg hend]
      have hr : row < h := by
        rcases hrow with h1 | ⟨h1, h2⟩
        · exact h1
        · rw [h1, h2] at hj; omega
      have hle : (row + 1) * w ≤ h * w := Nat.mul_le_mul_right _ hr
      rw [Nat.add_mul, Nat.one_mul] at hle
      obtain ⟨b, l1, e, hg1, _⟩ := keeps_getb hg
      rw [e, bind_ok]
      dsimp only
      rw [bits_spec 8 (by omega) (by omega), bind_ok]
      dsimp only
      have hsl : (splice d j (spread b.toNat 8 (min 8 (w - x)))).length = d.length := splice_length (by rw [spread_length]; omega)
      by_cases hfull : x + min 8 (w - x) = w
      · rw [if_pos hfull]
        obtain ⟨d', l', e', hl'⟩ := ih (row := row + 1) (x := 0) (j := j + min 8 (w - x)) (d := splice d j (spread b.toNat 8 (min 8 (w - x)))) (l := l1) hg1 hw
          (by omega) (by rw [Nat.add_mul, Nat.one_mul]; omega) (by omega) (by omega)
        rw [hsl] at e' hl'
        exact ⟨d', l', e', hl'⟩
      · rw [if_neg hfull]
        obtain ⟨d', l', e', hl'⟩ := ih (row := row) (x := x + min 8 (w - x)) (j := j + min 8 (w - x)) (d := splice d j (spread b.toNat 8 (min 8 (w - x)))) (l := l1) hg1
          (by omega) (Or.inl hr) (by omega) (by omega) (by omega)
        rw [hsl] at e' hl'
        exact ⟨d', l', e', hl'⟩

end DevIL.Pnm
