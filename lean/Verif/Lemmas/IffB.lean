import Verif.Lemmas.Iff
/-! Lemmas for the tiles of Maya IFF pictures, whatever their bytes are. -/
set_option autoImplicit false
namespace DevIL.Iff

/-- The code ends with this, or reads outside a block; it neither writes outside one nor goes on for ever. -/
def Only {α : Type} (c : C α) (P : α → Prop) : Prop := Holds c P ∨ c = .error .oobRead

theorem Only.of {α : Type} {c : C α} {P : α → Prop} (h : Holds c P) : Only c P := Or.inl h

theorem Only.bind {α β : Type} {c : C α} {f : α → C β} {P : α → Prop} {Q : β → Prop} (h : Only c P) (hf : ∀ a, P a → Only (f a) Q) : Only (c >>= f) Q := by
  rcases h with ⟨a, rfl, p⟩ | rfl
  · exact hf a p
  · exact Or.inr rfl

theorem Only.rd {β : Type} {b : List β} {i : Nat} : Only (rd b i) (fun _ => True) := by
  rcases Nat.lt_or_ge i b.length with h | h
  · exact Or.inl ⟨_, rd_of_lt h, trivial⟩
  · exact Or.inr (rd_of_ge h)

theorem Only.loop {σ : Type} {f : Nat → σ → C σ} (I : Nat → σ → Prop) : ∀ {n : Nat} {s : σ}, I 0 s → (∀ k t, k < n → I k t → Only (f k t) (I (k + 1))) → Only (loopN n f s) (I n) := by
  intro n
  induction n with
  | zero => intro s h0 _; exact Or.inl ⟨s, rfl, h0⟩
  | succ n ih =>
    intro s h0 hs
    rw [loopN_succ]
    exact (ih h0 (fun k t hk => hs k t (by omega))).bind (fun t ht => hs n t (by omega) ht)

/-- Unpacking a channel, whatever the bytes are. -/
theorem rle_any (z : List UInt8) (num : Nat) : ∀ (f b p : Nat) (d : List UInt8), d.length = num → num ≤ b + f → Only (rle z num f d b p) (fun r => r.1.length = num) := by
  intro f
  induction f with
  | zero =>
    intro b p d hd hf
    rw [rle, if_neg (by omega)]
    exact Or.inl ⟨_, rfl, hd⟩
  | succ f ih =>
    intro b p d hd hf
    rw [rle]
    by_cases hc : b < num ∧ p < z.length
    · rw [if_pos hc]
      refine Only.bind Only.rd (fun c _ => ?_)
      simp only []
      by_cases h1 : num < b + (c.toNat % 128 + 1)
      · rw [if_pos h1]
        exact Or.inl ⟨_, rfl, hd⟩
      · rw [if_neg h1]
        by_cases h2 : 128 ≤ c.toNat
        · rw [if_pos h2]
          refine Only.bind Only.rd (fun v _ => ?_)
          refine Only.bind (Only.loop (fun _ (t : List UInt8) => t.length = num) hd (fun k t hk ht => ?_)) (fun t ht => ih _ _ t ht (by omega))
          exact Only.of ((Holds.wr (by omega)).mono (fun _ h => by rw [h.1]; exact ht))
        · rw [if_neg h2]
          refine Only.bind (Only.loop (fun _ (t : List UInt8) => t.length = num) hd (fun k t hk ht => ?_)) (fun t ht => ih _ _ t ht (by omega))
          exact Only.bind Only.rd (fun v _ => Only.of ((Holds.wr (by omega)).mono (fun _ h => by rw [h.1]; exact ht)))
    · rw [if_neg hc]
      exact Or.inl ⟨_, rfl, hd⟩

theorem channel_any (z : List UInt8) (num p : Nat) : Only (iff_decompress_rle num z p) (fun r => r.1.length = num) :=
  rle_any z num num 0 p _ (by simp) (by omega)

theorem tile_rle_any (junk : Nat → UInt8) (w h k : Nat) (z : List UInt8) : Only (iff_decompress_tile_rle junk w h k z) (fun r => ∀ t, r = some t → t.length = w * h * k) := by
  unfold iff_decompress_tile_rle
  by_cases hk : k ≠ 4
  · rw [if_pos hk]
    exact Or.inl ⟨none, rfl, fun _ h => nomatch h⟩
  · rw [if_neg hk]
    obtain rfl : k = 4 := by omega
    refine Only.bind (channel_any z (w * h) 0) (fun r3 l3 => ?_)
    obtain ⟨c3, p3⟩ := r3
    refine Only.bind (channel_any z (w * h) p3) (fun r2 l2 => ?_)
    obtain ⟨c2, p2⟩ := r2
    refine Only.bind (channel_any z (w * h) p2) (fun r1 l1 => ?_)
    obtain ⟨c1, p1⟩ := r1
    refine Only.bind (channel_any z (w * h) p1) (fun r0 l0 => ?_)
    obtain ⟨c0, p0⟩ := r0
    obtain ⟨t, e, hl, -⟩ := weave junk l0 l1 l2 l3
    simp only []
    rw [e]
    refine Or.inl ⟨some t, rfl, ?_⟩
    rintro _ ⟨⟩
    exact hl

theorem swap_any {k n i : Nat} {d : List UInt8} (hk : k = 3 ∨ k = 4) (hn : 1 < n) (hd : d.length = n * k) (hi : i < n) : Holds (swap k d (i * (k / 2))) (fun r => r.1.length = n * k ∧ r.2 = (i + 1) * (k / 2)) := by
  unfold swap
  refine (Holds.loop (fun _ (t : List UInt8) => t.length = n * k) hd (fun j t hj ht => ?_)).bind (fun t ht => Holds.pure ⟨ht, by rw [Nat.add_mul, Nat.one_mul]⟩)
  have hb : i * (k / 2) + k < n * k := by
    rcases hk with rfl | rfl <;> omega
  refine (Holds.rd (by omega)).bind (fun a _ => (Holds.rd (by omega)).bind (fun v _ => (Holds.wr (by omega)).bind (fun t' h' => (Holds.wr (by rw [h'.1]; omega)).mono (fun _ h => by rw [h.1, h'.1]; exact ht))))

theorem plain_any {k w h : Nat} {z : List UInt8} (hk : k = 3 ∨ k = 4) (hn : 1 < w * h) (hz : w * h * k ≤ z.length) : Holds (iffReadUncompressedTile w h k z) (fun t => t.length = w * h * k) := by
  unfold iffReadUncompressedTile
  have e : w * h * k / k = w * h := Nat.mul_div_cancel _ (by omega)
  rw [e]
  refine (Holds.loop (fun i (s : List UInt8 × Nat) => s.1.length = w * h * k ∧ s.2 = i * (k / 2)) ⟨by simp; omega, by simp⟩ (fun i s hi hs => ?_)).bind (fun s hs => Holds.pure hs.1)
  obtain ⟨d, q⟩ := s
  obtain ⟨h1, rfl⟩ := hs
  exact swap_any hk hn h1 hi

end DevIL.Iff
