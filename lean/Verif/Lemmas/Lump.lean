import Verif.Model.Lump
/-! Helper lemmas for the lump model. -/
set_option autoImplicit false
namespace DevIL.Lump

theorem ofInt_nat {n : Nat} (h : n < 4294967296) : ofInt (n : Int) = n := by unfold ofInt; omega
theorem ofInt_of {i : Int} (h0 : 0 ≤ i) (h : i < 4294967296) : (ofInt i : Int) = i := by unfold ofInt; omega
theorem ofInt_lt (i : Int) : ofInt i < 4294967296 := by unfold ofInt; omega
theorem ofInt_neg {i : Int} (h0 : i < 0) (h : -4294967296 ≤ i) : (ofInt i : Int) = i + 4294967296 := by unfold ofInt; omega
theorem toInt_le (n : Nat) : toInt n ≤ n := by unfold toInt; split <;> omega
theorem toInt_of {n : Nat} (h : n < 2147483648) : toInt n = n := by unfold toInt; rw [if_pos h]

/-- A non-empty lump whose announced size is the real one, and a position inside it or at its end. -/
structure Good (l : R) : Prop where
  size : l.size = l.data.length
  pos : l.pos ≤ l.size
  lt : l.size < 4294967295
  ne : 0 < l.size

theorem readLoop_spec (l : R) (hs : l.size = l.data.length) (hlt : l.size < 4294967296) : ∀ (n i : Nat) (acc : List UInt8),
    l.pos + i + n ≤ l.size → readLoop l n i acc = .ok (acc ++ (l.data.drop (l.pos + i)).take n, i + n, false) := by
  intro n
  induction n with
  | zero => intro i acc _; simp [readLoop]
  | succ n ih =>
    intro i acc h
    have hi : l.pos + i < l.data.length := by omega
    unfold readLoop
    rw [rd_of_lt hi, bind_ok, if_neg (by rw [u32_of_lt (by omega)]; omega), ih (i + 1) _ (by omega)]
    rw [List.drop_eq_getElem_cons hi]
    simp [List.take_succ_cons, Nat.add_assoc, Nat.add_comm 1]

/-- How many bytes a read moves. -/
def avail (l : R) (size number : Nat) : Nat := min (u32 (size * number)) (l.size - l.pos)

theorem read_spec {l : R} (h : Good l) (size number : Nat) :
    read l size number = .ok (⟨(l.data.drop l.pos).take (avail l size number),
      (if size ≠ 0 then avail l size number / size else avail l size number),
      decide ((if size ≠ 0 then avail l size number / size else avail l size number) ≠ number)⟩,
      { l with pos := l.pos + avail l size number }) := by
  have h1 := h.pos; have h2 := h.lt
  have e : ofInt ((l.size : Int) - l.pos) = l.size - l.pos := by unfold ofInt; omega
  have hk : l.pos + avail l size number ≤ l.size := by unfold avail; omega
  unfold read
  simp only [e]
  rw [show min (u32 (size * number)) (l.size - l.pos) = avail l size number from rfl,
    readLoop_spec l h.size (by omega) _ 0 [] (by omega)]
  simp only [bind_ok, Nat.zero_add, Nat.add_zero, List.nil_append, pure_eq_ok]
  rw [u32_of_lt (by omega)]
  simp

theorem Good.read_good {l : R} (h : Good l) (size number : Nat) :
    Good { l with pos := l.pos + avail l size number } :=
  ⟨h.size, by have := h.pos; show l.pos + min _ _ ≤ l.size; omega, h.lt, h.ne⟩

theorem getc_spec {l : R} (h : Good l) (hp : l.pos < l.size) :
    ∃ b, l.data[l.pos]? = some b ∧ getc l = .ok (some b, { l with pos := l.pos + 1 }) := by
  have h2 := h.lt
  have hi : l.pos < l.data.length := by rw [← h.size]; exact hp
  refine ⟨l.data[l.pos], List.getElem?_eq_getElem hi, ?_⟩
  unfold getc
  rw [if_neg (by rw [u32_of_lt (by omega)]; omega), rd_of_lt hi, bind_ok, u32_of_lt (by omega)]
  rfl

theorem getc_end {l : R} (h : Good l) (hp : l.pos = l.size) :
    getc l = .ok (none, { l with pos := l.size - 1 }) := by
  have h2 := h.lt; have h3 := h.ne
  unfold getc
  have e : ofInt ((l.pos : Int) - 1) = l.size - 1 := by unfold ofInt; omega
  rw [if_pos (by rw [hp, u32_of_lt (by omega)]; omega), e]

theorem seekTo_some {size pos p : Nat} {off : Int} {mode : Nat} (hs : size < 4294967296)
    (h0 : mode = SEEK_SET → 0 ≤ off) (h : seekTo size pos off mode = .ok (some p)) : p ≤ size := by
  have ht := toInt_le size
  unfold seekTo at h
  by_cases m0 : mode = SEEK_SET
  · rw [if_pos m0] at h
    have := h0 m0
    split at h
    · cases h
    · have hp : ofInt off = p := by injection h with h; injection h
      have := ofInt_of this (by omega)
      omega
  · rw [if_neg m0] at h
    by_cases m1 : mode = SEEK_CUR
    · rw [if_pos m1] at h
      split at h
      · cases h
      · have hp : ofInt ((pos : Int) + off) = p := by injection h with h; injection h
        omega
    · rw [if_neg m1] at h
      by_cases m2 : mode = SEEK_END
      · rw [if_pos m2] at h
        split at h
        · cases h
        · split at h
          · cases h
          · split at h
            · cases h
            · have hp : ofInt ((size : Int) + off) = p := by injection h with h; injection h
              have := ofInt_of (i := (size : Int) + off) (by omega) (by omega)
              omega
      · rw [if_neg m2] at h; cases h

theorem seekTo_ok {size pos : Nat} {off : Int} {mode : Nat} (h : mode = SEEK_END → off ≠ -2147483648) :
    ∃ r, seekTo size pos off mode = .ok r := by
  unfold seekTo
  split
  · split <;> exact ⟨_, rfl⟩
  · split
    · split <;> exact ⟨_, rfl⟩
    · split
      · rename_i m
        split
        · exact ⟨_, rfl⟩
        · rw [if_neg (h m)]
          split <;> exact ⟨_, rfl⟩
      · exact ⟨_, rfl⟩

theorem seek_ok {l : R} {off : Int} {mode : Nat} (h : Good l) (h0 : mode = SEEK_SET → 0 ≤ off)
    (h1 : mode = SEEK_END → off ≠ -2147483648) : ∃ r l', seek l off mode = .ok (r, l') ∧ Good l' := by
  obtain ⟨r, e⟩ := seekTo_ok (size := l.size) (pos := l.pos) h1
  cases r with
  | none => exact ⟨false, l, by unfold seek; rw [e]; rfl, h⟩
  | some p =>
    exact ⟨true, { l with pos := p }, by unfold seek; rw [e]; rfl, h.size, seekTo_some (Nat.lt_trans h.lt (by decide)) h0 e, h.lt, h.ne⟩

/-! ### Writing -/

/-- The part of a write that fits. -/
theorem writeLoop_spec (w : W) (buf : List UInt8) (hs : w.size = w.data.length) (hlt : w.size < 4294967296)
    (h0 : 0 < w.size) (hp : w.pos < 4294967296) : ∀ (n i : Nat) (d : List UInt8),
    d.length = w.data.length → i + n ≤ buf.length → (0 < i → w.pos + i ≤ w.size) →
    ∃ k, k ≤ n ∧ (k = n ∨ w.pos + i + k ≥ w.size) ∧ (0 < k → w.pos + i + k ≤ w.size) ∧
      writeLoop w buf n i d = .ok (d.take (w.pos + i) ++ ((buf.drop i).take k ++ d.drop (w.pos + i + k)), i + k, decide (k < n)) := by
  intro n
  induction n with
  | zero =>
    intro i d hd hb _
    exact ⟨0, Nat.le_refl _, Or.inl rfl, by omega, by simp [writeLoop]⟩
  | succ n ih =>
    intro i d hd hb hi
    by_cases hf : w.pos + i ≥ w.size
    · refine ⟨0, by omega, Or.inr (by omega), by omega, ?_⟩
      have hu : u32 (w.pos + i) ≥ w.size := by
        by_cases hi0 : i = 0
        · subst hi0; rw [u32_of_lt (by omega)]; exact hf
        · rw [u32_of_lt (by have := hi (by omega); omega)]; exact hf
      unfold writeLoop
      rw [if_pos ⟨h0, hu⟩]
      simp
    · have hlt' : w.pos + i < d.length := by omega
      have hbi : i < buf.length := by omega
      obtain ⟨k, hk, hk2, hk3, e⟩ := ih (i + 1) (d.set (w.pos + i) buf[i]) (by simpa using hd) (by omega) (by omega)
      refine ⟨k + 1, by omega, by omega, by omega, ?_⟩
      unfold writeLoop
      rw [if_neg (by rw [u32_of_lt (by omega)]; omega), rd_of_lt hbi, bind_ok, wr_of_lt hlt', bind_ok, e]
      have e1 : (d.set (w.pos + i) buf[i]).take (w.pos + (i + 1)) = d.take (w.pos + i) ++ [buf[i]] := by
        rw [← Nat.add_assoc, List.take_succ_eq_append_getElem (by simpa using hlt')]
        simp [List.take_set_of_le]
      have e2 : (d.set (w.pos + i) buf[i]).drop (w.pos + (i + 1) + k) = d.drop (w.pos + i + (k + 1)) := by
        rw [List.drop_set_of_lt (by omega)]
        congr 1; omega
      have e3 : (buf.drop i).take (k + 1) = buf[i] :: (buf.drop (i + 1)).take k := by
        rw [List.drop_eq_getElem_cons hbi, List.take_succ_cons]
      rw [e1, e2, e3]
      simp [Nat.add_assoc, Nat.add_comm 1]

theorem write_spec {w : W} {buf : List UInt8} {size number : Nat} (hs : w.size = w.data.length)
    (hlt : w.size < 4294967296) (h0 : 0 < w.size) (hp : w.pos < 4294967296) (hb : u32 (size * number) ≤ buf.length) :
    ∃ k, k ≤ u32 (size * number) ∧ (k = u32 (size * number) ∨ w.pos + k ≥ w.size) ∧ (0 < k → w.pos + k ≤ w.size) ∧
      write w buf size number = .ok (k, { w with
        data := w.data.take w.pos ++ (buf.take k ++ w.data.drop (w.pos + k)), pos := u32 (w.pos + k) }) := by
  obtain ⟨k, h1, h2, h3, e⟩ := writeLoop_spec w buf hs hlt h0 hp (u32 (size * number)) 0 w.data rfl (by omega) (by omega)
  refine ⟨k, h1, h2, h3, ?_⟩
  unfold write
  simp only []
  rw [e]
  simp only [bind_ok, Nat.add_zero, Nat.zero_add, List.drop_zero, pure_eq_ok]
  by_cases hk : k < u32 (size * number)
  · simp [hk]
  · have : k = u32 (size * number) := by omega
    simp [this]

theorem putc_spec {w : W} (b : UInt8) (hs : w.size = w.data.length) (hlt : w.size < 4294967296) :
    putc w b = .ok (if w.pos < w.size then (true, { w with data := w.data.set w.pos b, pos := w.pos + 1 })
      else (false, w)) := by
  unfold putc
  by_cases h : w.pos ≥ w.size
  · rw [if_pos h, if_neg (by omega)]
  · rw [if_neg h, if_pos (by omega), wr_of_lt (by omega), bind_ok, u32_of_lt (by omega)]
    rfl

end DevIL.Lump
