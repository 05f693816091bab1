import Verif.Lemmas.Rle
/-! C41: run-length encoding of scan lines. -/
set_option autoImplicit false
namespace DevIL.Rle

/-- No two neighbouring pixels of the line are equal. -/
def NoRuns (bpp : Nat) (line : List UInt8) : Prop :=
  ∀ i, (i + 2) * bpp ≤ line.length → (line.drop (i * bpp)).take bpp ≠ (line.drop ((i + 1) * bpp)).take bpp

theorem NoRuns.distinct {data : List UInt8} {p bpp n : Nat} (hp : p + n * bpp ≤ data.length)
    (h : NoRuns bpp ((data.drop p).take (n * bpp))) : Distinct data p bpp n := by
  intro i hi
  have e : ∀ j, j < n → (((data.drop p).take (n * bpp)).drop (j * bpp)).take bpp = slice data (p + j * bpp) bpp := by
    intro j hj
    unfold slice
    rw [List.drop_take, List.take_take, List.drop_drop]
    congr 1
    have : (j + 1) * bpp ≤ n * bpp := Nat.mul_le_mul_right _ hj
    rw [Nat.add_mul] at this
    omega
  have hl : ((data.drop p).take (n * bpp)).length = n * bpp := by simp; omega
  have := h i (by rw [hl]; exact Nat.mul_le_mul_right _ hi)
  rw [e i (by omega), e (i + 1) hi] at this
  exact this

/-- **C41 (partial).** A scan line of any length whose neighbouring pixels all differ, of one to four bytes per pixel, in either
mode: the encoder stays inside the line and the output buffer, if that has room for the line, one byte per 126 pixels and three
bytes.  What it writes are complete packets of the file format that stand for exactly the pixels of the line, with the final zero
byte in SGI mode; the reported length is the number of bytes written; bytes after them keep their values.
Missing: lines with equal neighbours, for which the encoder is wrong, see below. -/
theorem C41_line_partial (data : List UInt8) (p n bpp : Nat) (dest : List UInt8) (q : Nat) (sgi : Bool) (h0 : 0 < bpp) (h4 : bpp ≤ 4)
    (hn : n < 2147483648) (hp : p + n * bpp ≤ data.length) (hd : NoRuns bpp ((data.drop p).take (n * bpp)))
    (hq : q + n * bpp + n / 126 + 3 ≤ dest.length) :
    ∃ o fin, ilRleCompressLine data p n bpp dest q sgi =
        .ok (dest.take q ++ ((o ++ fin) ++ dest.drop (q + (o ++ fin).length)), (o ++ fin).length) ∧
      Packets (if sgi then sgiHeader else tgaHeader) bpp o ((data.drop p).take (n * bpp)) ∧ fin = (if sgi then [0] else []) ∧
      (o ++ fin).length ≤ n * bpp + n / 126 + 3 := by
  have hslack : (if n = 0 then 0 else if n = 1 then 1 else 2) ≤ 2 := by
    split
    · omega
    · split <;> omega
  obtain ⟨o, e, pk, hl⟩ := loop_spec (sgi := sgi) h0 h4 (n + 1) ⟨p, q, n, 0, dest⟩ (Nat.lt_succ_self n) hn (hd.distinct hp) hp
    (by show q + n * bpp + n / 126 + (if n = 0 then 0 else if n = 1 then 1 else 2) ≤ dest.length; omega)
  simp only at e hl
  refine ⟨o, if sgi then [0] else [], ?_, pk, rfl, ?_⟩
  · unfold ilRleCompressLine
    rw [e, bind_ok]
    cases sgi
    · simp only [Bool.false_eq_true, if_false, List.append_nil, Nat.zero_add]
      rfl
    · simp only [if_true]
      rw [wr_splice (by rw [splice_length (by omega)]; omega), bind_ok, splice_splice (by omega)]
      simp [splice]
  · cases sgi <;> simp <;> omega

example : NoRuns 2 (([9, 1, 2, 1, 3, 1, 2, 0].drop 1).take (3 * 2)) := by
  intro i hi
  have : i < 2 := by simp at hi; omega
  match i, this with
  | 0, _ => decide
  | 1, _ => decide

/-- **C41 is violated for lines with runs (1).** Two equal one-byte pixels: the encoder reads past the end of the line. -/
theorem C41_violated_read :
    ilRleCompressLine [5, 5] 0 2 1 (List.replicate 64 0) 0 false = .error .oobRead := by decide

/-- **C41 is violated for lines with runs (2).** With more bytes behind the line, one more byte is written than reported. -/
theorem C41_violated_length :
    ilRleCompressLine [5, 5, 9] 0 2 1 [0, 0, 0, 0] 0 false = .ok ([129, 5, 9, 0], 2) := by decide

/-- **C41 is violated for lines with runs (3).** The line 5 5 7 8, followed by 9: the last packet holds 9, not 8, and the first two
bytes are followed by one that is not a header. -/
theorem C41_violated_content :
    ilRleCompressLine [5, 5, 7, 8, 9] 0 4 1 (List.replicate 8 0) 0 false = .ok ([129, 5, 7, 0, 8, 0, 9, 0], 6) := by decide

end DevIL.Rle
