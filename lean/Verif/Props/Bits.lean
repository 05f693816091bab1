import Verif.Model.Bits
import Verif.Lemmas.Lump
/-! C37: the bit reader. -/
set_option autoImplicit false
namespace DevIL.Bits
open DevIL.Lump

/-- The bits of a byte, most significant first. -/
def byteBits (b : UInt8) : List Bool := [7, 6, 5, 4, 3, 2, 1, 0].map b.toNat.testBit

/-- The bits of a file. -/
def fileBits (d : List UInt8) : List Bool := d.flatMap byteBits

/-- The bits of the current byte that have not been delivered. -/
def held (s : B) : List Bool := (List.range (s.off + 1).toNat).reverse.map s.buff.toNat.testBit

/-- The bits still to come. -/
def rest (s : B) : List Bool := (if s.off ≤ 7 then held s else []) ++ fileBits (s.inp.data.drop s.inp.pos)

/-- A reader in use: a good input, and a bit offset inside the byte, or outside it when a new byte is due. -/
structure Ready (s : B) : Prop where
  good : Good s.inp
  lo : -1 ≤ s.off

theorem held_cons {s : B} (h0 : 0 ≤ s.off) : held s = bit s :: held { s with off := s.off - 1 } := by
  unfold held bit
  simp only []
  rw [show (s.off + 1).toNat = s.off.toNat + 1 by omega, show (s.off - 1 + 1).toNat = s.off.toNat by omega,
    List.range_succ, List.reverse_append]
  rfl

theorem refill_ok {s : B} (h : Ready s) (hr : rest s ≠ []) :
    ∃ s', refill s = .ok (true, s') ∧ Ready s' ∧ 0 ≤ s'.off ∧ s'.off ≤ 7 ∧ rest s' = rest s ∧ s'.inp.data = s.inp.data := by
  have hlo := h.lo
  unfold refill
  by_cases hc : s.off < 0 ∨ s.off > 7
  · rw [if_pos hc]
    have hh : (if s.off ≤ 7 then held s else []) = [] := by
      split
      · have : s.off = -1 := by omega
        simp [held, this]
      · rfl
    have hrest : rest s = fileBits (s.inp.data.drop s.inp.pos) := by unfold rest; rw [hh]; rfl
    have hp : s.inp.pos < s.inp.data.length := by
      apply Nat.lt_of_not_le
      intro hle
      rw [hrest, List.drop_eq_nil_of_le hle] at hr
      exact hr rfl
    have hsz := h.good.size
    have hav : avail s.inp 1 1 = 1 := by unfold avail u32; omega
    rw [read_spec h.good, hav]
    rw [List.drop_eq_getElem_cons hp]
    simp only [bind_ok, List.take_succ_cons, pure_eq_ok]
    refine ⟨_, rfl, ⟨?_, by simp⟩, by simp, by simp, ?_, rfl⟩
    · have := h.good.read_good 1 1
      rwa [hav] at this
    · rw [hrest, List.drop_eq_getElem_cons hp]
      show (if (7 : Int) ≤ 7 then held _ else []) ++ fileBits (s.inp.data.drop (s.inp.pos + 1)) = _
      rw [if_pos (by decide)]
      rfl
  · rw [if_neg hc]
    exact ⟨s, rfl, h, by omega, by omega, rfl, rfl⟩

theorem breadLoop_ok (n : Nat) : ∀ (s : B) (acc : List Bool), Ready s → n ≤ (rest s).length →
    ∃ s', breadLoop n s acc = .ok (acc ++ (rest s).take n, s') ∧ Ready s' ∧ rest s' = (rest s).drop n ∧
      s'.inp.data = s.inp.data := by
  induction n with
  | zero => intro s acc h _; exact ⟨s, by simp [breadLoop], h, rfl, rfl⟩
  | succ n ih =>
    intro s acc h hn
    obtain ⟨s1, e1, r1, lo, hi, hr, hd⟩ := refill_ok h (by intro e; rw [e] at hn; simp at hn)
    have e : rest s = bit s1 :: rest { s1 with off := s1.off - 1 } := by
      rw [← hr]
      unfold rest
      simp only []
      rw [if_pos hi, if_pos (by omega), held_cons lo]
      rfl
    have hr2 : Ready { s1 with off := s1.off - 1 } := ⟨r1.good, by show -1 ≤ s1.off - 1; omega⟩
    obtain ⟨s2, e2, r2, hr3, hd2⟩ := ih { s1 with off := s1.off - 1 } (acc ++ [bit s1]) hr2
      (by rw [e] at hn; simp at hn; omega)
    refine ⟨s2, ?_, r2, ?_, hd2.trans hd⟩
    · unfold breadLoop
      rw [e1]
      simp only [bind_ok, if_true]
      rw [e2, e]
      simp
    · rw [hr3, e]; rfl

/-- A history of reads of one-bit items, as pairs `(Size, Number)`: everything delivered, in order. -/
def breads : List (Nat × Nat) → B → C (List Bool × B)
  | [], s => .ok ([], s)
  | (a, b) :: l, s => do
      let (x, s) ← bread a b s
      let (y, s) ← breads l s
      pure (x ++ y, s)

/-- How many bits a history asks for. -/
def asked (l : List (Nat × Nat)) : Nat := (l.map fun p => p.1 * p.2).sum

/-- **C37 (partial).** However the reads are grouped, as long as they do not ask for more than the file holds they
deliver the next bits of the file, most significant bit of each byte first, starting at the position where the bit file
was opened.  Missing: reads after the end of the file, `breadVal` and seeks (see the violations). -/
theorem C37_bits_in_order_partial (data : List UInt8) (start : Nat) (h0 : 0 < data.length) (hlt : data.length < 4294967295)
    (hs : start ≤ data.length) (l : List (Nat × Nat)) (hb : ∀ p ∈ l, p.1 * p.2 < 4294967296)
    (hl : asked l ≤ 8 * (data.length - start)) :
    ∃ s, breads l (bfile ⟨data, data.length, start⟩) = .ok ((fileBits (data.drop start)).take (asked l), s) := by
  have hlen : ∀ d : List UInt8, (fileBits d).length = 8 * d.length := by
    intro d
    induction d with
    | nil => rfl
    | cons b d ih => simp only [fileBits, List.flatMap_cons, List.length_append] at ih ⊢; rw [ih]; simp [byteBits]; omega
  suffices h : ∀ (l : List (Nat × Nat)) (s : B), Ready s → (∀ p ∈ l, p.1 * p.2 < 4294967296) → asked l ≤ (rest s).length →
      ∃ s', breads l s = .ok ((rest s).take (asked l), s') by
    have hr : rest (bfile ⟨data, data.length, start⟩) = fileBits (data.drop start) := by simp [rest, bfile]
    have := h l (bfile ⟨data, data.length, start⟩) ⟨⟨rfl, hs, hlt, h0⟩, by simp [bfile]⟩ hb
      (by rw [hr, hlen, List.length_drop]; exact hl)
    rwa [hr] at this
  clear hl hb
  intro l
  induction l with
  | nil => intro s _ _ _; exact ⟨s, by simp [breads, asked]⟩
  | cons p l ih =>
    intro s hr hb hl
    obtain ⟨a, b⟩ := p
    have ha : asked ((a, b) :: l) = a * b + asked l := by simp [asked]
    have hu : u32 (a * b) = a * b := u32_of_lt (hb (a, b) (by simp))
    obtain ⟨s1, e1, r1, hr1, _⟩ := breadLoop_ok (a * b) s [] hr (by omega)
    obtain ⟨s2, e2⟩ := ih s1 r1 (fun q hq => hb q (by simp [hq])) (by rw [hr1, List.length_drop]; omega)
    refine ⟨s2, ?_⟩
    simp only [breads, bread, hu, e1, bind_ok, e2, pure_eq_ok, List.nil_append]
    rw [hr1, ha, List.take_add]

example : (breads [(1, 3), (7, 1), (1, 1)] (bfile ⟨[9, 0xA5, 0xF0], 3, 1⟩)).toOption.map (·.1) =
    some [true, false, true, false, false, true, false, true, true, true, true] := by decide

/-- **C37 (grouping).** Reading `a` bits and then `b` bits is reading `a + b` bits, for every state of the reader in
which that many bits are left. -/
theorem C37_grouping (s : B) (h : Ready s) (a b : Nat) (hl : a + b ≤ (rest s).length) (h32 : a + b < 4294967296) :
    ∃ x y s1 s2 s3, bread 1 a s = .ok (x, s1) ∧ bread 1 b s1 = .ok (y, s2) ∧ bread 1 (a + b) s = .ok (x ++ y, s3) := by
  obtain ⟨s1, e1, r1, hr1, _⟩ := breadLoop_ok a s [] h (by omega)
  obtain ⟨s2, e2, r2, hr2, _⟩ := breadLoop_ok b s1 [] r1 (by rw [hr1, List.length_drop]; omega)
  obtain ⟨s3, e3, _⟩ := breadLoop_ok (a + b) s [] h hl
  refine ⟨(rest s).take a, (rest s1).take b, s1, s2, s3, ?_, ?_, ?_⟩
  · unfold bread; rw [Nat.one_mul, u32_of_lt (by omega), e1]; rfl
  · unfold bread; rw [Nat.one_mul, u32_of_lt (by omega), e2]; rfl
  · unfold bread; rw [Nat.one_mul, u32_of_lt (by omega), e3, hr1, List.take_add]; rfl

/-- C37 fails after the end of the file: a read that comes back empty-handed rewinds the current byte, and the next read
delivers its bits a second time. -/
theorem C37_violated_after_end : (breads [(1, 8), (1, 1), (1, 8)] (bfile ⟨[0xA5], 1, 0⟩)).toOption.map (·.1) =
    some ([true, false, true, false, false, true, false, true] ++ [] ++ [true, false, true, false, false, true, false, true]) := by
  decide

/-- C37 fails for `breadVal`: it returns the number of bits instead of their value (here the bits are 1010). -/
theorem C37_violated_value : (breadVal 4 (bfile ⟨[0xA5], 1, 0⟩)).toOption.map (·.1) = some 4 := by decide

/-- Read the whole file, seek to bit 0, read two bits. -/
def seekDemo : C (List Bool × B) := do
  let (_, s) ← bread 1 16 (bfile ⟨[0x80, 0x01], 2, 0⟩)
  let s ← bseekSet 0 s
  bread 1 2 s

/-- C37 fails after a seek: seeking to bit 0 and reading delivers bit 0 of the byte read before (the stale 0x01), and
then the first bit of the file; the first two bits of the file are 1 and 0. -/
theorem C37_violated_seek : seekDemo.toOption.map (·.1) = some [true, true] ∧
    (fileBits [0x80, 0x01]).take 2 = [true, false] := by decide

end DevIL.Bits
