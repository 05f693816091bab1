import Verif.Lemmas.Endian
/-! C36: the endian helpers. -/
set_option autoImplicit false
namespace DevIL.Endian

/-- **C36 (what is saved).** On either kind of host the little-endian save functions emit the bytes of the value, least
significant first, and the big-endian ones emit them most significant first. -/
theorem C36_saved_bytes (big : Bool) (s : BitVec 16) (i : BitVec 32) :
    SaveLittleUShort big s = leBytes 2 s.toNat ∧ SaveBigUShort big s = (leBytes 2 s.toNat).reverse ∧
    SaveLittleUInt big i = leBytes 4 i.toNat ∧ SaveBigUInt big i = (leBytes 4 i.toNat).reverse := by
  unfold SaveLittleUShort SaveBigUShort SaveLittleUInt SaveBigUInt objBytes
  cases big <;> simp [swap16_bytes, swap32_bytes]

example : SaveLittleUInt true 0x01020304#32 = [4, 3, 2, 1] ∧ SaveBigUShort false 0x0102#16 = [1, 2] := by decide

theorem ofNat_leVal16 (s : BitVec 16) : BitVec.ofNat 16 (leVal (leBytes 2 s.toNat)) = s := by
  rw [leVal_leBytes 2 _ s.isLt]; simp

theorem ofNat_leVal32 (s : BitVec 32) : BitVec.ofNat 32 (leVal (leBytes 4 s.toNat)) = s := by
  rw [leVal_leBytes 4 _ s.isLt]; simp

/-- **C36 (round trip).** A 16- or 32-bit value saved by a host of one kind is read back by the matching function on a
host of the same or the other kind, whatever surrounds it in the file, and exactly its bytes are consumed. -/
theorem C36_round_trip (big big' : Bool) (junk : Nat → UInt8) (pre rest : List UInt8) (s : BitVec 16) (i : BitVec 32)
    (hl : pre.length + 4 + rest.length < 4294967295) :
    (let data := pre ++ (SaveLittleUShort big s ++ rest);
      GetLittleUShort big' junk ⟨data, data.length, pre.length⟩ = .ok (s, ⟨data, data.length, pre.length + 2⟩)) ∧
    (let data := pre ++ (SaveBigUShort big s ++ rest);
      GetBigUShort big' junk ⟨data, data.length, pre.length⟩ = .ok (s, ⟨data, data.length, pre.length + 2⟩)) ∧
    (let data := pre ++ (SaveLittleUInt big i ++ rest);
      GetLittleUInt big' junk ⟨data, data.length, pre.length⟩ = .ok (i, ⟨data, data.length, pre.length + 4⟩)) ∧
    (let data := pre ++ (SaveBigUInt big i ++ rest);
      GetBigUInt big' junk ⟨data, data.length, pre.length⟩ = .ok (i, ⟨data, data.length, pre.length + 4⟩)) := by
  have key : ∀ (bs : List UInt8) (k : Nat), bs.length = k → 0 < k → k ≤ 4 →
      readObj junk ⟨pre ++ (bs ++ rest), (pre ++ (bs ++ rest)).length, pre.length⟩ k =
        .ok (bs, ⟨pre ++ (bs ++ rest), (pre ++ (bs ++ rest)).length, pre.length + k⟩) := by
    intro bs k hk h0 h4
    apply readObj_ok (bs := bs) (rest := rest)
    · exact ⟨rfl, by simp, by simp; omega, by simp; omega⟩
    · exact hk
    · simp
  obtain ⟨e1, e2, e3, e4⟩ := C36_saved_bytes big s i
  simp only []
  rw [e1, e2, e3, e4]
  refine ⟨?_, ?_, ?_, ?_⟩
  · unfold GetLittleUShort
    rw [key _ 2 (by simp) (by decide) (by decide)]
    simp only [bind_ok, pure_eq_ok, objVal]
    congr 2
    cases big'
    · simp [ofNat_leVal16]
    · simp only [if_true]
      rw [← swap16_bytes, ofNat_leVal16, swap16_swap]
  · unfold GetBigUShort
    rw [key _ 2 (by simp) (by decide) (by decide)]
    simp only [bind_ok, pure_eq_ok, objVal]
    congr 2
    cases big'
    · simp only [Bool.false_eq_true, if_false]
      rw [← swap16_bytes, ofNat_leVal16, swap16_swap]
    · simp [ofNat_leVal16]
  · unfold GetLittleUInt
    rw [key _ 4 (by simp) (by decide) (by decide)]
    simp only [bind_ok, pure_eq_ok, objVal]
    congr 2
    cases big'
    · simp [ofNat_leVal32]
    · simp only [if_true]
      rw [← swap32_bytes, ofNat_leVal32, swap32_swap]
  · unfold GetBigUInt
    rw [key _ 4 (by simp) (by decide) (by decide)]
    simp only [bind_ok, pure_eq_ok, objVal]
    congr 2
    cases big'
    · simp only [Bool.false_eq_true, if_false]
      rw [← swap32_bytes, ofNat_leVal32, swap32_swap]
    · simp [ofNat_leVal32]

/-- **C36 (swaps).** The 16- and 32-bit in-place swaps reverse the bytes and undo themselves.
Missing: the 64-bit swap, which loses half of its argument (see the violation). -/
theorem C36_swap_partial (s : BitVec 16) (i : BitVec 32) :
    leBytes 2 (iSwapUShort s).toNat = (leBytes 2 s.toNat).reverse ∧ iSwapUShort (iSwapUShort s) = s ∧
    leBytes 4 (iSwapUInt i).toNat = (leBytes 4 i.toNat).reverse ∧ iSwapUInt (iSwapUInt i) = i :=
  ⟨swap16_bytes s, swap16_swap s, swap32_bytes i, swap32_swap i⟩

example : iSwapUInt 0x11223344#32 = 0x44332211#32 := by decide

/-- C36 fails for doubles: the swap neither reverses the bytes nor undoes itself; it overwrites one half with the mirror
image of the other. -/
theorem C36_violated_double : iSwapDouble [1, 2, 3, 4, 5, 6, 7, 8] = .ok [8, 7, 6, 5, 5, 6, 7, 8] := by decide

/-- Whatever the double, its first four bytes are lost. -/
theorem C36_violated_double_always (a b c d e f g h : UInt8) :
    iSwapDouble [a, b, c, d, e, f, g, h] = .ok [h, g, f, e, e, f, g, h] := by
  simp [iSwapDouble, dswap, rd, wr]

end DevIL.Endian
