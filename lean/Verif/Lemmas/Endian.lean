import Verif.Model.Endian
import Verif.Lemmas.Lump
import Mathlib.Tactic.IntervalCases
/-! Helper lemmas for the endian model. -/
set_option autoImplicit false
namespace DevIL.Endian

theorem swap16_bit (v : BitVec 16) (i : Nat) (h : i < 16) :
    (iSwapUShort v).getLsbD i = v.getLsbD ((1 - i / 8) * 8 + i % 8) := by
  unfold iSwapUShort
  interval_cases i <;> simp

theorem swap32_bit (v : BitVec 32) (i : Nat) (h : i < 32) :
    (iSwapUInt v).getLsbD i = v.getLsbD ((3 - i / 8) * 8 + i % 8) := by
  unfold iSwapUInt
  interval_cases i <;> simp

/-- Equal bits give equal bytes. -/
theorem byte_eq {n m : Nat} {v : BitVec n} {w : BitVec m} {a b : Nat}
    (h : ∀ i, i < 8 → v.getLsbD (a * 8 + i) = w.getLsbD (b * 8 + i)) :
    UInt8.ofNat (v.toNat / 256 ^ a) = UInt8.ofNat (w.toNat / 256 ^ b) := by
  apply UInt8.toNat_inj.mp
  simp only [UInt8.toNat_ofNat', show (256 : Nat) = 2 ^ 8 from rfl, ← Nat.pow_mul]
  apply Nat.eq_of_testBit_eq
  intro i
  simp only [Nat.testBit_mod_two_pow, Nat.testBit_div_two_pow]
  by_cases hi : i < 8
  · have := h i hi
    simp only [BitVec.getLsbD] at this
    rw [show i + 8 * a = a * 8 + i by omega, show i + 8 * b = b * 8 + i by omega]
    simp [hi, this]
  · simp [hi]

theorem leBytes_two (n : Nat) : leBytes 2 n = [UInt8.ofNat (n / 256 ^ 0), UInt8.ofNat (n / 256 ^ 1)] := by
  simp [leBytes]

theorem leBytes_four (n : Nat) : leBytes 4 n = [UInt8.ofNat (n / 256 ^ 0), UInt8.ofNat (n / 256 ^ 1),
    UInt8.ofNat (n / 256 ^ 2), UInt8.ofNat (n / 256 ^ 3)] := by
  simp [leBytes, Nat.div_div_eq_div_mul]

theorem swap16_bytes (v : BitVec 16) : leBytes 2 (iSwapUShort v).toNat = (leBytes 2 v.toNat).reverse := by
  rw [leBytes_two, leBytes_two]
  have h : ∀ a, a < 2 → UInt8.ofNat ((iSwapUShort v).toNat / 256 ^ a) = UInt8.ofNat (v.toNat / 256 ^ (1 - a)) := by
    intro a ha
    apply byte_eq
    intro i hi
    rw [swap16_bit v _ (by omega)]
    congr 1; omega
  rw [h 0 (by decide), h 1 (by decide)]
  rfl

theorem swap32_bytes (v : BitVec 32) : leBytes 4 (iSwapUInt v).toNat = (leBytes 4 v.toNat).reverse := by
  rw [leBytes_four, leBytes_four]
  have h : ∀ a, a < 4 → UInt8.ofNat ((iSwapUInt v).toNat / 256 ^ a) = UInt8.ofNat (v.toNat / 256 ^ (3 - a)) := by
    intro a ha
    apply byte_eq
    intro i hi
    rw [swap32_bit v _ (by omega)]
    congr 1; omega
  rw [h 0 (by decide), h 1 (by decide), h 2 (by decide), h 3 (by decide)]
  rfl

theorem swap16_swap (v : BitVec 16) : iSwapUShort (iSwapUShort v) = v := by
  apply BitVec.eq_of_getLsbD_eq
  intro i hi
  rw [swap16_bit _ i hi, swap16_bit _ _ (by omega)]
  congr 1; omega

theorem swap32_swap (v : BitVec 32) : iSwapUInt (iSwapUInt v) = v := by
  apply BitVec.eq_of_getLsbD_eq
  intro i hi
  rw [swap32_bit _ i hi, swap32_bit _ _ (by omega)]
  congr 1; omega

/-- Reading an object that is completely there. -/
theorem readObj_ok {junk : Nat → UInt8} {l : Lump.R} {bs rest : List UInt8} {k : Nat} (h : Lump.Good l)
    (hk : bs.length = k) (hd : l.data.drop l.pos = bs ++ rest) :
    readObj junk l k = .ok (bs, { l with pos := l.pos + k }) := by
  have hlen : l.data.length - l.pos = k + rest.length := by
    rw [← List.length_drop, hd, List.length_append, hk]
  have hs := h.size; have hp := h.pos; have hlt := h.lt
  have hav : Lump.avail l k 1 = k := by
    unfold Lump.avail
    rw [Nat.mul_one, u32_of_lt (by omega)]; omega
  unfold readObj
  rw [Lump.read_spec h, hav, hd]
  simp only [bind_ok, pure_eq_ok]
  congr 2
  apply List.ext_getElem?
  intro i
  by_cases hi : i < k
  · simp [hi, List.getElem?_take, List.getElem?_append_left (by omega : i < bs.length), List.getElem?_eq_getElem (by omega : i < bs.length)]
  · simp [hi]; omega

end DevIL.Endian
