import Verif.Lemmas.Endian
import Verif.Hoare
/-! Reading a lump whose remaining bytes are known: `At l bs` says that `bs` is what is left to read. -/
set_option autoImplicit false
namespace DevIL.Lump
open DevIL.Endian

/-- The lump is well-formed and `bs` is what remains to be read. -/
def At (l : R) (bs : List UInt8) : Prop := Good l ∧ l.data.drop l.pos = bs

/-- The lump `n` bytes further on. -/
def adv (l : R) (n : Nat) : R := { l with pos := l.pos + n }

@[simp] theorem adv_zero (l : R) : adv l 0 = l := rfl
@[simp] theorem adv_adv (l : R) (a b : Nat) : adv (adv l a) b = adv l (a + b) := by simp [adv, Nat.add_assoc]
@[simp] theorem adv_data (l : R) (a : Nat) : (adv l a).data = l.data := rfl
@[simp] theorem adv_size (l : R) (a : Nat) : (adv l a).size = l.size := rfl
@[simp] theorem adv_pos (l : R) (a : Nat) : (adv l a).pos = l.pos + a := rfl

theorem At.len {l : R} {bs : List UInt8} (h : At l bs) : l.size - l.pos = bs.length := by
  rw [h.1.size, ← List.length_drop, h.2]

theorem At.good {l : R} {bs : List UInt8} (h : At l bs) : Good l := h.1

theorem At.adv {l : R} {bs rest : List UInt8} (h : At l (bs ++ rest)) : At (adv l bs.length) rest := by
  have hl := h.len
  have hp := h.1.pos
  rw [List.length_append] at hl
  refine ⟨⟨h.1.size, by show l.pos + bs.length ≤ l.size; omega, h.1.lt, h.1.ne⟩, ?_⟩
  show l.data.drop (l.pos + bs.length) = rest
  rw [← List.drop_drop, h.2]; simp

theorem At.adv_cons {l : R} {b : UInt8} {rest : List UInt8} (h : At l (b :: rest)) : At (Lump.adv l 1) rest :=
  At.adv (bs := [b]) h

theorem at_open {data : List UInt8} (h0 : 0 < data.length) (hlt : data.length < 4294967295) :
    At (open_ data data.length) data := ⟨⟨rfl, Nat.zero_le _, hlt, h0⟩, rfl⟩

theorem At.avail {l : R} {bs rest : List UInt8} {size number : Nat} (h : At l (bs ++ rest)) (hn : bs.length = size * number) :
    avail l size number = size * number := by
  have hl := h.len
  have hlt := h.1.lt
  rw [List.length_append] at hl
  unfold Lump.avail
  rw [u32_of_lt (by omega)]
  omega

/-- A read of bytes that are there. -/
theorem At.read {l : R} {bs rest : List UInt8} {size number : Nat} (h : At l (bs ++ rest)) (hn : bs.length = size * number)
    (hs : 0 < size) : read l size number = .ok (⟨bs, number, false⟩, Lump.adv l bs.length) := by
  rw [read_spec h.1, h.avail hn, h.2, if_pos (by omega), Nat.mul_div_cancel_left _ hs, hn]
  have : (bs ++ rest).take (size * number) = bs := by rw [← hn]; simp
  rw [this]
  simp [Lump.adv]

theorem At.readAt {l : R} {bs rest dst : List UInt8} {off size number : Nat} (h : At l (bs ++ rest))
    (hn : bs.length = size * number) (hs : 0 < size) (hd : off + bs.length ≤ dst.length) :
    readAt l dst off size number =
      .ok (number, dst.take off ++ (bs ++ dst.drop (off + bs.length)), Lump.adv l bs.length) := by
  unfold Lump.readAt
  rw [h.read hn hs]
  simp only [bind_ok]
  rw [if_pos hd]
  rfl

theorem At.getc {l : R} {b : UInt8} {rest : List UInt8} (h : At l (b :: rest)) :
    getc l = .ok (some b, Lump.adv l 1) := by
  have hl := h.len
  simp only [List.length_cons] at hl
  obtain ⟨c, hc, e⟩ := getc_spec h.1 (by omega)
  have : l.data[l.pos]? = some b := by
    have := congrArg (fun x : List UInt8 => x[0]?) h.2
    simpa using this
  rw [this] at hc
  cases hc
  exact e

theorem At.getb {l : R} {b : UInt8} {rest : List UInt8} (h : At l (b :: rest)) :
    getb l = .ok (b, Lump.adv l 1) := by
  unfold Lump.getb
  rw [h.getc]; rfl

theorem At.getLittleUShort {l : R} {s : BitVec 16} {rest : List UInt8} {big : Bool} {junk : Nat → UInt8}
    (h : At l (leBytes 2 s.toNat ++ rest)) : GetLittleUShort big junk l = .ok (s, Lump.adv l 2) := by
  unfold GetLittleUShort
  rw [readObj_ok h.1 (by simp) h.2]
  simp only [bind_ok, pure_eq_ok, objVal]
  congr 2
  have e : BitVec.ofNat 16 (leVal (leBytes 2 s.toNat)) = s := by rw [leVal_leBytes 2 _ s.isLt]; simp
  cases big
  · simpa using e
  · simp only [if_true]
    rw [← swap16_bytes, leVal_leBytes 2 _ (iSwapUShort s).isLt]
    simp [swap16_swap]

theorem At.getLittleUInt {l : R} {s : BitVec 32} {rest : List UInt8} {big : Bool} {junk : Nat → UInt8}
    (h : At l (leBytes 4 s.toNat ++ rest)) : GetLittleUInt big junk l = .ok (s, Lump.adv l 4) := by
  unfold GetLittleUInt
  rw [readObj_ok h.1 (by simp) h.2]
  simp only [bind_ok, pure_eq_ok, objVal]
  congr 2
  have e : BitVec.ofNat 32 (leVal (leBytes 4 s.toNat)) = s := by rw [leVal_leBytes 4 _ s.isLt]; simp
  cases big
  · simpa using e
  · simp only [if_true]
    rw [← swap32_bytes, leVal_leBytes 4 _ (iSwapUInt s).isLt]
    simp [swap32_swap]

/-- The bytes `SaveLittleUShort` emits, on either host. -/
theorem saveLittleUShort_eq (big : Bool) (s : BitVec 16) : SaveLittleUShort big s = leBytes 2 s.toNat := by
  unfold SaveLittleUShort objBytes
  cases big <;> simp [swap16_bytes]

/-- The bytes `SaveLittleUInt` emits, on either host. -/
theorem saveLittleUInt_eq (big : Bool) (s : BitVec 32) : SaveLittleUInt big s = leBytes 4 s.toNat := by
  unfold SaveLittleUInt objBytes
  cases big <;> simp [swap32_bytes]

/-! ### Any input -/

/-- A step on a good lump ends with a good lump over the same bytes. -/
def Keeps {α : Type} (c : C (α × R)) (l : R) : Prop := ∃ a l', c = .ok (a, l') ∧ Good l' ∧ l'.data = l.data

theorem keeps_read {l : R} (h : Good l) (size number : Nat) :
    ∃ g, read l size number = .ok (g, adv l (avail l size number)) ∧ g.bytes.length = avail l size number ∧
      Good (adv l (avail l size number)) := by
  refine ⟨?_, ?_, ?_, h.read_good size number⟩
  rotate_left
  · rw [read_spec h]; rfl
  · have := h.pos
    have := h.size
    simp only [List.length_take, List.length_drop]
    unfold avail
    omega

theorem keeps_getb {l : R} (h : Good l) : Keeps (getb l) l := by
  unfold getb
  by_cases hp : l.pos < l.size
  · obtain ⟨b, _, e⟩ := getc_spec h hp
    rw [e]
    exact ⟨b, { l with pos := l.pos + 1 }, rfl, ⟨h.size, hp, h.lt, h.ne⟩, rfl⟩
  · have := h.pos
    rw [getc_end h (by omega)]
    exact ⟨255, { l with pos := l.size - 1 }, rfl, ⟨h.size, Nat.sub_le _ _, h.lt, h.ne⟩, rfl⟩

theorem keeps_readObj {l : R} {junk : Nat → UInt8} (h : Good l) (k : Nat) : Keeps (readObj junk l k) l := by
  obtain ⟨g, e, _, hg⟩ := keeps_read h k 1
  unfold readObj
  rw [e]
  exact ⟨_, _, rfl, hg, rfl⟩

theorem keeps_getLittleUInt {l : R} {big : Bool} {junk : Nat → UInt8} (h : Good l) : Keeps (GetLittleUInt big junk l) l := by
  obtain ⟨a, l', e, hg, hd⟩ := keeps_readObj (junk := junk) h 4
  unfold GetLittleUInt
  rw [e]
  exact ⟨_, l', rfl, hg, hd⟩

theorem keeps_getLittleUShort {l : R} {big : Bool} {junk : Nat → UInt8} (h : Good l) : Keeps (GetLittleUShort big junk l) l := by
  obtain ⟨a, l', e, hg, hd⟩ := keeps_readObj (junk := junk) h 2
  unfold GetLittleUShort
  rw [e]
  exact ⟨_, l', rfl, hg, hd⟩

theorem keeps_getBigUShort {l : R} {big : Bool} {junk : Nat → UInt8} (h : Good l) : Keeps (GetBigUShort big junk l) l := by
  obtain ⟨a, l', e, hg, hd⟩ := keeps_readObj (junk := junk) h 2
  unfold GetBigUShort
  rw [e]
  exact ⟨_, l', rfl, hg, hd⟩

theorem keeps_readAt {l : R} {dst : List UInt8} {off size number : Nat} (h : Good l)
    (hd : off + u32 (size * number) ≤ dst.length) :
    ∃ n d' l', readAt l dst off size number = .ok (n, d', l') ∧ Good l' ∧ l'.data = l.data ∧ d'.length = dst.length := by
  obtain ⟨g, e, hg, hl⟩ := keeps_read h size number
  have : avail l size number ≤ u32 (size * number) := by unfold avail; omega
  refine ⟨g.ret, dst.take off ++ (g.bytes ++ dst.drop (off + g.bytes.length)), adv l (avail l size number), ?_, hl, rfl, ?_⟩
  · unfold readAt
    rw [e]
    simp only [bind_ok]
    rw [if_pos (by omega)]
    rfl
  · simp only [List.length_append, List.length_take, List.length_drop]
    omega

/-! ### The same as `Holds` statements -/

theorem holds_getb {l : R} (h : Good l) : Holds (getb l) (fun r => Good r.2 ∧ r.2.data = l.data) := by
  obtain ⟨a, l', e, g⟩ := keeps_getb h
  exact ⟨(a, l'), e, g⟩

theorem holds_getLittleUInt {l : R} {big : Bool} {junk : Nat → UInt8} (h : Good l) :
    Holds (GetLittleUInt big junk l) (fun r => Good r.2 ∧ r.2.data = l.data) := by
  obtain ⟨a, l', e, g⟩ := keeps_getLittleUInt (big := big) (junk := junk) h
  exact ⟨(a, l'), e, g⟩

theorem holds_getLittleUShort {l : R} {big : Bool} {junk : Nat → UInt8} (h : Good l) :
    Holds (GetLittleUShort big junk l) (fun r => Good r.2 ∧ r.2.data = l.data) := by
  obtain ⟨a, l', e, g⟩ := keeps_getLittleUShort (big := big) (junk := junk) h
  exact ⟨(a, l'), e, g⟩

theorem holds_getBigUShort {l : R} {big : Bool} {junk : Nat → UInt8} (h : Good l) :
    Holds (GetBigUShort big junk l) (fun r => Good r.2 ∧ r.2.data = l.data) := by
  obtain ⟨a, l', e, g⟩ := keeps_getBigUShort (big := big) (junk := junk) h
  exact ⟨(a, l'), e, g⟩

theorem holds_readAt {l : R} {dst : List UInt8} {off size number : Nat} (h : Good l)
    (hd : off + u32 (size * number) ≤ dst.length) :
    Holds (readAt l dst off size number) (fun r => Good r.2.2 ∧ r.2.2.data = l.data ∧ r.2.1.length = dst.length) := by
  obtain ⟨n, d', l', e, g⟩ := keeps_readAt h hd
  exact ⟨(n, d', l'), e, g⟩

end DevIL.Lump
