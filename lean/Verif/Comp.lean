import Verif.Core
/-!
The two views of a pixel buffer: bytes, and little-endian components of `k` bytes.  Used to run the component-level models
on byte-level images.  Nothing in this file models a particular DevIL function.
-/
set_option autoImplicit false
namespace DevIL

/-- The number with the given little-endian bytes. -/
def leVal : List UInt8 → Nat
  | [] => 0
  | b :: l => b.toNat + 256 * leVal l

/-- The `k` low little-endian bytes of a number. -/
def leBytes : Nat → Nat → List UInt8
  | 0, _ => []
  | k + 1, v => UInt8.ofNat v :: leBytes k (v / 256)

@[simp] theorem leBytes_length : ∀ (k v : Nat), (leBytes k v).length = k
  | 0, _ => rfl
  | k + 1, v => by simp [leBytes, leBytes_length k]

theorem leVal_lt : ∀ (l : List UInt8), leVal l < 256 ^ l.length
  | [] => by simp [leVal]
  | b :: l => by
    have h := leVal_lt l
    have hb := b.toNat_lt
    simp only [leVal, List.length_cons, Nat.pow_succ]
    omega

theorem leVal_leBytes : ∀ (k v : Nat), v < 256 ^ k → leVal (leBytes k v) = v
  | 0, v, h => by simp [leBytes, leVal] at *; omega
  | k + 1, v, h => by
    have h' : v / 256 < 256 ^ k := by
      rw [Nat.pow_succ] at h
      exact Nat.div_lt_of_lt_mul (by omega)
    simp only [leBytes, leVal, leVal_leBytes k _ h']
    have : (UInt8.ofNat v).toNat = v % 256 := by simp
    omega

theorem leBytes_leVal : ∀ (l : List UInt8), leBytes l.length (leVal l) = l
  | [] => rfl
  | b :: l => by
    have hb := b.toNat_lt
    simp only [List.length_cons, leBytes, leVal]
    rw [show (b.toNat + 256 * leVal l) / 256 = leVal l by omega, leBytes_leVal l]
    congr 1
    apply UInt8.toNat_inj.mp
    simp

/-- The components of `k` bytes of a buffer. -/
def comps (k : Nat) (d : List UInt8) : List Nat := (List.range (d.length / k)).map fun i => leVal ((d.drop (i * k)).take k)

/-- The buffer holding the given components of `k` bytes. -/
def bytesOf (k : Nat) (cs : List Nat) : List UInt8 := cs.flatMap (leBytes k)

@[simp] theorem comps_length (k : Nat) (d : List UInt8) : (comps k d).length = d.length / k := by simp [comps]

@[simp] theorem bytesOf_length (k : Nat) (cs : List Nat) : (bytesOf k cs).length = cs.length * k := by
  induction cs with
  | nil => simp [bytesOf]
  | cons c cs ih =>
    simp only [bytesOf, List.flatMap_cons, List.length_append, leBytes_length] at *
    rw [ih, List.length_cons, Nat.add_mul]; omega

theorem bytesOf_cons (k c : Nat) (cs : List Nat) : bytesOf k (c :: cs) = leBytes k c ++ bytesOf k cs := by
  simp [bytesOf]

theorem bytesOf_append (k : Nat) (as cs : List Nat) : bytesOf k (as ++ cs) = bytesOf k as ++ bytesOf k cs := by
  simp [bytesOf]

/-- The bytes of component `i`. -/
theorem bytesOf_slice {k i c : Nat} {cs : List Nat} (h : cs[i]? = some c) :
    ((bytesOf k cs).drop (i * k)).take k = leBytes k c := by
  induction cs generalizing i with
  | nil => simp at h
  | cons a cs ih =>
    rw [bytesOf_cons]
    cases i with
    | zero =>
      simp only [List.getElem?_cons_zero, Option.some.injEq] at h
      subst h
      simp
    | succ i =>
      rw [List.getElem?_cons_succ] at h
      rw [show (i + 1) * k = k + i * k by rw [Nat.add_mul]; omega, ← List.drop_drop,
        List.drop_left' (by simp), ih h]

theorem comps_get {k i : Nat} {d : List UInt8} (h : i < d.length / k) :
    (comps k d)[i]? = some (leVal ((d.drop (i * k)).take k)) := by simp [comps, h]

theorem comps_bytesOf {k : Nat} {cs : List Nat} (hk : 0 < k) (h : ∀ v ∈ cs, v < 256 ^ k) : comps k (bytesOf k cs) = cs := by
  apply List.ext_getElem?
  intro i
  by_cases hi : i < cs.length
  · rw [comps_get (by rw [bytesOf_length, Nat.mul_div_cancel _ hk]; exact hi), List.getElem?_eq_getElem hi,
      bytesOf_slice (List.getElem?_eq_getElem hi), leVal_leBytes _ _ (h _ (List.getElem_mem hi))]
  · rw [List.getElem?_eq_none (by rw [comps_length, bytesOf_length, Nat.mul_div_cancel _ hk]; omega),
      List.getElem?_eq_none (by omega)]

theorem comps_lt {k v : Nat} {d : List UInt8} (h : v ∈ comps k d) : v < 256 ^ k := by
  simp only [comps, List.mem_map, List.mem_range] at h
  obtain ⟨i, hi, rfl⟩ := h
  refine Nat.lt_of_lt_of_le (leVal_lt _) (Nat.pow_le_pow_right (by omega) ?_)
  simp
  omega

/-- Byte `b` of component `i`. -/
theorem bytesOf_get {k i b c : Nat} {cs : List Nat} (h : cs[i]? = some c) (hb : b < k) :
    (bytesOf k cs)[i * k + b]? = (leBytes k c)[b]? := by
  rw [← bytesOf_slice h, List.getElem?_take, if_pos hb, List.getElem?_drop]

theorem bytesOf_comps {k : Nat} {d : List UInt8} (hk : 0 < k) (h : d.length % k = 0) : bytesOf k (comps k d) = d := by
  have hl : d.length / k * k = d.length := Nat.div_mul_cancel (Nat.dvd_of_mod_eq_zero h)
  apply List.ext_getElem?
  intro j
  by_cases hj : j < d.length
  · have h1 : j / k < d.length / k := by
      rw [Nat.div_lt_iff_lt_mul hk]; omega
    have e := Nat.div_add_mod' j k
    have hb := Nat.mod_lt j hk
    have h2 : j / k * k + k ≤ d.length := by
      have := Nat.mul_le_mul_right k (show j / k + 1 ≤ d.length / k from h1)
      rw [Nat.add_mul] at this; omega
    have hlen : ((d.drop (j / k * k)).take k).length = k := by simp; omega
    conv => lhs; rw [← e]
    rw [bytesOf_get (comps_get h1) hb]
    have := leBytes_leVal ((d.drop (j / k * k)).take k)
    rw [hlen] at this
    rw [this, List.getElem?_take, if_pos hb, List.getElem?_drop, e]
  · rw [List.getElem?_eq_none (by simp; omega), List.getElem?_eq_none (by omega)]

end DevIL
