import Verif.Lemmas.DpxB
set_option autoImplicit false
namespace DevIL.Dpx
open DevIL.Games DevIL.Detect DevIL.Image DevIL.DetectSpec DevIL.DpxSpec
open DevIL.Lump (SEEK_SET)

variable {σ : Type} {o : Ops σ} {At : σ → List UInt8 → Nat → Prop}

/-! ### Ten bits -/

theorem put16_spec (d : List UInt8) (i v : Nat) (h : 2 * i + 1 < d.length) :
    Holds (put16 d i v) (fun r => r.length = d.length ∧ r[2 * i]? = some (byteOf v 0) ∧ r[2 * i + 1]? = some (byteOf v 1) ∧
      ∀ j, j ≠ 2 * i → j ≠ 2 * i + 1 → r[j]? = d[j]?) := by
  unfold put16
  rw [wr_of_lt (by omega), bind_ok, wr_of_lt (by rw [List.length_set]; omega)]
  refine ⟨_, rfl, by simp, ?_, ?_, ?_⟩
  · rw [List.getElem?_set_ne (by omega), List.getElem?_set_self (by omega)]
    simp [byteOf]
  · rw [List.getElem?_set_self (by rw [List.length_set]; omega)]
    simp [byteOf]
  · intro j h1 h2
    rw [List.getElem?_set_ne (by omega), List.getElem?_set_ne (by omega)]

/-- The first values of the block are these; it has a length. -/
def Filled (len : Nat) (val : Nat → Nat) (n : Nat) (d : List UInt8) : Prop :=
  d.length = len ∧ ∀ q, q < n → d[2 * q]? = some (byteOf (val q) 0) ∧ d[2 * q + 1]? = some (byteOf (val q) 1)

theorem Filled.put {len : Nat} {val : Nat → Nat} {n : Nat} {d : List UInt8} (h : Filled len val n d) (hn : 2 * n + 1 < len) :
    Holds (put16 d n (val n)) (fun r => Filled len val (n + 1) r) := by
  refine (put16_spec d n (val n) (by rw [h.1]; exact hn)).mono (fun r hr => ?_)
  obtain ⟨h1, h2, h3, h4⟩ := hr
  refine ⟨by rw [h1, h.1], fun q hq => ?_⟩
  by_cases e : q = n
  · subst e; exact ⟨h2, h3⟩
  · rw [h4 _ (by omega) (by omega), h4 _ (by omega) (by omega)]
    exact h.2 q (by omega)

theorem step_spec (L : Laws2 o At) {s : σ} {bs a d : List UInt8} {p len n k i : Nat} {fill val : Nat → Nat} (hs : At s bs p) (hn : 0 < n) (hn8 : n ≤ 8) (hfit : p + n ≤ bs.length)
    (ha : a.length = 8) (hd : Filled len val i d) (hi : 2 * (i + k) ≤ len)
    (hv : ∀ r : List UInt8, (∀ j, j < n → r[j]? = bs[p + j]?) → ∀ j, j < k → val (i + j) = fill (tens r j)) :
    Holds (tenStep o n k fill i (d, a, s)) (fun r => Filled len val (i + k) r.1 ∧ r.2.1.length = 8 ∧ At r.2.2 bs (p + n)) := by
  unfold tenStep
  have e8 : (at_ bs p n).length = n := by rw [at_length]; omega
  refine (into_spec L a 1 n hs (by decide) (by omega) (by omega)).bind (fun r hr => ?_)
  obtain ⟨x, b, t⟩ := r
  obtain ⟨-, h2, h3⟩ := hr
  simp only [Nat.one_mul] at h2 h3 ⊢
  rw [e8] at h2 h3
  have hb : ∀ j, j < n → b[j]? = bs[p + j]? := by
    intro j hj
    rw [h2, List.getElem?_append_left (by rw [e8]; exact hj), get_at _ _ _ _ hj]
  have hbl : b.length = 8 := by rw [h2, List.length_append, e8, List.length_drop, ha]; omega
  refine (Holds.loop (fun j (d : List UInt8) => Filled len val (i + j) d) (n := k) (s := d) hd (fun j u hj hu => ?_)).bind (fun d' hd' => Holds.pure ⟨hd', hbl, h3⟩)
  have := hu.put (by omega)
  rw [hv b hb j hj] at this
  exact this

theorem loop_spec (L : Laws2 o At) (junk : Nat → UInt8) {s : σ} {bs : List UInt8} {off n k count : Nat} {fill val : Nat → Nat} (m : Img) (hs : At s bs off) (hn : 0 < n) (hn8 : n ≤ 8) (hk : 0 < k)
    (hfit : off + count * n ≤ bs.length) (hm : m.size = 2 * (count * k)) (hd : m.data.length = m.size)
    (hv : ∀ i, i < count → ∀ r : List UInt8, (∀ j, j < n → r[j]? = bs[off + i * n + j]?) → ∀ j, j < k → val (i * k + j) = fill (tens r j)) :
    Holds (tenLoop o junk n k fill m s) (fun r => r.1 = true ∧ (∃ q, At r.2.2 bs q) ∧ ∃ d, r.2.1 = ({ m with data := d }, none) ∧ Filled m.size val (count * k) d) := by
  unfold tenLoop
  rw [show m.size / 2 = count * k by omega, forStep_mul hk]
  refine (Holds.loop (fun i (t : List UInt8 × List UInt8 × σ) => Filled m.size val (i * k) t.1 ∧ t.2.1.length = 8 ∧ At t.2.2 bs (off + i * n)) (n := count)
    (s := (m.data, alloc junk 8, s)) ⟨⟨hd, fun q hq => by omega⟩, alloc_length _ _, by simpa using hs⟩ (fun i t hi ht => ?_)).bind
    (fun r hr => Holds.pure ⟨rfl, ⟨_, hr.2.2⟩, _, rfl, hr.1⟩)
  obtain ⟨h1, h2, h3⟩ := ht
  obtain ⟨d, a, u⟩ := t
  have q1 : i * n + n ≤ count * n := by rw [← Nat.succ_mul]; exact Nat.mul_le_mul_right n hi
  have q2 : i * k + k ≤ count * k := by rw [← Nat.succ_mul]; exact Nat.mul_le_mul_right k hi
  have := step_spec L h3 hn hn8 (by omega) h2 h1 (by rw [hm]; omega) (hv i hi)
  rw [Nat.succ_mul, Nat.succ_mul, ← Nat.add_assoc off]
  exact this

/-- Where the input has ended the array keeps its bytes. -/
theorem step_end (L : Laws2 o At) {s : σ} {bs a d : List UInt8} {len n k i : Nat} {fill val : Nat → Nat} (hs : At s bs bs.length) (hn8 : n ≤ 8)
    (ha : a.length = 8) (hd : Filled len val i d) (hi : 2 * (i + k) ≤ len) (hv : ∀ j, j < k → val (i + j) = fill (tens a j)) :
    Holds (tenStep o n k fill i (d, a, s)) (fun r => Filled len val (i + k) r.1 ∧ r.2.1 = a ∧ At r.2.2 bs bs.length) := by
  unfold tenStep
  have e8 : at_ bs bs.length (1 * n) = [] := List.length_eq_zero_iff.mp (by rw [at_length]; omega)
  refine (into_spec L a 1 n hs (by decide) (by omega) (by omega)).bind (fun r hr => ?_)
  obtain ⟨x, b, t⟩ := r
  obtain ⟨-, h2, h3⟩ := hr
  simp only [e8, List.length_nil, List.drop_zero, List.nil_append, Nat.add_zero] at h2 h3 ⊢
  subst h2
  refine (Holds.loop (fun j (d : List UInt8) => Filled len val (i + j) d) (n := k) (s := d) hd (fun j u hj hu => ?_)).bind (fun d' hd' => Holds.pure ⟨hd', rfl, h3⟩)
  have := hu.put (by omega)
  rw [hv j hj] at this
  exact this

theorem loop_end (L : Laws2 o At) (junk : Nat → UInt8) {s : σ} {bs : List UInt8} {n k count : Nat} {fill val : Nat → Nat} (m : Img) (hs : At s bs bs.length) (hn8 : n ≤ 8) (hk : 0 < k)
    (hm : m.size = 2 * (count * k)) (hd : m.data.length = m.size)
    (hv : ∀ i, i < count → ∀ j, j < k → val (i * k + j) = fill (tens (alloc junk 8) j)) :
    Holds (tenLoop o junk n k fill m s) (fun r => r.1 = true ∧ (∃ q, At r.2.2 bs q) ∧ ∃ d, r.2.1 = ({ m with data := d }, none) ∧ Filled m.size val (count * k) d) := by
  unfold tenLoop
  rw [show m.size / 2 = count * k by omega, forStep_mul hk]
  refine (Holds.loop (fun i (t : List UInt8 × List UInt8 × σ) => Filled m.size val (i * k) t.1 ∧ t.2.1 = alloc junk 8 ∧ At t.2.2 bs bs.length) (n := count)
    (s := (m.data, alloc junk 8, s)) ⟨⟨hd, fun q hq => by omega⟩, rfl, hs⟩ (fun i t hi ht => ?_)).bind
    (fun r hr => Holds.pure ⟨rfl, ⟨_, hr.2.2⟩, _, rfl, hr.1⟩)
  obtain ⟨h1, h2, h3⟩ := ht
  obtain ⟨d, a, u⟩ := t
  simp only at h1 h2 h3
  subst h2
  have q2 : i * k + k ≤ count * k := by rw [← Nat.succ_mul]; exact Nat.mul_le_mul_right k hi
  have := step_end L h3 hn8 (alloc_length junk 8) h1 (by rw [hm]; omega) (hv i hi)
  rw [Nat.succ_mul]
  exact this

/-! ### The values -/

theorem ands (b : UInt8) : (b.toNat &&& 0xC0) / 64 = b.toNat / 64 ∧ b.toNat &&& 0x3F = b.toNat % 64 ∧ (b.toNat &&& 0xF0) / 16 = b.toNat / 16 ∧
    b.toNat &&& 0x0F = b.toNat % 16 ∧ (b.toNat &&& 0xFC) / 4 = b.toNat / 4 ∧ b.toNat &&& 3 = b.toNat % 4 := by
  have : ∀ n : Fin 256, (n.val &&& 0xC0) / 64 = n.val / 64 ∧ n.val &&& 0x3F = n.val % 64 ∧ (n.val &&& 0xF0) / 16 = n.val / 16 ∧
    n.val &&& 0x0F = n.val % 16 ∧ (n.val &&& 0xFC) / 4 = n.val / 4 ∧ n.val &&& 3 = n.val % 4 := by decide +kernel
  exact this ⟨b.toNat, b.toNat_lt⟩

theorem fillLow_eq (v : Nat) (h : v < 1024) : fillLow v = v * 64 + v % 16 * 4 := by
  have : ∀ n : Fin 1024, fillLow n.val = n.val * 64 + n.val % 16 * 4 := by decide +kernel
  exact this ⟨v, h⟩

theorem fillHigh_eq (v : Nat) (h : v < 1024) : fillHigh v = widen v := by
  have : ∀ n : Fin 1024, fillHigh n.val = widen n.val := by decide +kernel
  exact this ⟨v, h⟩

theorem be_two {bs : List UInt8} {p : Nat} {a b : UInt8} (h0 : bs[p]? = some a) (h1 : bs[p + 1]? = some b) :
    beAt bs p 2 = a.toNat * 256 + b.toNat := by
  obtain ⟨q0, rfl⟩ := List.getElem?_eq_some_iff.mp h0
  obtain ⟨q1, rfl⟩ := List.getElem?_eq_some_iff.mp h1
  unfold beAt at_
  rw [List.drop_eq_getElem_cons q0, List.drop_eq_getElem_cons q1]
  simp only [List.take_succ_cons, List.take_zero, be, le, List.reverse_cons, List.reverse_nil, List.nil_append, List.cons_append]
  omega

theorem be_four {bs : List UInt8} {p : Nat} {a b c d : UInt8} (h0 : bs[p]? = some a) (h1 : bs[p + 1]? = some b) (h2 : bs[p + 2]? = some c) (h3 : bs[p + 3]? = some d) :
    beAt bs p 4 = a.toNat * 16777216 + b.toNat * 65536 + c.toNat * 256 + d.toNat := by
  obtain ⟨q0, rfl⟩ := List.getElem?_eq_some_iff.mp h0
  obtain ⟨q1, rfl⟩ := List.getElem?_eq_some_iff.mp h1
  obtain ⟨q2, rfl⟩ := List.getElem?_eq_some_iff.mp h2
  obtain ⟨q3, rfl⟩ := List.getElem?_eq_some_iff.mp h3
  unfold beAt at_
  rw [List.drop_eq_getElem_cons q0, List.drop_eq_getElem_cons q1, List.drop_eq_getElem_cons q2, List.drop_eq_getElem_cons q3]
  simp only [List.take_succ_cons, List.take_zero, be, le, List.reverse_cons, List.reverse_nil, List.nil_append, List.cons_append]
  omega

theorem be_five {bs : List UInt8} {p : Nat} {a b c d e : UInt8} (h0 : bs[p]? = some a) (h1 : bs[p + 1]? = some b) (h2 : bs[p + 2]? = some c) (h3 : bs[p + 3]? = some d)
    (h4 : bs[p + 4]? = some e) :
    beAt bs p 5 = a.toNat * 4294967296 + b.toNat * 16777216 + c.toNat * 65536 + d.toNat * 256 + e.toNat := by
  obtain ⟨q0, rfl⟩ := List.getElem?_eq_some_iff.mp h0
  obtain ⟨q1, rfl⟩ := List.getElem?_eq_some_iff.mp h1
  obtain ⟨q2, rfl⟩ := List.getElem?_eq_some_iff.mp h2
  obtain ⟨q3, rfl⟩ := List.getElem?_eq_some_iff.mp h3
  obtain ⟨q4, rfl⟩ := List.getElem?_eq_some_iff.mp h4
  unfold beAt at_
  rw [List.drop_eq_getElem_cons q0, List.drop_eq_getElem_cons q1, List.drop_eq_getElem_cons q2, List.drop_eq_getElem_cons q3, List.drop_eq_getElem_cons q4]
  simp only [List.take_succ_cons, List.take_zero, be, le, List.reverse_cons, List.reverse_nil, List.nil_append, List.cons_append]
  omega

/-- The values the loader computes from bytes of the file are those stored there. -/
theorem tens_eq {bs r : List UInt8} {k p : Nat} (hk : k = 1 ∨ k = 3 ∨ k = 4) (hfit : p + tenBytes k ≤ bs.length) (hr : ∀ j, j < tenBytes k → r[j]? = bs[p + j]?) (j : Nat) (hj : j < k) :
    tens r j = tenValue bs k p j ∧ tens r j < 1024 := by
  have get : ∀ j, j < tenBytes k → ∃ b, bs[p + j]? = some b ∧ (r.getD j 0) = b := by
    intro j hj
    have : p + j < bs.length := by omega
    refine ⟨bs[p + j], List.getElem?_eq_getElem this, ?_⟩
    rw [List.getD_eq_getElem?_getD, hr j hj, List.getElem?_eq_getElem this]
    rfl
  rcases hk with rfl | rfl | rfl
  · obtain ⟨a, ea, ra⟩ := get 0 (by decide)
    rw [Nat.add_zero] at ea
    obtain ⟨b, eb, rb⟩ := get 1 (by decide)
    have h0 : j = 0 := by omega
    subst h0
    have := a.toNat_lt
    have := b.toNat_lt
    simp only [tens, tenValue, if_true, ra, rb, (ands b).1, be_two ea eb]
    omega
  · obtain ⟨a, ea, ra⟩ := get 0 (by decide)
    rw [Nat.add_zero] at ea
    obtain ⟨b, eb, rb⟩ := get 1 (by decide)
    obtain ⟨c, ec, rc⟩ := get 2 (by decide)
    obtain ⟨d, ed, rd⟩ := get 3 (by decide)
    have := a.toNat_lt
    have := b.toNat_lt
    have := c.toNat_lt
    have := d.toNat_lt
    have hj3 : j = 0 ∨ j = 1 ∨ j = 2 := by omega
    have t0 : tens r 0 = a.toNat * 4 + b.toNat / 64 := by
      show (r.getD 0 0).toNat * 4 + ((r.getD 1 0).toNat &&& 0xC0) / 64 = _
      rw [ra, rb, (ands b).1]
    have t1 : tens r 1 = b.toNat % 64 * 16 + c.toNat / 16 := by
      show ((r.getD 1 0).toNat &&& 0x3F) * 16 + ((r.getD 2 0).toNat &&& 0xF0) / 16 = _
      rw [rb, rc, (ands b).2.1, (ands c).2.2.1]
    have t2 : tens r 2 = c.toNat % 16 * 64 + d.toNat / 4 := by
      show ((r.getD 2 0).toNat &&& 0x0F) * 64 + ((r.getD 3 0).toNat &&& 0xFC) / 4 = _
      rw [rc, rd, (ands c).2.2.2.1, (ands d).2.2.2.2.1]
    have ev : ∀ j, tenValue bs 3 p j = beAt bs p 4 / 2 ^ (22 - 10 * j) % 1024 := fun _ => rfl
    rw [ev, be_four ea eb ec ed]
    rcases hj3 with rfl | rfl | rfl
    · rw [t0]; simp only [Nat.mul_zero, Nat.sub_zero, Nat.reducePow]; omega
    · rw [t1]; simp only [Nat.mul_one, Nat.reduceSub, Nat.reducePow]; omega
    · rw [t2]; simp only [Nat.reduceMul, Nat.reduceSub, Nat.reducePow]; omega
  · obtain ⟨a, ea, ra⟩ := get 0 (by decide)
    rw [Nat.add_zero] at ea
    obtain ⟨b, eb, rb⟩ := get 1 (by decide)
    obtain ⟨c, ec, rc⟩ := get 2 (by decide)
    obtain ⟨d, ed, rd⟩ := get 3 (by decide)
    obtain ⟨e, ee, re⟩ := get 4 (by decide)
    have := a.toNat_lt
    have := b.toNat_lt
    have := c.toNat_lt
    have := d.toNat_lt
    have := e.toNat_lt
    have hj3 : j = 0 ∨ j = 1 ∨ j = 2 ∨ j = 3 := by omega
    have t0 : tens r 0 = a.toNat * 4 + b.toNat / 64 := by
      show (r.getD 0 0).toNat * 4 + ((r.getD 1 0).toNat &&& 0xC0) / 64 = _
      rw [ra, rb, (ands b).1]
    have t1 : tens r 1 = b.toNat % 64 * 16 + c.toNat / 16 := by
      show ((r.getD 1 0).toNat &&& 0x3F) * 16 + ((r.getD 2 0).toNat &&& 0xF0) / 16 = _
      rw [rb, rc, (ands b).2.1, (ands c).2.2.1]
    have t2 : tens r 2 = c.toNat % 16 * 64 + d.toNat / 4 := by
      show ((r.getD 2 0).toNat &&& 0x0F) * 64 + ((r.getD 3 0).toNat &&& 0xFC) / 4 = _
      rw [rc, rd, (ands c).2.2.2.1, (ands d).2.2.2.2.1]
    have t3 : tens r 3 = d.toNat % 4 * 256 + e.toNat := by
      show ((r.getD 3 0).toNat &&& 0x03) * 256 + (r.getD 4 0).toNat = _
      rw [rd, re, (ands d).2.2.2.2.2]
    have ev : ∀ j, tenValue bs 4 p j = beAt bs p 5 / 2 ^ (30 - 10 * j) % 1024 := fun _ => rfl
    rw [ev, be_five ea eb ec ed ee]
    rcases hj3 with rfl | rfl | rfl | rfl
    · rw [t0]; simp only [Nat.mul_zero, Nat.sub_zero, Nat.reducePow]; omega
    · rw [t1]; simp only [Nat.mul_one, Nat.reduceSub, Nat.reducePow]; omega
    · rw [t2]; simp only [Nat.reduceMul, Nat.reduceSub, Nat.reducePow]; omega
    · rw [t3]; simp only [Nat.reduceMul, Nat.reduceSub, Nat.reducePow]; omega

/-- What the loader makes of a value of ten bits in a picture of `k` components. -/
def stored (k v : Nat) : Nat := if k = 4 then widen v else v * 64 + v % 16 * 4

theorem ten_spec (L : Laws2 o At) (junk : Nat → UInt8) (cur : Loaded) {s : σ} {bs : List UInt8} (hs : At s bs 0) {k f : Nat}
    (hh : DpxHead bs k f 10) (hp : beAt bs 804 2 = 1) (hfit : dpxWidth bs * dpxHeight bs * (k * 2) < 4294967296)
    (hall : dpxData bs + dpxWidth bs * dpxHeight bs * tenBytes k ≤ bs.length) :
    Holds (iLoadDpxInternal o junk cur s) (fun r => (∃ q, At r.2.2 bs q) ∧ r.1 = true ∧ r.2.1.2 = none ∧
      Shows3 r.2.1.1 (dpxWidth bs) (dpxHeight bs) 1 k 2 f IL_UNSIGNED_SHORT
        (fun x y _ c => some (byteOf (stored k (tenValue bs k (dpxData bs + (y * dpxWidth bs + x) * tenBytes k) (c / 2))) (c % 2)))) := by
  obtain ⟨hlong, hkind, hbits, hw, hht, hin⟩ := hh
  obtain ⟨hkd, hk3⟩ := kind_of hkind
  have hl := L.len hs
  have hk0 : 0 < k := by omega
  have hkk : k = 1 ∨ k = 3 ∨ k = 4 := by omega
  unfold iLoadDpxInternal
  refine (header_spec L junk hs hlong).bind (fun r hr => ?_)
  obtain ⟨h, t⟩ := r
  obtain ⟨e, ht⟩ := hr
  simp only [] at e ht
  subst e
  show Holds (picture o junk cur _ t) _
  unfold picture
  simp only []
  rw [hkd, hp, be_one hbits]
  change 0 < beAt bs 772 4 at hw
  change 0 < beAt bs 776 4 at hht
  change beAt bs 808 4 ≤ bs.length at hin
  unfold dpxWidth dpxHeight dpxData at *
  generalize beAt bs 772 4 = w at *
  generalize beAt bs 776 4 = ht' at *
  generalize hoff : beAt bs 808 4 = off at *
  rw [toInt_of hin hl]
  refine (L.seekAbs off ht hin).bind (fun r hr => ?_)
  simp only []
  rw [if_neg (by decide), if_pos trivial, if_pos (by decide)]
  have hf1 : w * ht' * 1 * (k * 2) < 4294967296 := by simpa using hfit
  obtain ⟨-, -, -, -, -, -, -, g8, g9⟩ := geo_size w ht' 1 k f IL_UNSIGNED_SHORT 2 hw hht (by decide) hk0 (by decide) (by decide) hf1
  have hsz : (texOf junk w ht' k f IL_UNSIGNED_SHORT).size = 2 * (w * ht' * k) := by
    show (geometry w ht' 1 k f IL_UNSIGNED_SHORT []).size = _
    rw [g8, g9, Nat.mul_one, ← Nat.mul_assoc, Nat.mul_comm]
  have hdl : (texOf junk w ht' k f IL_UNSIGNED_SHORT).data.length = (texOf junk w ht' k f IL_UNSIGNED_SHORT).size := alloc_length _ _
  have key : ∀ fill, (∀ v, v < 1024 → fill v = stored k v) → 
      Holds (tenLoop o junk (tenBytes k) k fill (texOf junk w ht' k f IL_UNSIGNED_SHORT) r.2) (fun r => (∃ q, At r.2.2 bs q) ∧ r.1 = true ∧ r.2.1.2 = none ∧
      Shows3 r.2.1.1 w ht' 1 k 2 f IL_UNSIGNED_SHORT
        (fun x y _ c => some (byteOf (stored k (tenValue bs k (off + (y * w + x) * tenBytes k) (c / 2))) (c % 2)))) := by
    intro fill hfill
    have ht0 : 0 < tenBytes k ∧ tenBytes k ≤ 8 := by rcases hkk with rfl | rfl | rfl <;> decide
    refine (loop_spec L junk (count := w * ht') (val := fun q => stored k (tenValue bs k (off + q / k * tenBytes k) (q % k))) _ hr ht0.1 ht0.2 hk0 hall hsz hdl
      (fun i hi r hr j hj => ?_)).mono (fun r hr => ?_)
    · have q1 : i * tenBytes k + tenBytes k ≤ w * ht' * tenBytes k := by rw [← Nat.succ_mul]; exact Nat.mul_le_mul_right _ hi
      obtain ⟨a, b⟩ := tens_eq hkk (by omega) hr j hj
      rw [hfill _ b, a]
      rw [Nat.mul_comm i k, Nat.mul_add_div hk0, Nat.div_eq_of_lt hj, Nat.add_zero, Nat.mul_add_mod, Nat.mod_eq_of_lt hj]
    · obtain ⟨h1, h2, d, h3, h4⟩ := hr
      rw [h1, h3]
      refine ⟨h2, rfl, rfl, geo_shows w ht' 1 k f f IL_UNSIGNED_SHORT 2 hw hht (by decide) hk0 (by decide) (by decide) hf1 d
        (by rw [h4.1, hsz, Nat.mul_one, ← Nat.mul_assoc (w * ht') k 2]; exact Nat.mul_comm _ _) _ (fun x y z c hx hy hz hcc => ?_)⟩
      have hz0 : z = 0 := by omega
      subst hz0
      rw [Nat.zero_mul, Nat.zero_add]
      have q2 : y * w + x < ht' * w := by
        have : y * w + w ≤ ht' * w := by rw [← Nat.succ_mul]; exact Nat.mul_le_mul_right w hy
        omega
      have hc2 : c / 2 < k := by omega
      have q3 : (y * w + x) * k + c / 2 < w * ht' * k := by
        have : (y * w + x) * k + k ≤ (ht' * w) * k := by rw [← Nat.succ_mul]; exact Nat.mul_le_mul_right _ q2
        rw [Nat.mul_comm w ht']
        omega
      have := h4.2 _ q3
      simp only [] at this
      rw [Nat.mul_comm (y * w + x) k, Nat.mul_add_div hk0, Nat.div_eq_of_lt hc2, Nat.add_zero, Nat.mul_add_mod, Nat.mod_eq_of_lt hc2] at this
      have e : (y * w + x) * (k * 2) + c = 2 * (k * (y * w + x) + c / 2) + c % 2 := by
        rw [Nat.mul_add, ← Nat.mul_assoc 2 k, Nat.mul_comm (y * w + x) (k * 2), Nat.mul_comm k 2]
        omega
      rw [e]
      rcases Nat.mod_two_eq_zero_or_one c with h | h
      · rw [h]; exact this.1
      · rw [h]; exact this.2
  rcases hkk with rfl | rfl | rfl
  · exact key fillLow fillLow_eq
  · exact key fillLow fillLow_eq
  · exact key fillHigh fillHigh_eq

theorem ten_end (L : Laws2 o At) (junk : Nat → UInt8) (cur : Loaded) {s : σ} {bs : List UInt8} (hs : At s bs 0) {k f : Nat}
    (hh : DpxHead bs k f 10) (hp : beAt bs 804 2 = 1) (hfit : dpxWidth bs * dpxHeight bs * (k * 2) < 4294967296)
    (hend : dpxData bs = bs.length) :
    Holds (iLoadDpxInternal o junk cur s) (fun r => (∃ q, At r.2.2 bs q) ∧ r.1 = true ∧ r.2.1.2 = none ∧
      Shows3 r.2.1.1 (dpxWidth bs) (dpxHeight bs) 1 k 2 f IL_UNSIGNED_SHORT
        (fun _ _ _ c => some (byteOf ((if k = 4 then fillHigh else fillLow) (tens (alloc junk 8) (c / 2))) (c % 2)))) := by
  obtain ⟨hlong, hkind, hbits, hw, hht, hin⟩ := hh
  obtain ⟨hkd, hk3⟩ := kind_of hkind
  have hl := L.len hs
  have hk0 : 0 < k := by omega
  have hkk : k = 1 ∨ k = 3 ∨ k = 4 := by omega
  unfold iLoadDpxInternal
  refine (header_spec L junk hs hlong).bind (fun r hr => ?_)
  obtain ⟨h, t⟩ := r
  obtain ⟨e, ht⟩ := hr
  simp only [] at e ht
  subst e
  show Holds (picture o junk cur _ t) _
  unfold picture
  simp only []
  rw [hkd, hp, be_one hbits]
  change 0 < beAt bs 772 4 at hw
  change 0 < beAt bs 776 4 at hht
  change beAt bs 808 4 ≤ bs.length at hin
  unfold dpxWidth dpxHeight dpxData at *
  generalize beAt bs 772 4 = w at *
  generalize beAt bs 776 4 = ht' at *
  generalize hoff : beAt bs 808 4 = off at *
  rw [toInt_of hin hl]
  refine (L.seekAbs off ht hin).bind (fun r hr => ?_)
  simp only []
  rw [if_neg (by decide), if_pos trivial, if_pos (by decide)]
  have hf1 : w * ht' * 1 * (k * 2) < 4294967296 := by simpa using hfit
  obtain ⟨-, -, -, -, -, -, -, g8, g9⟩ := geo_size w ht' 1 k f IL_UNSIGNED_SHORT 2 hw hht (by decide) hk0 (by decide) (by decide) hf1
  have hsz : (texOf junk w ht' k f IL_UNSIGNED_SHORT).size = 2 * (w * ht' * k) := by
    show (geometry w ht' 1 k f IL_UNSIGNED_SHORT []).size = _
    rw [g8, g9, Nat.mul_one, ← Nat.mul_assoc, Nat.mul_comm]
  have hdl : (texOf junk w ht' k f IL_UNSIGNED_SHORT).data.length = (texOf junk w ht' k f IL_UNSIGNED_SHORT).size := alloc_length _ _
  have key : ∀ fill, fill = (if k = 4 then fillHigh else fillLow) →
      Holds (tenLoop o junk (tenBytes k) k fill (texOf junk w ht' k f IL_UNSIGNED_SHORT) r.2) (fun r => (∃ q, At r.2.2 bs q) ∧ r.1 = true ∧ r.2.1.2 = none ∧
      Shows3 r.2.1.1 w ht' 1 k 2 f IL_UNSIGNED_SHORT
        (fun _ _ _ c => some (byteOf ((if k = 4 then fillHigh else fillLow) (tens (alloc junk 8) (c / 2))) (c % 2)))) := by
    intro fill hfill
    have ht0 : 0 < tenBytes k ∧ tenBytes k ≤ 8 := by rcases hkk with rfl | rfl | rfl <;> decide
    rw [hend] at hr
    refine (loop_end L junk (count := w * ht') (val := fun q => (if k = 4 then fillHigh else fillLow) (tens (alloc junk 8) (q % k))) _ hr ht0.2 hk0 hsz hdl
      (fun i hi j hj => ?_)).mono (fun r hr => ?_)
    · rw [hfill, Nat.mul_comm i k, Nat.mul_add_mod, Nat.mod_eq_of_lt hj]
    · obtain ⟨h1, h2, d, h3, h4⟩ := hr
      rw [h1, h3]
      refine ⟨h2, rfl, rfl, geo_shows w ht' 1 k f f IL_UNSIGNED_SHORT 2 hw hht (by decide) hk0 (by decide) (by decide) hf1 d
        (by rw [h4.1, hsz, Nat.mul_one, ← Nat.mul_assoc (w * ht') k 2]; exact Nat.mul_comm _ _) _ (fun x y z c hx hy hz hcc => ?_)⟩
      have hz0 : z = 0 := by omega
      subst hz0
      rw [Nat.zero_mul, Nat.zero_add]
      have q2 : y * w + x < ht' * w := by
        have : y * w + w ≤ ht' * w := by rw [← Nat.succ_mul]; exact Nat.mul_le_mul_right w hy
        omega
      have hc2 : c / 2 < k := by omega
      have q3 : (y * w + x) * k + c / 2 < w * ht' * k := by
        have : (y * w + x) * k + k ≤ (ht' * w) * k := by rw [← Nat.succ_mul]; exact Nat.mul_le_mul_right _ q2
        rw [Nat.mul_comm w ht']
        omega
      have := h4.2 _ q3
      simp only [] at this
      rw [Nat.mul_comm (y * w + x) k, Nat.mul_add_mod, Nat.mod_eq_of_lt hc2] at this
      have e : (y * w + x) * (k * 2) + c = 2 * (k * (y * w + x) + c / 2) + c % 2 := by
        rw [Nat.mul_add, ← Nat.mul_assoc 2 k, Nat.mul_comm (y * w + x) (k * 2), Nat.mul_comm k 2]
        omega
      rw [e]
      rcases Nat.mod_two_eq_zero_or_one c with h | h
      · rw [h]; exact this.1
      · rw [h]; exact this.2
  rcases hkk with rfl | rfl | rfl
  · exact key fillLow rfl
  · exact key fillLow rfl
  · exact key fillHigh rfl

end DevIL.Dpx
