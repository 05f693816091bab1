import Verif.Lemmas.DxtFlip
import Verif.Props.DxtFlip
/-! C96: inverting the alpha of compressed data. -/
set_option autoImplicit false
namespace DevIL.Dxt
open DevIL.Image DevIL.DxtSpec

/-- The code that takes the place of code `b`. -/
def newCode (more : Bool) (b : Nat) : Nat := (if more then map1 else map2).getD b 0

theorem newCode_lt (more : Bool) {b : Nat} (h : b < 8) : newCode more b < 8 := by
  have key : ∀ (m : Bool) (b : Fin 8), newCode m b.val < 8 := by decide
  exact key more ⟨b, h⟩

theorem newCode_newCode (more : Bool) {b : Nat} (h : b < 8) : newCode more (newCode more b) = b := by
  have key : ∀ (m : Bool) (b : Fin 8), newCode m (newCode m b.val) = b.val := by decide
  exact key more ⟨b, h⟩

theorem newBits_spec (more : Bool) (w : Nat) : ∃ o, newBits more w = .ok o ∧ o < 8 ^ 8 ∧ ∀ j, j < 8 → o / 8 ^ j % 8 = newCode more (w / 8 ^ j % 8) := by
  unfold newBits
  refine loopN_inv (fun i o => o < 8 ^ i ∧ ∀ j, j < i → o / 8 ^ j % 8 = newCode more (w / 8 ^ j % 8)) ⟨by decide, fun j hj => by omega⟩ ?_
  rintro i o hi ⟨ho, hc⟩
  have e1 : (w >>> (3 * i)) &&& 7 = w / 8 ^ i % 8 := by
    rw [show (7 : Nat) = 2 ^ 3 - 1 by rfl, Nat.and_two_pow_sub_one_eq_mod, Nat.shiftRight_eq_div_pow, Nat.pow_mul]
  have hb : w / 8 ^ i % 8 < 8 := Nat.mod_lt _ (by decide)
  have hl : (if more = true then map1 else map2).length = 8 := by cases more <;> rfl
  have e2 : rd (if more = true then map1 else map2) (w / 8 ^ i % 8) = .ok (newCode more (w / 8 ^ i % 8)) := by
    rw [rd_of_lt (by omega)]
    unfold newCode
    rw [List.getD_eq_getElem?_getD, List.getElem?_eq_getElem (by omega)]
    rfl
  have hn := newCode_lt more hb
  refine ⟨o + newCode more (w / 8 ^ i % 8) * 8 ^ i, ?_, ?_, fun j hj => ?_⟩
  · rw [e1, e2, bind_ok, Nat.or_comm, ← Nat.shiftLeft_add_eq_or_of_lt (by rw [Nat.pow_mul]; exact ho), Nat.shiftLeft_eq, Nat.pow_mul, Nat.add_comm]
    rfl
  · rw [Nat.pow_succ]
    have := Nat.mul_le_mul_right (8 ^ i) (show newCode more (w / 8 ^ i % 8) + 1 ≤ 8 by omega)
    rw [Nat.add_one_mul] at this
    omega
  · have hpos : 0 < 8 ^ i := Nat.pow_pos (by decide)
    rcases Nat.lt_succ_iff_lt_or_eq.mp hj with h | rfl
    · rw [← hc j h]
      obtain ⟨q, rfl⟩ : ∃ q, i = j + 1 + q := ⟨i - j - 1, by omega⟩
      have hj0 : 0 < 8 ^ j := Nat.pow_pos (by decide)
      rw [show newCode more (w / 8 ^ (j + 1 + q) % 8) * 8 ^ (j + 1 + q) = 8 ^ j * (8 * (newCode more (w / 8 ^ (j + 1 + q) % 8) * 8 ^ q)) by
        rw [Nat.pow_add, Nat.pow_succ]; grind, Nat.add_mul_div_left _ _ hj0]
      omega
    · rw [Nat.add_mul_div_right _ _ hpos, Nat.div_eq_of_lt ho, Nat.zero_add, Nat.mod_eq_of_lt hn]

/-- The three bytes of a 24-bit number. -/
def byte3 (o k : Nat) : Nat := o / 256 ^ k % 256

theorem newIndices_spec (more : Bool) {d : List UInt8} {p : Nat} (h : p + 3 ≤ d.length) :
    ∃ d' o, newIndices more p d = .ok d' ∧ newBits more (w24 (at_ d p) 0) = .ok o ∧ d'.length = d.length ∧ ∀ n, n < d.length →
      at_ d' 0 n = if n < p then at_ d 0 n else if n < p + 3 then byte3 o (n - p) else at_ d 0 n := by
  obtain ⟨o, eo, lo, _⟩ := newBits_spec more (w24 (at_ d p) 0)
  have e24 : word24 d p = .ok (w24 (at_ d p) 0) := word24_eq (t := p) (o := 0) (by omega)
  unfold newIndices
  rw [e24, bind_ok, eo, bind_ok]
  obtain ⟨d1, f1, l1, s1⟩ := wr_spec (d := d) (i := p) (v := UInt8.ofNat o) (by omega)
  obtain ⟨d2, f2, l2, s2⟩ := wr_spec (d := d1) (i := p + 1) (v := UInt8.ofNat (o >>> 8)) (by omega)
  obtain ⟨d3, f3, l3, s3⟩ := wr_spec (d := d2) (i := p + 2) (v := UInt8.ofNat (o >>> 16)) (by omega)
  rw [f1, bind_ok, f2, bind_ok, f3]
  refine ⟨d3, o, rfl, rfl, by omega, fun n hn => ?_⟩
  rw [s3 n (by omega), s2 n (by omega), s1 n hn]
  have t : ∀ v : Nat, (UInt8.ofNat v).toNat = v % 256 := fun v => by simp
  by_cases hp : n < p
  · rw [if_pos hp, if_neg (by omega), if_neg (by omega), if_neg (by omega)]
  · rw [if_neg hp]
    by_cases hp3 : n < p + 3
    · rw [if_pos hp3]
      unfold byte3
      obtain rfl | rfl | rfl : n = p ∨ n = p + 1 ∨ n = p + 2 := by omega
      · rw [if_neg (by omega), if_neg (by omega), if_pos rfl, Nat.sub_self, t, Nat.pow_zero, Nat.div_one]
      · rw [if_neg (by omega), if_pos rfl, Nat.add_sub_cancel_left, t, Nat.shiftRight_eq_div_pow]
      · rw [if_pos rfl, Nat.add_sub_cancel_left, t, Nat.shiftRight_eq_div_pow]
    · rw [if_neg hp3, if_neg (by omega), if_neg (by omega), if_neg (by omega)]

/-- What is left of a block when its alpha is inverted. -/
structure Inverted (fmt : Nat) (β β' : Nat → Nat) : Prop where
  colour : ∀ k, 8 ≤ k → k < 16 → β' k = β k
  dxt3 : fmt = IL_DXT3 → ∀ k, k < 8 → β' k = 255 - β k
  a0 : fmt ≠ IL_DXT3 → β' 0 = 255 - β 1
  a1 : fmt ≠ IL_DXT3 → β' 1 = 255 - β 0
  codes : fmt ≠ IL_DXT3 → ∀ j i, j < 4 → i < 4 → code5 β' j i = newCode (decide (β 0 > β 1)) (code5 β j i)

theorem w24_byte3 {o : Nat} (h : o < 8 ^ 8) : byte3 o 0 + 256 * byte3 o 1 + 65536 * byte3 o 2 = o := by
  unfold byte3
  have : o < 16777216 := h
  simp only [Nat.reducePow, Nat.div_one]
  omega

theorem iInvertDxt5Alpha_spec {d : List UInt8} {p : Nat} (h : p + 8 ≤ d.length) :
    ∃ d', iInvertDxt5Alpha p d = .ok d' ∧ d'.length = d.length ∧ (∀ n, n < d.length → n < p ∨ p + 8 ≤ n → at_ d' 0 n = at_ d 0 n) ∧
      at_ d' p 0 = 255 - at_ d p 1 ∧ at_ d' p 1 = 255 - at_ d p 0 ∧
      ∀ j i, j < 4 → i < 4 → code5 (at_ d' p) j i = newCode (decide (at_ d p 0 > at_ d p 1)) (code5 (at_ d p) j i) := by
  obtain ⟨a, e1, h1⟩ := rd_at (comp := d) (t := p) (i := 0) (by omega)
  obtain ⟨b, e2, h2⟩ := rd_at (comp := d) (t := p) (i := 1) (by omega)
  rw [Nat.add_zero] at e1
  have hdec : decide (a > b) = decide (at_ d p 0 > at_ d p 1) := by rw [← h1, ← h2]; rfl
  unfold iInvertDxt5Alpha
  rw [e1, bind_ok, e2, bind_ok]
  obtain ⟨d1, f1, l1, s1⟩ := wr_spec (d := d) (i := p) (v := 255 - b) (by omega)
  obtain ⟨d2, f2, l2, s2⟩ := wr_spec (d := d1) (i := p + 1) (v := 255 - a) (by omega)
  obtain ⟨d3, o3, f3, g3, l3, s3⟩ := newIndices_spec (decide (a > b)) (d := d2) (p := p + 2) (by omega)
  obtain ⟨d4, o4, f4, g4, l4, s4⟩ := newIndices_spec (decide (a > b)) (d := d3) (p := p + 5) (by omega)
  obtain ⟨o3', g3', b3, c3⟩ := newBits_spec (decide (a > b)) (w24 (at_ d2 (p + 2)) 0)
  obtain ⟨o4', g4', b4, c4⟩ := newBits_spec (decide (a > b)) (w24 (at_ d3 (p + 5)) 0)
  obtain rfl : o3 = o3' := Except.ok.inj (g3.symm.trans g3')
  obtain rfl : o4 = o4' := Except.ok.inj (g4.symm.trans g4')
  have hsub : ∀ v : UInt8, (255 - v).toNat = 255 - v.toNat := fun v => by
    have := v.toNat_lt
    rw [UInt8.toNat_sub_of_le]
    · rfl
    · exact UInt8.le_iff_toNat_le.mpr (by show v.toNat ≤ 255; omega)
  rw [f1, bind_ok, f2, bind_ok, f3, bind_ok, f4]
  -- the bytes before the last two steps
  have i2 : ∀ k, 2 ≤ k → p + k < d.length → at_ d2 0 (p + k) = at_ d 0 (p + k) := fun k hk hl => by
    rw [s2 _ (by omega), if_neg (by omega), s1 _ (by omega), if_neg (by omega)]
  have w2 : w24 (at_ d2 (p + 2)) 0 = w24 (at_ d p) 2 := by
    unfold w24
    simp only [at_zero d2 (p + 2), at_zero d p]
    have q0 := i2 2 (by omega) (by omega)
    have q1 := i2 3 (by omega) (by omega)
    have q2 := i2 4 (by omega) (by omega)
    simp only [Nat.add_assoc, Nat.reduceAdd, q0, q1, q2]
  have w3 : w24 (at_ d3 (p + 5)) 0 = w24 (at_ d p) 5 := by
    unfold w24
    simp only [at_zero d3 (p + 5), at_zero d p]
    have j3 : ∀ k, 5 ≤ k → p + k < d.length → at_ d3 0 (p + k) = at_ d 0 (p + k) := fun k hk hl => by
      rw [s3 _ (by omega), if_neg (by omega), if_neg (by omega), i2 k (by omega) hl]
    have q0 := j3 5 (by omega) (by omega)
    have q1 := j3 6 (by omega) (by omega)
    have q2 := j3 7 (by omega) (by omega)
    simp only [Nat.add_assoc, Nat.reduceAdd, q0, q1, q2]
  have lo : ∀ k, k < 3 → at_ d4 p (2 + k) = byte3 o3 k := fun k hk => by
    rw [at_zero, s4 _ (by omega), if_pos (by omega), s3 _ (by omega), if_neg (by omega), if_pos (by omega),
      show p + (2 + k) - (p + 2) = k by omega]
  have hi : ∀ k, k < 3 → at_ d4 p (5 + k) = byte3 o4 k := fun k hk => by
    rw [at_zero, s4 _ (by omega), if_neg (by omega), if_pos (by omega), show p + (5 + k) - (p + 5) = k by omega]
  have v2 : w24 (at_ d4 p) 2 = o3 := by
    unfold w24
    rw [← w24_byte3 b3, ← lo 0 (by omega), ← lo 1 (by omega), ← lo 2 (by omega)]
  have v5 : w24 (at_ d4 p) 5 = o4 := by
    unfold w24
    rw [← w24_byte3 b4, ← hi 0 (by omega), ← hi 1 (by omega), ← hi 2 (by omega)]
  refine ⟨d4, rfl, by omega, fun n hn hr => ?_, ?_, ?_, fun j i hj hi => ?_⟩
  · rw [s4 _ (by omega)]
    by_cases hp : n < p
    · rw [if_pos (by omega), s3 _ (by omega), if_pos (by omega), s2 _ (by omega), if_neg (by omega), s1 _ hn, if_neg (by omega)]
    · rw [if_neg (by omega), if_neg (by omega), s3 _ (by omega), if_neg (by omega), if_neg (by omega), s2 _ (by omega), if_neg (by omega),
        s1 _ hn, if_neg (by omega)]
  · rw [at_zero, s4 _ (by omega), if_pos (by omega), s3 _ (by omega), if_pos (by omega), s2 _ (by omega), if_neg (by omega), s1 _ (by omega),
      if_pos (by omega), hsub, h2]
  · rw [at_zero, s4 _ (by omega), if_pos (by omega), s3 _ (by omega), if_pos (by omega), s2 _ (by omega), if_pos rfl, hsub, h1]
  · unfold code5
    rw [← hdec]
    have hpos : 4 * (j % 2) + i < 8 := by omega
    by_cases h2 : j < 2
    · rw [show j / 2 = 0 by omega]
      show w24 (at_ d4 p) 2 / _ % 8 = newCode _ (w24 (at_ d p) 2 / _ % 8)
      rw [v2, c3 _ hpos, w2]
    · rw [show j / 2 = 1 by omega]
      show w24 (at_ d4 p) 5 / _ % 8 = newCode _ (w24 (at_ d p) 5 / _ % 8)
      rw [v5, c4 _ hpos, w3]

theorem iInvertDxt3Alpha_spec {d : List UInt8} {p : Nat} (h : p + 8 ≤ d.length) :
    ∃ d', iInvertDxt3Alpha p d = .ok d' ∧ d'.length = d.length ∧ ∀ n, n < d.length →
      at_ d' 0 n = if p ≤ n ∧ n < p + 8 then 255 - at_ d 0 n else at_ d 0 n := by
  unfold iInvertDxt3Alpha
  refine loopN_inv (fun i t => t.length = d.length ∧ ∀ n, n < d.length → at_ t 0 n = if p ≤ n ∧ n < p + i then 255 - at_ d 0 n else at_ d 0 n)
    ⟨rfl, fun n hn => by rw [if_neg (by omega)]⟩ ?_
  rintro i t hi ⟨lt, st⟩
  obtain ⟨v, e, hv⟩ := rd_at (comp := t) (t := 0) (i := p + i) (by omega)
  rw [Nat.zero_add] at e
  rw [e, bind_ok]
  obtain ⟨d1, f1, l1, s1⟩ := wr_spec (d := t) (i := p + i) (v := ~~~ v) (by omega)
  refine ⟨d1, f1, by omega, fun n hn => ?_⟩
  rw [s1 n (by omega)]
  by_cases hn' : n = p + i
  · subst hn'
    rw [if_pos rfl, if_pos ⟨by omega, by omega⟩, ← st _ hn |>.trans (if_neg (by omega)), ← hv]
    have key : (~~~ v).toNat = 255 - v.toNat := by
      rw [UInt8.toNat_not]
      rfl
    exact key
  · rw [if_neg hn', st n hn]
    by_cases hr : p ≤ n ∧ n < p + i
    · rw [if_pos hr, if_pos ⟨by omega, by omega⟩]
    · rw [if_neg hr, if_neg (by omega)]

/-- One block. -/
theorem invert_block {fmt : Nat} {d : List UInt8} {p : Nat} (h : p + 16 ≤ d.length) :
    ∃ d', (if fmt = IL_DXT3 then iInvertDxt3Alpha p d else iInvertDxt5Alpha p d) = .ok d' ∧ d'.length = d.length ∧
      (∀ n, n < d.length → n < p ∨ p + 16 ≤ n → at_ d' 0 n = at_ d 0 n) ∧ Inverted fmt (at_ d p) (at_ d' p) := by
  by_cases hf : fmt = IL_DXT3
  · rw [if_pos hf]
    obtain ⟨d', e, l, sp⟩ := iInvertDxt3Alpha_spec (d := d) (p := p) (by omega)
    refine ⟨d', e, l, fun n hn hr => by rw [sp n hn, if_neg (by omega)], ⟨fun k h8 h16 => ?_, fun _ k h8 => ?_, fun h => absurd hf h,
      fun h => absurd hf h, fun h => absurd hf h⟩⟩
    · rw [at_zero, at_zero d p, sp _ (by omega), if_neg (by omega)]
    · rw [at_zero, at_zero d p, sp _ (by omega), if_pos ⟨by omega, by omega⟩]
  · rw [if_neg hf]
    obtain ⟨d', e, l, ho, h0, h1, hc⟩ := iInvertDxt5Alpha_spec (d := d) (p := p) (by omega)
    refine ⟨d', e, l, fun n hn hr => ho n hn (by omega), ⟨fun k h8 h16 => ?_, fun h => absurd h hf, fun _ => h0, fun _ => h1, fun _ => hc⟩⟩
    rw [at_zero, at_zero d p, ho _ (by omega) (by omega)]

theorem Inverted.congr {fmt : Nat} {α α' β β' : Nat → Nat} (h : Inverted fmt α β) (ha : ∀ k, k < 16 → α' k = α k) (hb : ∀ k, k < 16 → β' k = β k) :
    Inverted fmt α' β' := by
  have hcode : ∀ (f g : Nat → Nat) (j i : Nat), (∀ k, k < 16 → f k = g k) → j < 4 → code5 f j i = code5 g j i := by
    intro f g j i hfg hj
    unfold code5 w24
    have : 3 * (j / 2) ≤ 3 := by omega
    rw [hfg _ (by omega), hfg _ (by omega), hfg _ (by omega)]
  refine ⟨fun k h8 h16 => ?_, fun hf k h8 => ?_, fun hf => ?_, fun hf => ?_, fun hf j i hj hi => ?_⟩
  · rw [hb k h16, ha k h16, h.colour k h8 h16]
  · rw [hb k (by omega), ha k (by omega), h.dxt3 hf k h8]
  · rw [hb 0 (by omega), ha 1 (by omega), h.a0 hf]
  · rw [hb 1 (by omega), ha 0 (by omega), h.a1 hf]
  · rw [hcode _ _ j i hb hj, hcode _ _ j i ha hj, ha 0 (by omega), ha 1 (by omega), h.codes hf j i hj hi]

theorem invert_all {fmt n : Nat} {d : List UInt8} (h : n * 16 ≤ d.length) :
    ∃ d', loopN n (fun i d => if fmt = IL_DXT3 then iInvertDxt3Alpha (i * 16) d else iInvertDxt5Alpha (i * 16) d) d = .ok d' ∧
      d'.length = d.length ∧ (∀ m, m < d.length → n * 16 ≤ m → at_ d' 0 m = at_ d 0 m) ∧
      ∀ i, i < n → Inverted fmt (at_ d (i * 16)) (at_ d' (i * 16)) := by
  refine loopN_inv (fun k t => t.length = d.length ∧ (∀ m, m < d.length → k * 16 ≤ m → at_ t 0 m = at_ d 0 m) ∧
      ∀ i, i < k → Inverted fmt (at_ d (i * 16)) (at_ t (i * 16))) ⟨rfl, fun _ _ _ => rfl, fun i hi => by omega⟩ ?_
  rintro k t hk ⟨lt, ho, hi⟩
  obtain ⟨t', e, l, ho', hi'⟩ := invert_block (fmt := fmt) (d := t) (p := k * 16) (by omega)
  refine ⟨t', e, by omega, fun m hm hk => ?_, fun i hik => ?_⟩
  · rw [ho' m (by omega) (by omega), ho m hm (by omega)]
  · rcases Nat.lt_succ_iff_lt_or_eq.mp hik with h1 | rfl
    · refine (hi i h1).congr (fun _ _ => rfl) fun b hb => ?_
      rw [at_zero, at_zero t, ho' _ (by omega) (by omega)]
    · refine hi'.congr (fun b hb => ?_) fun _ _ => rfl
      rw [at_zero, at_zero t, ho _ (by omega) (by omega)]

/-- The alpha of a pixel after inverting. -/
theorem dec_inverted {fmt : Nat} (hf : fmt = IL_DXT3 ∨ fmt = IL_DXT5) {β β' : Nat → Nat} (hβ : ∀ k, β k < 256) (h : Inverted fmt β β')
    {j i c : Nat} (hj : j < 4) (hi : i < 4) : dec fmt β j i 3 ≤ 255 ∧ dec fmt β' j i c = if c = 3 then 255 - dec fmt β j i 3 else dec fmt β j i c := by
  have h1 : fmt ≠ IL_DXT1 := by rcases hf with rfl | rfl <;> decide
  have ecol : colsC β' = colsC β := by
    unfold colsC
    rw [h.colour 8 (by omega) (by omega), h.colour 9 (by omega) (by omega), h.colour 10 (by omega) (by omega), h.colour 11 (by omega) (by omega)]
  have esel : sel β' 12 j i = sel β 12 j i := by
    unfold sel
    rw [h.colour _ (by omega) (by omega)]
  unfold dec
  rw [if_neg h1, if_neg h1, if_neg h1, if_pos rfl, ecol, esel]
  by_cases h3 : fmt = IL_DXT3
  · rw [if_pos h3, if_pos h3]
    unfold al3
    have hb := hβ (2 * j + i / 2)
    have he := h.dxt3 h3 (2 * j + i / 2) (by omega)
    rw [he]
    obtain e | e : i % 2 = 0 ∨ i % 2 = 1 := by omega
    · rw [e, Nat.pow_zero, Nat.div_one, Nat.div_one]
      refine ⟨by omega, ?_⟩
      split
      · omega
      · rfl
    · rw [e, Nat.pow_one]
      refine ⟨by omega, ?_⟩
      split
      · omega
      · rfl
  · rw [if_neg h3, if_neg h3]
    unfold al5
    rw [h.a0 h3, h.a1 h3, h.codes h3 j i hj hi]
    have hc : code5 β j i < 8 := Nat.mod_lt _ (by decide)
    have b0 := hβ 0
    have b1 := hβ 1
    generalize code5 β j i = k at hc
    generalize β 0 = a at b0
    generalize β 1 = b at b1
    have key : (alphas a b).getD k 0 ≤ 255 ∧ (alphas (255 - b) (255 - a)).getD (newCode (decide (a > b)) k) 0 = 255 - (alphas a b).getD k 0 := by
      unfold alphas newCode map1 map2
      by_cases hab : a > b
      · rw [if_pos hab, if_pos (show 255 - b > 255 - a by omega), if_pos (decide_eq_true hab)]
        obtain rfl | rfl | rfl | rfl | rfl | rfl | rfl | rfl : k = 0 ∨ k = 1 ∨ k = 2 ∨ k = 3 ∨ k = 4 ∨ k = 5 ∨ k = 6 ∨ k = 7 := by omega
        all_goals
          constructor <;> simp only [List.getD_cons_zero, List.getD_cons_succ] <;> omega
      · rw [if_neg hab, if_neg (show ¬ 255 - b > 255 - a by omega), if_neg (by simpa using hab)]
        obtain rfl | rfl | rfl | rfl | rfl | rfl | rfl | rfl : k = 0 ∨ k = 1 ∨ k = 2 ∨ k = 3 ∨ k = 4 ∨ k = 5 ∨ k = 6 ∨ k = 7 := by omega
        all_goals
          constructor <;> simp only [List.getD_cons_zero, List.getD_cons_succ] <;> omega
    refine ⟨key.1, ?_⟩
    split
    · exact key.2
    · rfl

theorem inverted {s : Surface} (hs : Complete s 16) (hf : s.fmt = IL_DXT3 ∨ s.fmt = IL_DXT5) :
    ∃ comp, ilInvertSurfaceDxtcDataAlpha s = .ok (true, { s with comp := comp }) ∧ comp.length = s.comp.length ∧
      (∀ m, m < s.comp.length → bytes 16 s.img.width s.img.height s.img.depth ≤ m → at_ comp 0 m = at_ s.comp 0 m) ∧
      ∀ i, i < (s.img.width + 3) / 4 * ((s.img.height + 3) / 4) * s.img.depth → Inverted s.fmt (at_ s.comp (i * 16)) (at_ comp (i * 16)) := by
  have hw := hs.width
  have hh := hs.height
  have hc := hs.comp
  have hne : s.comp ≠ [] := by
    intro e
    have h2 : 0 < bytes 16 s.img.width s.img.height s.img.depth := by
      unfold bytes
      exact Nat.mul_pos (Nat.mul_pos (Nat.mul_pos (by omega) (by omega)) hs.depth) (by decide)
    rw [e, List.length_nil] at hc
    omega
  obtain ⟨comp, e, l, ho, hi⟩ := invert_all (fmt := s.fmt) (n := (s.img.width + 3) / 4 * ((s.img.height + 3) / 4) * s.img.depth) (d := s.comp) hc
  refine ⟨comp, ?_, l, ho, hi⟩
  unfold ilInvertSurfaceDxtcDataAlpha
  rw [if_neg hne, if_neg (fun h => h hf)]
  dsimp only
  rw [e]
  rfl

/-- **C96.** Inverting the alpha of DXT3 or DXT5 data and decoding gives the same image as decoding alone, except that every alpha `a` is
`255 - a`, exactly. -/
theorem C96_invert (junk : Nat → UInt8) (s : Surface) (hf : s.fmt = IL_DXT3 ∨ s.fmt = IL_DXT5) (hs : Complete s 16) :
    ∃ s' q q', ilInvertSurfaceDxtcDataAlpha s = .ok (true, s') ∧ ilDxtcDataToSurface junk s = .ok (true, { s with img := q }) ∧
      ilDxtcDataToSurface junk s' = .ok (true, { s' with img := q' }) ∧ Shown s q ∧ Shown s q' ∧
      ∀ x y z, s.In x y z → q'.px x y z 3 = (q.px x y z 3).map (fun a => 255 - a) ∧ ∀ c, c < 3 → q'.px x y z c = q.px x y z c := by
  have hb : bsize s.fmt = 16 := by rcases hf with h | h <;> rw [h] <;> rfl
  have hs' : Complete s (bsize s.fmt) := by rw [hb]; exact hs
  have hf' : s.fmt = IL_DXT1 ∨ s.fmt = IL_DXT3 ∨ s.fmt = IL_DXT5 := .inr hf
  obtain ⟨comp, e, l, _, hi⟩ := inverted hs hf
  obtain ⟨q, e1, hq, p1⟩ := surface junk hs' hf'
  obtain ⟨q', e2, hq', p2⟩ := surface junk (s := { s with comp := comp })
    ⟨hs.width, hs.height, hs.depth, hs.fits, hs.data, by show _ ≤ comp.length; rw [l]; exact hs'.comp⟩ hf'
  refine ⟨{ s with comp := comp }, q, q', e, e1, e2, hq, ⟨hq'.consistent, hq'.width, hq'.height, hq'.depth, hq'.bpp, hq'.bpc, hq'.format,
    hq'.type, hq'.origin⟩, fun x y z hin => ?_⟩
  obtain ⟨hx, hy, hz⟩ := hin
  have hr : y / 4 < (s.img.height + 3) / 4 := by omega
  have hxb : x / 4 < (s.img.width + 3) / 4 := by omega
  have hlt : (z * ((s.img.height + 3) / 4) + y / 4) * ((s.img.width + 3) / 4) + x / 4 <
      (s.img.width + 3) / 4 * ((s.img.height + 3) / 4) * s.img.depth := by
    have := idx_lt (idx_lt hz hr) hxb
    rw [show (s.img.width + 3) / 4 * ((s.img.height + 3) / 4) * s.img.depth = s.img.depth * ((s.img.height + 3) / 4) * ((s.img.width + 3) / 4) by grind]
    exact this
  have hinv := hi _ hlt
  have heq : ((z * ((s.img.height + 3) / 4) + y / 4) * ((s.img.width + 3) / 4) + x / 4) * 16 = boff s.fmt s.img.width s.img.height z y x := by
    unfold boff
    rw [hb]
  rw [heq] at hinv
  refine ⟨?_, fun c hc => ?_⟩
  · rw [p2 x y z 3 ⟨hx, hy, hz⟩ (by omega), p1 x y z 3 ⟨hx, hy, hz⟩ (by omega)]
    obtain ⟨k1, k2⟩ := dec_inverted hf (at_lt _ _) hinv (j := y % 4) (i := x % 4) (c := 3) (Nat.mod_lt _ (by decide)) (Nat.mod_lt _ (by decide))
    rw [Option.map_some]
    dsimp only
    rw [k2, if_pos rfl]
    congr 1
    generalize dec s.fmt (at_ s.comp (boff s.fmt s.img.width s.img.height z y x)) (y % 4) (x % 4) 3 = v at k1
    have e1 : (UInt8.ofNat v).toNat = v := by rw [UInt8.toNat_ofNat', Nat.mod_eq_of_lt (by omega)]
    refine UInt8.toNat_inj.mp ?_
    rw [UInt8.toNat_sub_of_le _ _ (UInt8.le_iff_toNat_le.mpr (by rw [e1]; exact k1)), e1, UInt8.toNat_ofNat', Nat.mod_eq_of_lt (by omega)]
    rfl
  · rw [p2 x y z c ⟨hx, hy, hz⟩ (by omega), p1 x y z c ⟨hx, hy, hz⟩ (by omega)]
    obtain ⟨k1, k2⟩ := dec_inverted hf (at_lt _ _) hinv (j := y % 4) (i := x % 4) (c := c) (Nat.mod_lt _ (by decide)) (Nat.mod_lt _ (by decide))
    dsimp only
    rw [k2, if_neg (by omega)]

/-- Bytes with the same three-bit codes are the same. -/
theorem codes_eq {f g : Nat → Nat} (hf : ∀ k, f k < 256) (hg : ∀ k, g k < 256) (h : ∀ j i, j < 4 → i < 4 → code5 f j i = code5 g j i) :
    ∀ k, 2 ≤ k → k < 8 → f k = g k := by
  have digits : ∀ a b : Nat, a < 8 ^ 8 → b < 8 ^ 8 → (∀ i, i < 8 → a / 8 ^ i % 8 = b / 8 ^ i % 8) → a = b := by
    intro a b ha hb hd
    have h0 := hd 0 (by omega)
    have h1 := hd 1 (by omega)
    have h2 := hd 2 (by omega)
    have h3 := hd 3 (by omega)
    have h4 := hd 4 (by omega)
    have h5 := hd 5 (by omega)
    have h6 := hd 6 (by omega)
    have h7 := hd 7 (by omega)
    simp only [Nat.reducePow] at ha hb h0 h1 h2 h3 h4 h5 h6 h7
    omega
  have lt24 : ∀ (f : Nat → Nat) (o : Nat), (∀ k, f k < 256) → w24 f o < 8 ^ 8 := by
    intro f o hf
    have h1 := hf o
    have h2 := hf (o + 1)
    have h3 := hf (o + 2)
    unfold w24
    omega
  have w : ∀ t, t < 2 → w24 f (2 + 3 * t) = w24 g (2 + 3 * t) := by
    intro t ht
    refine digits _ _ (lt24 f _ hf) (lt24 g _ hg) fun i hi => ?_
    have := h (2 * t + i / 4) (i % 4) (by omega) (by omega)
    unfold code5 at this
    rw [show (2 * t + i / 4) / 2 = t by omega, show 4 * ((2 * t + i / 4) % 2) + i % 4 = i by omega] at this
    exact this
  have w0 := w 0 (by omega)
  have w1 := w 1 (by omega)
  simp only [Nat.mul_zero, Nat.mul_one, Nat.add_zero, Nat.reduceAdd, w24] at w0 w1
  intro k h2 h8
  have f2 := hf 2; have f3 := hf 3; have f4 := hf 4; have f5 := hf 5; have f6 := hf 6; have f7 := hf 7
  have g2 := hg 2; have g3 := hg 3; have g4 := hg 4; have g5 := hg 5; have g6 := hg 6; have g7 := hg 7
  obtain rfl | rfl | rfl | rfl | rfl | rfl : k = 2 ∨ k = 3 ∨ k = 4 ∨ k = 5 ∨ k = 6 ∨ k = 7 := by omega
  all_goals omega

/-- **C96: twice.** Inverting the alpha of compressed data twice gives the data back. -/
theorem C96_invert_twice (s : Surface) (hf : s.fmt = IL_DXT3 ∨ s.fmt = IL_DXT5) (hs : Complete s 16) :
    ∃ s', ilInvertSurfaceDxtcDataAlpha s = .ok (true, s') ∧ ilInvertSurfaceDxtcDataAlpha s' = .ok (true, s) := by
  obtain ⟨comp, e, l, ho, hi⟩ := inverted hs hf
  obtain ⟨comp2, e2, l2, ho2, hi2⟩ := inverted (s := { s with comp := comp })
    ⟨hs.width, hs.height, hs.depth, hs.fits, hs.data, by show _ ≤ comp.length; rw [l]; exact hs.comp⟩ hf
  refine ⟨{ s with comp := comp }, e, ?_⟩
  rw [e2]
  have : comp2 = s.comp := by
    refine list_at (l2.trans l) fun m hm => ?_
    by_cases hb : bytes 16 s.img.width s.img.height s.img.depth ≤ m
    · rw [ho2 m (by rw [← l2]; exact hm) hb, ho m (by rw [← l, ← l2]; exact hm) hb]
    · have hlt : m / 16 < (s.img.width + 3) / 4 * ((s.img.height + 3) / 4) * s.img.depth := by
        refine (Nat.div_lt_iff_lt_mul (by decide)).mpr ?_
        unfold bytes at hb
        omega
      have a := hi _ hlt
      have b := hi2 _ hlt
      dsimp only at b
      have key : ∀ k, k < 16 → at_ comp2 (m / 16 * 16) k = at_ s.comp (m / 16 * 16) k := by
        have hβ := at_lt s.comp (m / 16 * 16)
        generalize at_ s.comp (m / 16 * 16) = f at a hβ
        have hγ := at_lt comp2 (m / 16 * 16)
        generalize at_ comp2 (m / 16 * 16) = g at b hγ
        generalize at_ comp (m / 16 * 16) = t at a b
        intro k hk
        by_cases h8 : 8 ≤ k
        · rw [b.colour k h8 hk, a.colour k h8 hk]
        by_cases h3 : s.fmt = IL_DXT3
        · have := hβ k
          rw [b.dxt3 h3 k (by omega), a.dxt3 h3 k (by omega)]
          omega
        have x0 := hβ 0
        have x1 := hβ 1
        by_cases k2 : 2 ≤ k
        · refine codes_eq hγ hβ (fun j i hj hi => ?_) k k2 (by omega)
          rw [b.codes h3 j i hj hi, a.codes h3 j i hj hi, a.a0 h3, a.a1 h3]
          rw [show decide (255 - f 1 > 255 - f 0) = decide (f 0 > f 1) from decide_eq_decide.mpr (by omega)]
          exact newCode_newCode _ (Nat.mod_lt _ (by decide))
        obtain rfl | rfl : k = 0 ∨ k = 1 := by omega
        · rw [b.a0 h3, a.a1 h3]; omega
        · rw [b.a1 h3, a.a0 h3]; omega
      have := key (m % 16) (Nat.mod_lt _ (by decide))
      rw [at_zero, at_zero s.comp, Nat.div_add_mod'] at this
      exact this
  rw [this]

/-! ### Concrete cases -/

set_option maxRecDepth 20000 in
example : Complete (tall IL_DXT5 128) 16 := ⟨by decide, by decide, by decide, by decide, .inl rfl, by decide⟩
example : Complete (sample IL_DXT3 32) 16 ∧ (sample IL_DXT3 32).In 0 0 0 :=
  ⟨⟨by decide, by decide, by decide, by decide, .inl rfl, by decide⟩, by unfold Surface.In; decide⟩

end DevIL.Dxt
