import Verif.Lemmas.Dxt
/-! What flipping DXT data does to the bytes. -/
set_option autoImplicit false
namespace DevIL.Dxt

theorem swap2_spec {d : List UInt8} {i j : Nat} (hi : i < d.length) (hj : j < d.length) :
    ∃ d', swap2 i j d = .ok d' ∧ d'.length = d.length ∧ ∀ n, n < d.length →
      at_ d' 0 n = if n = j then at_ d 0 i else if n = i then at_ d 0 j else at_ d 0 n := by
  refine ⟨(d.set i d[j]).set j d[i], ?_, by simp, fun n hn => ?_⟩
  · unfold swap2
    rw [rd_of_lt hi, bind_ok, rd_of_lt hj, bind_ok, wr_of_lt hi, bind_ok, wr_of_lt (by simpa using hj)]
  · unfold at_
    rw [List.getD_eq_getElem?_getD, List.getElem?_set, List.getElem?_set, Nat.zero_add]
    by_cases h1 : j = n
    · subst h1
      simp [hi, hj]
    · rw [if_neg h1, if_neg (show ¬ n = j from fun h => h1 h.symm)]
      by_cases h2 : i = n
      · subst h2
        simp [hi, hj]
      · rw [if_neg h2, if_neg (show ¬ n = i from fun h => h2 h.symm), List.getD_eq_getElem?_getD]

theorem wr_spec {d : List UInt8} {i : Nat} {v : UInt8} (hi : i < d.length) :
    ∃ d', wr d i v = .ok d' ∧ d'.length = d.length ∧ ∀ n, n < d.length → at_ d' 0 n = if n = i then v.toNat else at_ d 0 n := by
  refine ⟨d.set i v, wr_of_lt hi, by simp, fun n hn => ?_⟩
  unfold at_
  rw [List.getD_eq_getElem?_getD, List.getElem?_set, Nat.zero_add]
  by_cases h1 : i = n
  · subst h1; simp [hi]
  · rw [if_neg h1, if_neg (fun h => h1 h.symm), List.getD_eq_getElem?_getD]

theorem at_zero (d : List UInt8) (p k : Nat) : at_ d p k = at_ d 0 (p + k) := by unfold at_; rw [Nat.zero_add]

/-- The rows of a colour block at `o` in the opposite order. -/
def fbC (β : Nat → Nat) (o k : Nat) : Nat :=
  if k = o + 4 then β (o + 7) else if k = o + 5 then β (o + 6) else if k = o + 6 then β (o + 5) else if k = o + 7 then β (o + 4) else β k

theorem iFlipColorBlock_spec {d : List UInt8} {p o : Nat} (h : p + o + 8 ≤ d.length) :
    ∃ d', iFlipColorBlock (p + o) d = .ok d' ∧ d'.length = d.length ∧ (∀ n, n < d.length → at_ d' 0 n = if n < p then at_ d 0 n else
      fbC (at_ d p) o (n - p)) := by
  obtain ⟨d1, e1, l1, s1⟩ := swap2_spec (d := d) (i := p + o + 4) (j := p + o + 7) (by omega) (by omega)
  obtain ⟨d2, e2, l2, s2⟩ := swap2_spec (d := d1) (i := p + o + 5) (j := p + o + 6) (by omega) (by omega)
  refine ⟨d2, by unfold iFlipColorBlock; rw [e1, bind_ok, e2], by omega, fun n hn => ?_⟩
  rw [s2 n (by omega), s1 n hn, s1 _ (by omega), s1 _ (by omega)]
  by_cases hp : n < p
  · rw [if_pos hp, if_neg (by omega), if_neg (by omega), if_neg (by omega), if_neg (by omega)]
  · rw [if_neg hp]
    obtain ⟨k, rfl⟩ : ∃ k, n = p + k := ⟨n - p, by omega⟩
    rw [Nat.add_sub_cancel_left]
    unfold fbC
    simp only [at_zero d p]
    rw [if_neg (show ¬ p + o + 5 = p + o + 7 by omega), if_neg (show ¬ p + o + 5 = p + o + 4 by omega),
      if_neg (show ¬ p + o + 6 = p + o + 7 by omega), if_neg (show ¬ p + o + 6 = p + o + 4 by omega)]
    by_cases a6 : k = o + 6
    · rw [if_pos (by omega), if_neg (by omega), if_neg (by omega), if_pos a6, Nat.add_assoc]
    rw [if_neg (show ¬ p + k = p + o + 6 by omega), if_neg a6]
    by_cases a5 : k = o + 5
    · rw [if_pos (by omega), if_neg (by omega), if_pos a5, Nat.add_assoc]
    rw [if_neg (show ¬ p + k = p + o + 5 by omega), if_neg a5]
    by_cases a7 : k = o + 7
    · rw [if_pos (by omega), if_neg (by omega), if_pos a7, Nat.add_assoc]
    rw [if_neg (show ¬ p + k = p + o + 7 by omega), if_neg a7]
    by_cases a4 : k = o + 4
    · rw [if_pos (by omega), if_pos a4, Nat.add_assoc]
    rw [if_neg (show ¬ p + k = p + o + 4 by omega), if_neg a4]

/-- The rows of a DXT3 alpha block in the opposite order. -/
def fb3 (β : Nat → Nat) (k : Nat) : Nat := if k < 8 then β ([6, 7, 4, 5, 2, 3, 0, 1].getD k 0) else β k

/-- The byte `k` of three bytes whose halves change places. -/
def half (a b c k : Nat) : Nat := if k = 0 then b / 16 + c % 16 * 16 else if k = 1 then c / 16 + a % 16 * 16 else a / 16 + b % 16 * 16

/-- The rows of a DXT5 alpha block in the opposite order. -/
def fb5 (β : Nat → Nat) (k : Nat) : Nat :=
  if k < 2 then β k else if k < 5 then half (β 5) (β 6) (β 7) (k - 2) else if k < 8 then half (β 2) (β 3) (β 4) (k - 5) else β k

/-- A flipped block. -/
def fb (fmt : Nat) (β : Nat → Nat) (k : Nat) : Nat :=
  if fmt = IL_DXT1 then fbC β 0 k else if k < 8 then (if fmt = IL_DXT3 then fb3 β k else fb5 β k) else fbC β 8 k

theorem iFlipSimpleAlphaBlock_spec {d : List UInt8} {p : Nat} (h : p + 8 ≤ d.length) :
    ∃ d', iFlipSimpleAlphaBlock p d = .ok d' ∧ d'.length = d.length ∧ ∀ n, n < d.length → at_ d' 0 n = if n < p then at_ d 0 n else
      fb3 (at_ d p) (n - p) := by
  obtain ⟨d1, e1, l1, s1⟩ := swap2_spec (d := d) (i := p) (j := p + 6) (by omega) (by omega)
  obtain ⟨d2, e2, l2, s2⟩ := swap2_spec (d := d1) (i := p + 1) (j := p + 6 + 1) (by omega) (by omega)
  obtain ⟨d3, e3, l3, s3⟩ := swap2_spec (d := d2) (i := p + 2) (j := p + 4) (by omega) (by omega)
  obtain ⟨d4, e4, l4, s4⟩ := swap2_spec (d := d3) (i := p + 2 + 1) (j := p + 4 + 1) (by omega) (by omega)
  refine ⟨d4, ?_, by omega, fun n hn => ?_⟩
  · unfold iFlipSimpleAlphaBlock swapShort
    rw [e1, bind_ok, e2, bind_ok, e3, bind_ok, e4]
  · by_cases hp : n < p
    · rw [if_pos hp, s4 n (by omega), if_neg (by omega), if_neg (by omega), s3 n (by omega), if_neg (by omega), if_neg (by omega),
        s2 n (by omega), if_neg (by omega), if_neg (by omega), s1 n (by omega), if_neg (by omega), if_neg (by omega)]
    · rw [if_neg hp]
      obtain ⟨k, rfl⟩ : ∃ k, n = p + k := ⟨n - p, by omega⟩
      rw [Nat.add_sub_cancel_left]
      unfold fb3
      by_cases h8 : k < 8
      · rw [if_pos h8]
        simp only [at_zero d p]
        obtain rfl | rfl | rfl | rfl | rfl | rfl | rfl | rfl : k = 0 ∨ k = 1 ∨ k = 2 ∨ k = 3 ∨ k = 4 ∨ k = 5 ∨ k = 6 ∨ k = 7 := by omega
        all_goals
          repeat first
            | rw [s4 _ (by omega)]
            | rw [s3 _ (by omega)]
            | rw [s2 _ (by omega)]
            | rw [s1 _ (by omega)]
          simp [Nat.add_assoc]
      · rw [if_neg h8, at_zero d p, s4 _ (by omega), if_neg (by omega), if_neg (by omega), s3 _ (by omega), if_neg (by omega),
          if_neg (by omega), s2 _ (by omega), if_neg (by omega), if_neg (by omega), s1 _ (by omega), if_neg (by omega), if_neg (by omega)]

theorem halves {a b c : Nat} (ha : a < 256) (hb : b < 256) (hc : c < 256) :
    let t0 := (a ||| b <<< 8) &&& 0xfff
    let t1 := (b >>> 4 ||| c <<< 4) &&& 0xfff
    (UInt8.ofNat t1).toNat = half a b c 0 ∧ (UInt8.ofNat (t1 >>> 8 ||| t0 <<< 4)).toNat = half a b c 1 ∧
      (UInt8.ofNat (t0 >>> 4)).toNat = half a b c 2 := by
  have h12 : (0xfff : Nat) = 2 ^ 12 - 1 := rfl
  have e0 : (a ||| b <<< 8) &&& 0xfff = a + 256 * (b % 16) := by
    rw [h12, Nat.and_two_pow_sub_one_eq_mod, Nat.or_comm, ← Nat.shiftLeft_add_eq_or_of_lt (by omega), Nat.shiftLeft_eq]
    omega
  have e1 : (b >>> 4 ||| c <<< 4) &&& 0xfff = b / 16 + 16 * c := by
    rw [h12, Nat.and_two_pow_sub_one_eq_mod, Nat.or_comm, ← Nat.shiftLeft_add_eq_or_of_lt (by rw [Nat.shiftRight_eq_div_pow]; omega),
      Nat.shiftLeft_eq, Nat.shiftRight_eq_div_pow]
    omega
  dsimp only
  rw [e0, e1]
  unfold half
  have o : ∀ v : Nat, (UInt8.ofNat v).toNat = v % 256 := fun v => by simp
  refine ⟨?_, ?_, ?_⟩
  · rw [o, if_pos rfl]; omega
  · rw [o, if_neg (by decide), if_pos rfl, Nat.or_comm, ← Nat.shiftLeft_add_eq_or_of_lt (by rw [Nat.shiftRight_eq_div_pow]; omega),
      Nat.shiftLeft_eq, Nat.shiftRight_eq_div_pow]
    have hq : b / 16 < 16 := by omega
    generalize b / 16 = q at *
    generalize b % 16 = r at *
    clear e0 e1 h12
    have h1 : (q + 16 * c) / 2 ^ 8 = c / 16 := by omega
    rw [h1]
    omega
  · rw [o, if_neg (by decide), if_neg (by decide), Nat.shiftRight_eq_div_pow]; omega

theorem iComplexAlphaHelper_spec {d : List UInt8} {p : Nat} (h : p + 3 ≤ d.length) :
    ∃ d', iComplexAlphaHelper p d = .ok d' ∧ d'.length = d.length ∧ ∀ n, n < d.length → at_ d' 0 n =
      if n < p then at_ d 0 n else if n < p + 3 then half (at_ d 0 p) (at_ d 0 (p + 1)) (at_ d 0 (p + 2)) (n - p) else at_ d 0 n := by
  obtain ⟨a, e1, h1⟩ := rd_at (comp := d) (t := 0) (i := p) (by omega)
  obtain ⟨b, e2, h2⟩ := rd_at (comp := d) (t := 0) (i := p + 1) (by omega)
  obtain ⟨c, e3, h3⟩ := rd_at (comp := d) (t := 0) (i := p + 2) (by omega)
  rw [Nat.zero_add] at e1 e2 e3
  obtain ⟨g0, g1, g2⟩ := halves (at_lt d 0 p) (at_lt d 0 (p + 1)) (at_lt d 0 (p + 2))
  unfold iComplexAlphaHelper
  rw [e1, bind_ok, e2, bind_ok, e3, bind_ok, h1, h2, h3]
  dsimp only
  obtain ⟨d1, f1, l1, s1⟩ := wr_spec (d := d) (i := p) (v := UInt8.ofNat ((at_ d 0 (p + 1) >>> 4 ||| at_ d 0 (p + 2) <<< 4) &&& 0xfff)) (by omega)
  obtain ⟨d2, f2, l2, s2⟩ := wr_spec (d := d1) (i := p + 1) (v := UInt8.ofNat (((at_ d 0 (p + 1) >>> 4 ||| at_ d 0 (p + 2) <<< 4) &&& 0xfff) >>> 8 |||
    ((at_ d 0 p ||| at_ d 0 (p + 1) <<< 8) &&& 0xfff) <<< 4)) (by omega)
  obtain ⟨d3, f3, l3, s3⟩ := wr_spec (d := d2) (i := p + 2) (v := UInt8.ofNat (((at_ d 0 p ||| at_ d 0 (p + 1) <<< 8) &&& 0xfff) >>> 4)) (by omega)
  rw [f1, bind_ok, f2, bind_ok, f3]
  refine ⟨d3, rfl, by omega, fun n hn => ?_⟩
  rw [s3 n (by omega), s2 n (by omega), s1 n hn]
  by_cases hp : n < p
  · rw [if_pos hp, if_neg (by omega), if_neg (by omega), if_neg (by omega)]
  · rw [if_neg hp]
    by_cases hp3 : n < p + 3
    · rw [if_pos hp3]
      obtain rfl | rfl | rfl : n = p ∨ n = p + 1 ∨ n = p + 2 := by omega
      · rw [if_neg (by omega), if_neg (by omega), if_pos rfl, Nat.sub_self]; exact g0
      · rw [if_neg (by omega), if_pos rfl, Nat.add_sub_cancel_left]; exact g1
      · rw [if_pos rfl, Nat.add_sub_cancel_left]; exact g2
    · rw [if_neg hp3, if_neg (by omega), if_neg (by omega), if_neg (by omega)]

theorem iFlipComplexAlphaBlock_spec {d : List UInt8} {p : Nat} (h : p + 8 ≤ d.length) :
    ∃ d', iFlipComplexAlphaBlock p d = .ok d' ∧ d'.length = d.length ∧ ∀ n, n < d.length → at_ d' 0 n = if n < p then at_ d 0 n else
      fb5 (at_ d p) (n - p) := by
  obtain ⟨d1, e1, l1, s1⟩ := swap2_spec (d := d) (i := p + 2) (j := p + 5) (by omega) (by omega)
  obtain ⟨d2, e2, l2, s2⟩ := swap2_spec (d := d1) (i := p + 3) (j := p + 6) (by omega) (by omega)
  obtain ⟨d3, e3, l3, s3⟩ := swap2_spec (d := d2) (i := p + 4) (j := p + 7) (by omega) (by omega)
  obtain ⟨d4, e4, l4, s4⟩ := iComplexAlphaHelper_spec (d := d3) (p := p + 2) (by omega)
  obtain ⟨d5, e5, l5, s5⟩ := iComplexAlphaHelper_spec (d := d4) (p := p + 5) (by omega)
  have m2 : at_ d3 0 (p + 2) = at_ d 0 (p + 5) := by
    rw [s3 _ (by omega), if_neg (by omega), if_neg (by omega), s2 _ (by omega), if_neg (by omega), if_neg (by omega), s1 _ (by omega),
      if_neg (by omega), if_pos rfl]
  have m3 : at_ d3 0 (p + 3) = at_ d 0 (p + 6) := by
    rw [s3 _ (by omega), if_neg (by omega), if_neg (by omega), s2 _ (by omega), if_neg (by omega), if_pos rfl, s1 _ (by omega),
      if_neg (by omega), if_neg (by omega)]
  have m4 : at_ d3 0 (p + 4) = at_ d 0 (p + 7) := by
    rw [s3 _ (by omega), if_neg (by omega), if_pos rfl, s2 _ (by omega), if_neg (by omega), if_neg (by omega), s1 _ (by omega),
      if_neg (by omega), if_neg (by omega)]
  have m5 : at_ d3 0 (p + 5) = at_ d 0 (p + 2) := by
    rw [s3 _ (by omega), if_neg (by omega), if_neg (by omega), s2 _ (by omega), if_neg (by omega), if_neg (by omega), s1 _ (by omega),
      if_pos rfl]
  have m6 : at_ d3 0 (p + 6) = at_ d 0 (p + 3) := by
    rw [s3 _ (by omega), if_neg (by omega), if_neg (by omega), s2 _ (by omega), if_pos rfl, s1 _ (by omega), if_neg (by omega),
      if_neg (by omega)]
  have m7 : at_ d3 0 (p + 7) = at_ d 0 (p + 4) := by
    rw [s3 _ (by omega), if_pos rfl, s2 _ (by omega), if_neg (by omega), if_neg (by omega), s1 _ (by omega), if_neg (by omega),
      if_neg (by omega)]
  have mo : ∀ n, n < d.length → n < p + 2 ∨ p + 8 ≤ n → at_ d3 0 n = at_ d 0 n := fun n hn hr => by
    rw [s3 _ (by omega), if_neg (by omega), if_neg (by omega), s2 _ (by omega), if_neg (by omega), if_neg (by omega), s1 _ (by omega),
      if_neg (by omega), if_neg (by omega)]
  have q : ∀ k, p + 5 + k < p + 8 → at_ d4 0 (p + 5 + k) = at_ d3 0 (p + 5 + k) := fun k hk => by
    rw [s4 _ (by omega), if_neg (by omega), if_neg (by omega)]
  refine ⟨d5, ?_, by omega, fun n hn => ?_⟩
  · unfold iFlipComplexAlphaBlock
    rw [e1, bind_ok, e2, bind_ok, e3, bind_ok, e4, bind_ok, e5]
  · rw [s5 n (by omega)]
    by_cases hp : n < p
    · rw [if_pos hp, if_pos (by omega), s4 n (by omega), if_pos (by omega), mo n hn (by omega)]
    · rw [if_neg hp]
      obtain ⟨k, rfl⟩ : ∃ k, n = p + k := ⟨n - p, by omega⟩
      rw [Nat.add_sub_cancel_left]
      unfold fb5
      simp only [at_zero d p]
      by_cases k2 : k < 2
      · rw [if_pos k2, if_pos (by omega), s4 _ (by omega), if_pos (by omega), mo _ hn (by omega)]
      rw [if_neg k2]
      by_cases k5 : k < 5
      · rw [if_pos k5, if_pos (by omega), s4 _ (by omega), if_neg (by omega), if_pos (by omega), m2, show p + 2 + 1 = p + 3 by omega, m3,
          show p + 2 + 2 = p + 4 by omega, m4, show p + k - (p + 2) = k - 2 by omega]
      rw [if_neg k5, if_neg (by omega)]
      by_cases k8 : k < 8
      · rw [if_pos k8, if_pos (by omega), show p + k - (p + 5) = k - 5 by omega]
        have q0 := q 0 (by omega)
        rw [Nat.add_zero] at q0
        rw [q0, q 1 (by omega), q 2 (by omega), m5, show p + 5 + 1 = p + 6 by omega, m6, show p + 5 + 2 = p + 7 by omega, m7]
      · rw [if_neg k8, if_neg (by omega), s4 _ (by omega), if_neg (by omega), if_neg (by omega), mo _ hn (by omega)]

/-- Flipping one block. -/
theorem flipBlock_spec {fmt : Nat} {d : List UInt8} {p : Nat} (h : p + bsize fmt ≤ d.length) :
    ∃ d', flipBlock fmt p d = .ok d' ∧ d'.length = d.length ∧ ∀ n, n < d.length → at_ d' 0 n =
      if p ≤ n ∧ n < p + bsize fmt then fb fmt (at_ d p) (n - p) else at_ d 0 n := by
  unfold flipBlock
  by_cases h1 : fmt = IL_DXT1
  · rw [if_pos h1]
    have hb : bsize fmt = 8 := by unfold bsize; rw [if_pos h1]
    rw [hb] at h ⊢
    obtain ⟨d', e, l, s⟩ := iFlipColorBlock_spec (d := d) (p := p) (o := 0) (by omega)
    refine ⟨d', e, l, fun n hn => ?_⟩
    rw [s n hn]
    by_cases hp : n < p
    · rw [if_pos hp, if_neg (by omega)]
    · rw [if_neg hp]
      by_cases h8 : n < p + 8
      · rw [if_pos ⟨by omega, h8⟩]; unfold fb; rw [if_pos h1]
      · rw [if_neg (by omega)]
        unfold fbC
        rw [if_neg (by omega), if_neg (by omega), if_neg (by omega), if_neg (by omega), at_zero, show p + (n - p) = n by omega]
  · rw [if_neg h1]
    have hb : bsize fmt = 16 := by unfold bsize; rw [if_neg h1]
    rw [hb] at h ⊢
    have fin : ∀ (g : (Nat → Nat) → Nat → Nat) (d1 : List UInt8), d1.length = d.length → (∀ n, n < d.length → at_ d1 0 n =
        if n < p then at_ d 0 n else g (at_ d p) (n - p)) → (∀ β k, 8 ≤ k → g β k = β k) → (∀ k, k < 8 → fb fmt (at_ d p) k = g (at_ d p) k) →
        ∃ d', iFlipColorBlock (p + 8) d1 = .ok d' ∧ d'.length = d.length ∧ ∀ n, n < d.length → at_ d' 0 n =
          if p ≤ n ∧ n < p + 16 then fb fmt (at_ d p) (n - p) else at_ d 0 n := by
      intro g d1 l1 s1 hg1 hg2
      obtain ⟨d', e, l, s⟩ := iFlipColorBlock_spec (d := d1) (p := p) (o := 8) (by omega)
      have up : ∀ k, p + k < d.length → 8 ≤ k → at_ d1 p k = at_ d p k := fun k hk h8 => by
        rw [at_zero, s1 _ hk, if_neg (by omega), Nat.add_sub_cancel_left, hg1 _ _ h8]
      refine ⟨d', e, by omega, fun n hn => ?_⟩
      rw [s n (by omega)]
      by_cases hp : n < p
      · rw [if_pos hp, if_neg (by omega), s1 n hn, if_pos hp]
      · rw [if_neg hp]
        obtain ⟨k, rfl⟩ : ∃ k, n = p + k := ⟨n - p, by omega⟩
        rw [Nat.add_sub_cancel_left]
        by_cases h8 : k < 8
        · rw [if_pos ⟨by omega, by omega⟩, hg2 k h8]
          unfold fbC
          rw [if_neg (by omega), if_neg (by omega), if_neg (by omega), if_neg (by omega), at_zero, s1 _ hn, if_neg (by omega),
            Nat.add_sub_cancel_left]
        · have : fbC (at_ d1 p) 8 k = fbC (at_ d p) 8 k := by
            unfold fbC
            rw [up 15 (by omega) (by omega), up 14 (by omega) (by omega), up 13 (by omega) (by omega), up 12 (by omega) (by omega),
              up k hn (by omega)]
          rw [this]
          by_cases h16 : k < 16
          · rw [if_pos ⟨by omega, by omega⟩]
            unfold fb
            rw [if_neg h1, if_neg h8]
          · rw [if_neg (by omega)]
            unfold fbC
            rw [if_neg (by omega), if_neg (by omega), if_neg (by omega), if_neg (by omega), at_zero]
    by_cases h3 : fmt = IL_DXT3
    · rw [if_pos h3]
      obtain ⟨d1, e1, l1, s1⟩ := iFlipSimpleAlphaBlock_spec (d := d) (p := p) (by omega)
      rw [e1, bind_ok]
      refine fin fb3 d1 l1 s1 (fun β k hk => ?_) (fun k hk => ?_)
      · unfold fb3; rw [if_neg (by omega)]
      · unfold fb; rw [if_neg h1, if_pos hk, if_pos h3]
    · rw [if_neg h3]
      obtain ⟨d1, e1, l1, s1⟩ := iFlipComplexAlphaBlock_spec (d := d) (p := p) (by omega)
      rw [e1, bind_ok]
      refine fin fb5 d1 l1 s1 (fun β k hk => ?_) (fun k hk => ?_)
      · unfold fb5; rw [if_neg (by omega), if_neg (by omega), if_neg (by omega)]
      · unfold fb; rw [if_neg h1, if_pos hk, if_neg h3]

theorem fb_congr {fmt : Nat} {β β' : Nat → Nat} (h : ∀ i, i < bsize fmt → β i = β' i) {k : Nat} (hk : k < bsize fmt) : fb fmt β k = fb fmt β' k := by
  unfold fb
  by_cases h1 : fmt = IL_DXT1
  · have hb : bsize fmt = 8 := by unfold bsize; rw [if_pos h1]
    rw [hb] at h hk
    rw [if_pos h1, if_pos h1]
    unfold fbC
    rw [h _ (by omega), h _ (by omega), h _ (by omega), h _ (by omega), h k hk]
  · have hb : bsize fmt = 16 := by unfold bsize; rw [if_neg h1]
    rw [hb] at h hk
    rw [if_neg h1, if_neg h1]
    by_cases h8 : k < 8
    · rw [if_pos h8, if_pos h8]
      by_cases h3 : fmt = IL_DXT3
      · rw [if_pos h3, if_pos h3]
        unfold fb3
        rw [if_pos h8, if_pos h8]
        refine h _ ?_
        obtain rfl | rfl | rfl | rfl | rfl | rfl | rfl | rfl : k = 0 ∨ k = 1 ∨ k = 2 ∨ k = 3 ∨ k = 4 ∨ k = 5 ∨ k = 6 ∨ k = 7 := by omega
        all_goals decide
      · rw [if_neg h3, if_neg h3]
        unfold fb5
        rw [h 2 (by omega), h 3 (by omega), h 4 (by omega), h 5 (by omega), h 6 (by omega), h 7 (by omega), h k hk]
    · rw [if_neg h8, if_neg h8]
      unfold fbC
      rw [h _ (by omega), h _ (by omega), h _ (by omega), h _ (by omega), h k hk]

theorem bsize_pos (fmt : Nat) : 0 < bsize fmt := by unfold bsize; split <;> decide

theorem flipBlocks_spec {fmt n p : Nat} {d : List UInt8} (h : p + n * bsize fmt ≤ d.length) :
    ∃ d', flipBlocks fmt p n d = .ok d' ∧ d'.length = d.length ∧ ∀ m, m < d.length → at_ d' 0 m =
      if p ≤ m ∧ m < p + n * bsize fmt then fb fmt (at_ d (p + (m - p) / bsize fmt * bsize fmt)) ((m - p) % bsize fmt) else at_ d 0 m := by
  have hb := bsize_pos fmt
  unfold flipBlocks
  induction n with
  | zero => exact ⟨d, rfl, rfl, fun m hm => by rw [if_neg (by omega)]⟩
  | succ n ih =>
    rw [Nat.add_one_mul] at h
    obtain ⟨d1, e1, l1, s1⟩ := ih (by omega)
    obtain ⟨d2, e2, l2, s2⟩ := flipBlock_spec (fmt := fmt) (d := d1) (p := p + n * bsize fmt) (by omega)
    refine ⟨d2, by rw [loopN_succ, e1, bind_ok]; exact e2, by omega, fun m hm => ?_⟩
    rw [s2 m (by omega), Nat.add_one_mul]
    by_cases hin : p + n * bsize fmt ≤ m ∧ m < p + n * bsize fmt + bsize fmt
    · rw [if_pos hin, if_pos ⟨by omega, by omega⟩]
      obtain ⟨r, hr, rfl⟩ : ∃ r, r < bsize fmt ∧ m = p + n * bsize fmt + r := ⟨m - (p + n * bsize fmt), by omega, by omega⟩
      rw [show p + n * bsize fmt + r - p = n * bsize fmt + r by omega, idx_div hr, idx_mod hr, Nat.add_sub_cancel_left]
      refine fb_congr (fun i hi => ?_) hr
      rw [at_zero, s1 _ (by omega), if_neg (by omega), ← at_zero]
    · rw [if_neg hin, s1 m hm]
      by_cases hin2 : p ≤ m ∧ m < p + n * bsize fmt
      · rw [if_pos hin2, if_pos ⟨by omega, by omega⟩]
      · rw [if_neg hin2, if_neg (by omega)]

theorem memcpy_at {d src : List UInt8} {a b n : Nat} (h1 : b + n ≤ src.length) (h2 : a + n ≤ d.length) :
    ∃ d', memcpy d a src b n = .ok d' ∧ d'.length = d.length ∧ ∀ m, at_ d' 0 m = if a ≤ m ∧ m < a + n then at_ src 0 (b + (m - a)) else at_ d 0 m := by
  obtain ⟨d', e, l, s⟩ := memcpy_get h1 h2
  refine ⟨d', e, l, fun m => ?_⟩
  unfold at_
  simp only [List.getD_eq_getElem?_getD, s, Nat.zero_add]
  split <;> rfl

theorem swapRows_spec (junk : Nat → UInt8) {d : List UInt8} {line top bottom : Nat} (h1 : top + line ≤ d.length) (h2 : bottom + line ≤ d.length) :
    ∃ d', swapRows junk line top bottom d = .ok d' ∧ d'.length = d.length ∧ ∀ m, at_ d' 0 m =
      if bottom ≤ m ∧ m < bottom + line then at_ d 0 (top + (m - bottom))
      else if top ≤ m ∧ m < top + line then at_ d 0 (bottom + (m - top)) else at_ d 0 m := by
  obtain ⟨t, e1, l1, s1⟩ := memcpy_at (d := alloc junk line) (src := d) (a := 0) (b := top) (n := line) h1 (by simp)
  rw [alloc_length] at l1
  obtain ⟨d1, e2, l2, s2⟩ := memcpy_at (d := d) (src := d) (a := top) (b := bottom) (n := line) h2 h1
  obtain ⟨d2, e3, l3, s3⟩ := memcpy_at (d := d1) (src := t) (a := bottom) (b := 0) (n := line) (by omega) (by omega)
  refine ⟨d2, by unfold swapRows; rw [e1, bind_ok, e2, bind_ok, e3], by omega, fun m => ?_⟩
  rw [s3, s2]
  by_cases hb : bottom ≤ m ∧ m < bottom + line
  · rw [if_pos hb, if_pos hb, s1, if_pos ⟨by omega, by omega⟩, Nat.zero_add, Nat.sub_zero]
  · rw [if_neg hb, if_neg hb]

theorem row_iff {line ρ m : Nat} (hl : 0 < line) : (ρ * line ≤ m ∧ m < ρ * line + line) ↔ m / line = ρ := by
  constructor
  · intro ⟨h1, h2⟩
    obtain ⟨r, hr, rfl⟩ : ∃ r, r < line ∧ m = ρ * line + r := ⟨m - ρ * line, by omega, by omega⟩
    exact idx_div hr
  · rintro rfl
    have h1 := Nat.div_add_mod m line
    have h2 := Nat.mod_lt m hl
    rw [Nat.mul_comm] at h1
    omega

theorem sub_row {line m : Nat} : m - m / line * line = m % line := by
  have h1 := Nat.div_add_mod m line
  rw [Nat.mul_comm] at h1
  omega

/-- Byte `r` of row of blocks `ρ`, flipped. -/
def rowFb (fmt line : Nat) (d : List UInt8) (ρ r : Nat) : Nat := fb fmt (at_ d (ρ * line + r / bsize fmt * bsize fmt)) (r % bsize fmt)

theorem rowFb_congr {fmt nx : Nat} {d d' : List UInt8} {ρ : Nat} (h : ∀ r, r < nx * bsize fmt → at_ d 0 (ρ * (nx * bsize fmt) + r) =
    at_ d' 0 (ρ * (nx * bsize fmt) + r)) {r : Nat} (hr : r < nx * bsize fmt) :
    rowFb fmt (nx * bsize fmt) d ρ r = rowFb fmt (nx * bsize fmt) d' ρ r := by
  have hb := bsize_pos fmt
  unfold rowFb
  refine fb_congr (fun i hi => ?_) (Nat.mod_lt _ hb)
  have hq : r / bsize fmt < nx := (Nat.div_lt_iff_lt_mul hb).mpr hr
  rw [at_zero, at_zero d', Nat.add_assoc]
  exact h _ (idx_lt hq hi)

/-- Flipping the blocks of one row. -/
theorem flipRow_spec {fmt nx ρ : Nat} {d : List UInt8} (hn : 0 < nx) (h : ρ * (nx * bsize fmt) + nx * bsize fmt ≤ d.length) :
    ∃ d', flipBlocks fmt (ρ * (nx * bsize fmt)) nx d = .ok d' ∧ d'.length = d.length ∧ ∀ m, m < d.length → at_ d' 0 m =
      if m / (nx * bsize fmt) = ρ then rowFb fmt (nx * bsize fmt) d ρ (m % (nx * bsize fmt)) else at_ d 0 m := by
  have hl : 0 < nx * bsize fmt := Nat.mul_pos hn (bsize_pos fmt)
  obtain ⟨d', e, l, s⟩ := flipBlocks_spec (fmt := fmt) (n := nx) (p := ρ * (nx * bsize fmt)) (d := d) h
  refine ⟨d', e, l, fun m hm => ?_⟩
  rw [s m hm]
  by_cases hr : m / (nx * bsize fmt) = ρ
  · rw [if_pos ((row_iff hl).mpr hr), if_pos hr]
    subst hr
    rw [sub_row]
    rfl
  · rw [if_neg (fun h => hr ((row_iff hl).mp h)), if_neg hr]

/-- Exchanging and flipping two rows. -/
theorem pair_spec (junk : Nat → UInt8) {fmt nx ρ σ : Nat} {d : List UInt8} (hn : 0 < nx) (hne : ρ ≠ σ)
    (h1 : ρ * (nx * bsize fmt) + nx * bsize fmt ≤ d.length) (h2 : σ * (nx * bsize fmt) + nx * bsize fmt ≤ d.length) :
    ∃ d', (do
      let d ← swapRows junk (nx * bsize fmt) (ρ * (nx * bsize fmt)) (σ * (nx * bsize fmt)) d
      let d ← flipBlocks fmt (ρ * (nx * bsize fmt)) nx d
      flipBlocks fmt (σ * (nx * bsize fmt)) nx d) = .ok d' ∧ d'.length = d.length ∧ ∀ m, m < d.length → at_ d' 0 m =
      if m / (nx * bsize fmt) = ρ then rowFb fmt (nx * bsize fmt) d σ (m % (nx * bsize fmt))
      else if m / (nx * bsize fmt) = σ then rowFb fmt (nx * bsize fmt) d ρ (m % (nx * bsize fmt)) else at_ d 0 m := by
  have hb := bsize_pos fmt
  have hl : 0 < nx * bsize fmt := Nat.mul_pos hn hb
  obtain ⟨d1, e1, l1, s1⟩ := swapRows_spec junk h1 h2
  obtain ⟨d2, e2, l2, s2⟩ := flipRow_spec (fmt := fmt) (nx := nx) (ρ := ρ) (d := d1) hn (by omega)
  obtain ⟨d3, e3, l3, s3⟩ := flipRow_spec (fmt := fmt) (nx := nx) (ρ := σ) (d := d2) hn (by omega)
  refine ⟨d3, by rw [e1, bind_ok, e2, bind_ok, e3], by omega, fun m hm => ?_⟩
  have hm' := Nat.mod_lt m hl
  have g1 : ∀ r, r < nx * bsize fmt → at_ d1 0 (ρ * (nx * bsize fmt) + r) = at_ d 0 (σ * (nx * bsize fmt) + r) := fun r hr => by
    rw [s1, if_neg (fun h => hne (by rw [← (row_iff hl).mp h, idx_div hr])), if_pos ⟨by omega, by omega⟩, Nat.add_sub_cancel_left]
  have g2 : ∀ r, r < nx * bsize fmt → at_ d1 0 (σ * (nx * bsize fmt) + r) = at_ d 0 (ρ * (nx * bsize fmt) + r) := fun r hr => by
    rw [s1, if_pos ⟨by omega, by omega⟩, Nat.add_sub_cancel_left]
  have tr : ∀ (a b : List UInt8) (x y r : Nat), r < nx * bsize fmt → (∀ r, r < nx * bsize fmt → at_ a 0 (x * (nx * bsize fmt) + r) =
      at_ b 0 (y * (nx * bsize fmt) + r)) → rowFb fmt (nx * bsize fmt) a x r = rowFb fmt (nx * bsize fmt) b y r := by
    intro a b x y r hr hh
    unfold rowFb
    refine fb_congr (fun i hi => ?_) (Nat.mod_lt _ hb)
    have hq : r / bsize fmt < nx := (Nat.div_lt_iff_lt_mul hb).mpr hr
    rw [at_zero, at_zero b, Nat.add_assoc, Nat.add_assoc]
    exact hh _ (idx_lt hq hi)
  rw [s3 m (by omega)]
  by_cases hσ : m / (nx * bsize fmt) = σ
  · rw [if_pos hσ, if_neg (by omega), if_pos hσ]
    refine tr _ _ _ _ _ hm' (fun r hr => ?_)
    rw [s2 _ (by omega), if_neg (by rw [idx_div hr]; exact fun h => hne h.symm), g2 r hr]
  · rw [if_neg hσ, if_neg hσ, s2 m (by omega)]
    by_cases hρ : m / (nx * bsize fmt) = ρ
    · rw [if_pos hρ, if_pos hρ]
      exact tr _ _ _ _ _ hm' g1
    · rw [if_neg hρ, if_neg hρ, s1, if_neg (fun h => hσ ((row_iff hl).mp h)), if_neg (fun h => hρ ((row_iff hl).mp h))]

/-- Flipping one slice. -/
theorem flipSlice_spec (junk : Nat → UInt8) {fmt nx ny z : Nat} {t : List UInt8} (hn : 0 < nx) (hy : 0 < ny)
    (h : (z * ny + ny) * (nx * bsize fmt) ≤ t.length) :
    ∃ d', flipSlice junk fmt nx ny (z * (nx * blockSize fmt * ny)) t = .ok d' ∧ d'.length = t.length ∧ ∀ m, m < t.length → at_ d' 0 m =
      if m / (nx * bsize fmt) / ny = z then rowFb fmt (nx * bsize fmt) t (z * ny + (ny - 1 - m / (nx * bsize fmt) % ny)) (m % (nx * bsize fmt))
      else at_ t 0 m := by
  have hl : 0 < nx * bsize fmt := Nat.mul_pos hn (bsize_pos fmt)
  have hbs : blockSize fmt = bsize fmt := rfl
  have base : ∀ y, z * (nx * blockSize fmt * ny) + y * (nx * blockSize fmt) = (z * ny + y) * (nx * bsize fmt) := fun y => by rw [hbs]; grind
  have fits : ∀ y, y < ny → (z * ny + y) * (nx * bsize fmt) + nx * bsize fmt ≤ t.length := fun y hy => by
    have := Nat.mul_le_mul_right (nx * bsize fmt) (show z * ny + y + 1 ≤ z * ny + ny by omega)
    rw [Nat.add_one_mul] at this
    omega
  unfold flipSlice
  dsimp only
  obtain ⟨u, eu, lu, su⟩ := loopN_inv (n := ny / 2) (s := t)
    (f := fun y d => do
      let top := z * (nx * blockSize fmt * ny) + y * (nx * blockSize fmt)
      let bottom := z * (nx * blockSize fmt * ny) + (ny - 1 - y) * (nx * blockSize fmt)
      let d ← swapRows junk (nx * blockSize fmt) top bottom d
      let d ← flipBlocks fmt top nx d
      flipBlocks fmt bottom nx d)
    (fun y u => u.length = t.length ∧ ∀ m, m < t.length → at_ u 0 m =
      if m / (nx * bsize fmt) / ny = z ∧ (m / (nx * bsize fmt) % ny < y ∨ ny - 1 - m / (nx * bsize fmt) % ny < y) then
        rowFb fmt (nx * bsize fmt) t (z * ny + (ny - 1 - m / (nx * bsize fmt) % ny)) (m % (nx * bsize fmt))
      else at_ t 0 m)
    ⟨rfl, fun m hm => by rw [if_neg (by omega)]⟩ (by
      rintro y u hy2 ⟨lu, su⟩
      dsimp only
      rw [base, base, hbs]
      obtain ⟨d', e, l, s⟩ := pair_spec junk (fmt := fmt) (nx := nx) (ρ := z * ny + y) (σ := z * ny + (ny - 1 - y)) (d := u) hn (by omega)
        (by have := fits y (by omega); omega) (by have := fits (ny - 1 - y) (by omega); omega)
      refine ⟨d', e, by omega, fun m hm => ?_⟩
      have hmod : m / (nx * bsize fmt) % ny < ny := Nat.mod_lt _ hy
      have hdm : m / (nx * bsize fmt) = m / (nx * bsize fmt) / ny * ny + m / (nx * bsize fmt) % ny := by
        rw [Nat.mul_comm _ ny]; exact (Nat.div_add_mod _ _).symm
      have row : ∀ r, r < ny → (m / (nx * bsize fmt) = z * ny + r ↔ m / (nx * bsize fmt) / ny = z ∧ m / (nx * bsize fmt) % ny = r) := by
        intro r hr
        constructor
        · intro h; rw [h]; exact ⟨idx_div hr, idx_mod hr⟩
        · rintro ⟨h1, h2⟩; rw [hdm, h1, h2]
      -- a row that is still as it was
      have same : ∀ r q, r < ny → ¬ r < y → ¬ ny - 1 - r < y → q < nx * bsize fmt →
          at_ u 0 ((z * ny + r) * (nx * bsize fmt) + q) = at_ t 0 ((z * ny + r) * (nx * bsize fmt) + q) := by
        intro r q hr h1 h2 hq
        rw [su _ (by have := fits r hr; omega), idx_div hq, if_neg]
        rintro ⟨_, h3⟩
        rw [idx_mod hr] at h3
        omega
      rw [s m (by omega)]
      by_cases c1 : m / (nx * bsize fmt) = z * ny + y
      · obtain ⟨k1, k2⟩ := (row y (by omega)).mp c1
        rw [if_pos c1, if_pos ⟨k1, .inl (by omega)⟩, k2]
        exact rowFb_congr (fun r hr => same (ny - 1 - y) r (by omega) (by omega) (by omega) hr) (Nat.mod_lt _ hl)
      · rw [if_neg c1]
        by_cases c2 : m / (nx * bsize fmt) = z * ny + (ny - 1 - y)
        · obtain ⟨k1, k2⟩ := (row (ny - 1 - y) (by omega)).mp c2
          rw [if_pos c2, if_pos ⟨k1, .inr (by omega)⟩, k2, show ny - 1 - (ny - 1 - y) = y by omega]
          exact rowFb_congr (fun r hr => same y r (by omega) (by omega) (by omega) hr) (Nat.mod_lt _ hl)
        · rw [if_neg c2, su m hm]
          by_cases c3 : m / (nx * bsize fmt) / ny = z
          · have n1 : m / (nx * bsize fmt) % ny ≠ y := fun h => c1 ((row y (by omega)).mpr ⟨c3, h⟩)
            have n2 : m / (nx * bsize fmt) % ny ≠ ny - 1 - y := fun h => c2 ((row (ny - 1 - y) (by omega)).mpr ⟨c3, h⟩)
            by_cases c4 : m / (nx * bsize fmt) % ny < y ∨ ny - 1 - m / (nx * bsize fmt) % ny < y
            · rw [if_pos ⟨c3, c4⟩, if_pos ⟨c3, by omega⟩]
            · rw [if_neg (fun h => c4 h.2), if_neg (by omega)]
          · rw [if_neg (fun h => c3 h.1), if_neg (fun h => c3 h.1)])
  dsimp only at eu
  rw [eu, bind_ok]
  by_cases hodd : ny % 2 ≠ 0
  · rw [if_pos hodd, base]
    obtain ⟨d', e, l, s⟩ := flipRow_spec (fmt := fmt) (nx := nx) (ρ := z * ny + ny / 2) (d := u) hn (by have := fits (ny / 2) (by omega); omega)
    refine ⟨d', e, by omega, fun m hm => ?_⟩
    have hmod : m / (nx * bsize fmt) % ny < ny := Nat.mod_lt _ hy
    have hdm : m / (nx * bsize fmt) = m / (nx * bsize fmt) / ny * ny + m / (nx * bsize fmt) % ny := by
      rw [Nat.mul_comm _ ny]; exact (Nat.div_add_mod _ _).symm
    rw [s m (by omega)]
    by_cases c1 : m / (nx * bsize fmt) = z * ny + ny / 2
    · have k1 : m / (nx * bsize fmt) / ny = z := by rw [c1]; exact idx_div (by omega)
      have k2 : m / (nx * bsize fmt) % ny = ny / 2 := by rw [c1]; exact idx_mod (by omega)
      rw [if_pos c1, if_pos k1, k2, show ny - 1 - ny / 2 = ny / 2 by omega]
      refine rowFb_congr (fun r hr => ?_) (Nat.mod_lt _ hl)
      rw [su _ (by have := fits (ny / 2) (by omega); omega), idx_div hr, if_neg]
      rintro ⟨_, h3⟩
      rw [idx_mod (show ny / 2 < ny by omega)] at h3
      omega
    · rw [if_neg c1, su m hm]
      by_cases c3 : m / (nx * bsize fmt) / ny = z
      · have n1 : m / (nx * bsize fmt) % ny ≠ ny / 2 := fun h => c1 (by rw [hdm, c3, h])
        rw [if_pos ⟨c3, by omega⟩, if_pos c3]
      · rw [if_neg (fun h => c3 h.1), if_neg c3]
  · rw [if_neg hodd]
    refine ⟨u, rfl, lu, fun m hm => ?_⟩
    have hmod : m / (nx * bsize fmt) % ny < ny := Nat.mod_lt _ hy
    rw [su m hm]
    by_cases c3 : m / (nx * bsize fmt) / ny = z
    · rw [if_pos ⟨c3, by omega⟩, if_pos c3]
    · rw [if_neg (fun h => c3 h.1), if_neg c3]

/-- Flipping all slices: row of blocks `r` of a slice is the flipped row `ny - 1 - r`. -/
theorem flipAll_spec (junk : Nat → UInt8) {fmt nx ny depth : Nat} {comp : List UInt8} (hn : 0 < nx) (hy : 0 < ny)
    (h : depth * ny * (nx * bsize fmt) ≤ comp.length) :
    ∃ d', loopN depth (fun z d => flipSlice junk fmt nx ny (z * (nx * blockSize fmt * ny)) d) comp = .ok d' ∧ d'.length = comp.length ∧
      ∀ m, m < comp.length → at_ d' 0 m =
      if m / (nx * bsize fmt) / ny < depth then rowFb fmt (nx * bsize fmt) comp
        (m / (nx * bsize fmt) / ny * ny + (ny - 1 - m / (nx * bsize fmt) % ny)) (m % (nx * bsize fmt))
      else at_ comp 0 m := by
  have hl : 0 < nx * bsize fmt := Nat.mul_pos hn (bsize_pos fmt)
  refine loopN_inv (fun z u => u.length = comp.length ∧ ∀ m, m < comp.length → at_ u 0 m =
      if m / (nx * bsize fmt) / ny < z then rowFb fmt (nx * bsize fmt) comp
        (m / (nx * bsize fmt) / ny * ny + (ny - 1 - m / (nx * bsize fmt) % ny)) (m % (nx * bsize fmt))
      else at_ comp 0 m) ⟨rfl, fun m hm => by rw [if_neg (Nat.not_lt_zero _)]⟩ ?_
  rintro z u hz ⟨lu, su⟩
  have hfit : (z * ny + ny) * (nx * bsize fmt) ≤ comp.length := by
    refine Nat.le_trans (Nat.mul_le_mul_right _ ?_) h
    rw [← Nat.add_one_mul]
    exact Nat.mul_le_mul_right _ hz
  obtain ⟨d', e, l, s⟩ := flipSlice_spec junk (fmt := fmt) (nx := nx) (ny := ny) (z := z) (t := u) hn hy (by omega)
  refine ⟨d', e, by omega, fun m hm => ?_⟩
  rw [s m (by omega)]
  by_cases c1 : m / (nx * bsize fmt) / ny = z
  · have hmod : m / (nx * bsize fmt) % ny < ny := Nat.mod_lt _ hy
    rw [if_pos c1, if_pos (by omega), c1]
    refine rowFb_congr (fun r hr => ?_) (Nat.mod_lt _ hl)
    have hrow : ny - 1 - m / (nx * bsize fmt) % ny < ny := by omega
    have hb : (z * ny + (ny - 1 - m / (nx * bsize fmt) % ny)) * (nx * bsize fmt) + r < comp.length := by
      have := Nat.mul_le_mul_right (nx * bsize fmt) (show z * ny + (ny - 1 - m / (nx * bsize fmt) % ny) + 1 ≤ z * ny + ny by omega)
      rw [Nat.add_one_mul] at this
      omega
    rw [su _ hb, idx_div hr, idx_div hrow, if_neg (Nat.lt_irrefl z)]
  · rw [if_neg c1, su m hm]
    by_cases c2 : m / (nx * bsize fmt) / ny < z
    · rw [if_pos c2, if_pos (by omega)]
    · rw [if_neg c2, if_neg (by omega)]

end DevIL.Dxt
