import Verif.Model.Wbmp
import Verif.Lemmas.Stream
import Verif.Props.Bits
/-! Lemmas for C48. -/
set_option autoImplicit false
namespace DevIL.Wbmp
open DevIL.Lump DevIL.Utility DevIL.Bits

/-! ### Numbers -/

/-- `n` groups of seven bits of `v`, the most significant first, with the continuation bit on all but the last. -/
def groups (n v : Nat) : List UInt8 :=
  (List.range n).reverse.map fun i => UInt8.ofNat (v / 2 ^ (i * 7) % 128 + (if i ≠ 0 then 128 else 0))

@[simp] theorem groups_length (n v : Nat) : (groups n v).length = n := by simp [groups]

theorem groups_succ (n v : Nat) :
    groups (n + 1) v = UInt8.ofNat (v / 2 ^ (n * 7) % 128 + (if n ≠ 0 then 128 else 0)) :: groups n v := by
  unfold groups
  rw [List.range_succ, List.reverse_append]
  rfl

theorem multi_loop (n : Nat) : ∀ (k acc v : Nat) (l : R) (rest : List UInt8), n + 1 ≤ k → acc * 128 ^ (n + 1) + v % 128 ^ (n + 1) < 4294967296 →
    At l (groups (n + 1) v ++ rest) → multiLoop k acc l = .ok (acc * 128 ^ (n + 1) + v % 128 ^ (n + 1), adv l (n + 1)) := by
  induction n with
  | zero =>
    intro k acc v l rest hk hb ha
    obtain ⟨k, rfl⟩ : ∃ k', k = k' + 1 := ⟨k - 1, by omega⟩
    rw [groups_succ] at ha
    unfold multiLoop
    rw [At.getb ha, bind_ok]
    simp only [Nat.zero_mul, Nat.pow_zero, Nat.div_one, ne_eq, not_true_eq_false, if_false, Nat.add_zero]
    have hm : (UInt8.ofNat (v % 128)).toNat = v % 128 := by simp [UInt8.toNat_ofNat']; omega
    rw [hm, if_pos (by omega)]
    simp only [Nat.zero_add, Nat.pow_one] at hb ⊢
    rw [u32_of_lt (by omega)]
    simp [pure_eq_ok]
  | succ n ih =>
    intro k acc v l rest hk hb ha
    obtain ⟨k, rfl⟩ : ∃ k', k = k' + 1 := ⟨k - 1, by omega⟩
    rw [groups_succ, List.cons_append] at ha
    unfold multiLoop
    rw [At.getb ha, bind_ok]
    simp only []
    rw [if_pos (by omega : n + 1 ≠ 0)]
    have hp : 2 ^ ((n + 1) * 7) = 128 ^ (n + 1) := by rw [Nat.mul_comm, Nat.pow_mul]
    rw [hp]
    have hm : (UInt8.ofNat (v / 128 ^ (n + 1) % 128 + 128)).toNat = v / 128 ^ (n + 1) % 128 + 128 := by
      simp [UInt8.toNat_ofNat']; omega
    rw [hm, if_neg (by omega)]
    have e : v % 128 ^ (n + 1 + 1) = v % 128 ^ (n + 1) + 128 ^ (n + 1) * (v / 128 ^ (n + 1) % 128) := Nat.mod_pow_succ
    have hpos : 0 < 128 ^ (n + 1) := Nat.pow_pos (by decide)
    have e2 : acc * 128 ^ (n + 1 + 1) = acc * 128 * 128 ^ (n + 1) := by rw [Nat.pow_succ 128 (n + 1)]; grind
    have hw : acc * 128 < 4294967296 := by
      have : acc * 128 ≤ acc * 128 * 128 ^ (n + 1) := Nat.le_mul_of_pos_right _ hpos
      omega
    rw [u32_of_lt hw]
    have e3 : (v / 128 ^ (n + 1) % 128 + 128) % 128 = v / 128 ^ (n + 1) % 128 := by omega
    rw [e3]
    have e4 : (acc * 128 + v / 128 ^ (n + 1) % 128) * 128 ^ (n + 1) + v % 128 ^ (n + 1) = acc * 128 ^ (n + 1 + 1) + v % 128 ^ (n + 1 + 1) := by
      rw [e, e2, Nat.add_mul]; grind
    rw [ih k _ v (adv l 1) rest (by omega) (by rw [e4]; exact hb) ha.adv_cons, e4, adv_adv]
    rw [show 1 + (n + 1) = n + 1 + 1 by omega]

theorem numBytes_spec (k : Nat) : ∀ v, v < 128 ^ (k + 1) → 1 ≤ numBytes (k + 1) v ∧ numBytes (k + 1) v ≤ k + 1 ∧ v < 128 ^ numBytes (k + 1) v := by
  induction k with
  | zero =>
    intro v hv
    unfold numBytes
    simp only [Nat.zero_add, Nat.pow_one] at hv
    rw [if_neg (by omega)]
    exact ⟨by omega, by omega, by simpa using hv⟩
  | succ k ih =>
    intro v hv
    unfold numBytes
    by_cases h : v / 128 ≠ 0
    · rw [if_pos h]
      obtain ⟨h1, h2, h3⟩ := ih (v / 128) (by rw [Nat.pow_succ] at hv; exact (Nat.div_lt_iff_lt_mul (by decide)).mpr hv)
      refine ⟨by omega, by omega, ?_⟩
      rw [Nat.pow_succ]
      exact (Nat.div_lt_iff_lt_mul (by decide)).mp h3
    · rw [if_neg h]
      exact ⟨by omega, by omega, by omega⟩

theorem putMulti_bytes (v : Nat) : (putMulti v).flatMap WOp.bytes = groups (numBytes 5 v) v := by
  unfold putMulti groups
  generalize (List.range (numBytes 5 v)).reverse = l
  induction l with
  | nil => rfl
  | cons a l ih => simp only [List.map_cons, List.flatMap_cons, ih]; rfl

theorem putMulti_get {v : Nat} (hv : v < 4294967296) {l : R} {rest : List UInt8} (ha : At l ((putMulti v).flatMap WOp.bytes ++ rest)) :
    ∃ n, getMulti l = .ok (v, adv l n) ∧ At (adv l n) rest := by
  obtain ⟨h1, h2, h3⟩ := numBytes_spec 4 v (Nat.lt_trans hv (by decide))
  rw [putMulti_bytes] at ha
  have ha2 := ha.adv
  rw [groups_length] at ha2
  refine ⟨numBytes 5 v, ?_, ha2⟩
  change 1 ≤ numBytes 5 v at h1
  change numBytes 5 v ≤ 5 at h2
  change v < 128 ^ numBytes 5 v at h3
  obtain ⟨n, hn⟩ : ∃ n, numBytes 5 v = n + 1 := ⟨numBytes 5 v - 1, by clear h3; omega⟩
  rw [hn] at ha h2 h3 ⊢
  unfold getMulti
  rw [multi_loop n 5 0 v l rest (by omega) (by rw [Nat.mod_eq_of_lt h3]; omega) ha, Nat.mod_eq_of_lt h3]
  simp

/-! ### Packing -/

/-- Eight bits of a byte. -/
def pack8 (g : Nat → Bool) : UInt8 := (List.range 8).foldl (fun v k => v ||| (if g k then 0x80 >>> UInt8.ofNat k else 0)) 0

set_option maxRecDepth 10000 in
theorem pack8_bits (g : Nat → Bool) : byteBits (pack8 g) = (List.range 8).map g := by
  have key : ∀ a b c d e f g h : Bool, byteBits ((((((((((0 : UInt8) ||| (if a then 0x80 >>> UInt8.ofNat 0 else 0))
      ||| (if b then 0x80 >>> UInt8.ofNat 1 else 0)) ||| (if c then 0x80 >>> UInt8.ofNat 2 else 0)) ||| (if d then 0x80 >>> UInt8.ofNat 3 else 0))
      ||| (if e then 0x80 >>> UInt8.ofNat 4 else 0)) ||| (if f then 0x80 >>> UInt8.ofNat 5 else 0)) ||| (if g then 0x80 >>> UInt8.ofNat 6 else 0))
      ||| (if h then 0x80 >>> UInt8.ofNat 7 else 0))) = [a, b, c, d, e, f, g, h] := by decide +kernel
  exact key (g 0) (g 1) (g 2) (g 3) (g 4) (g 5) (g 6) (g 7)

/-- Whether pixel `x` of row `y` is set. -/
def isSet (data : List UInt8) (w y x : Nat) : Bool := data[w * y + x]? == some 1

theorem packByte_spec {data : List UInt8} {w h i j : Nat} (hl : data.length = w * h) (h32 : w * h < 4294967296) (hi : i < h) :
    packByte data w i j = .ok (pack8 fun k => decide (j + k < w) && isSet data w i (j + k)) := by
  unfold packByte pack8
  refine loopN_pure fun k v hk => ?_
  by_cases hw : j + k < w
  · rw [if_pos hw]
    have hlt : w * i + (j + k) < w * h := by
      have := idx_lt hi hw
      rw [Nat.mul_comm w i, Nat.mul_comm w h]; exact this
    rw [Nat.add_assoc, u32_of_lt (by omega), rd_of_lt (by omega), bind_ok]
    have hs : isSet data w i (j + k) = decide (data[w * i + (j + k)]'(by omega) = 1) := by
      unfold isSet
      rw [List.getElem?_eq_getElem (by omega)]
      rfl
    simp only [pure_eq_ok, hw, decide_true, Bool.true_and, hs, decide_eq_true_eq]
  · rw [if_neg hw]
    simp [hw, pure_eq_ok]

theorem fileBits_append (a b : List UInt8) : fileBits (a ++ b) = fileBits a ++ fileBits b := by simp [fileBits]

/-- The bits of row `y`, filled up to whole bytes. -/
def padRow (data : List UInt8) (w y : Nat) : List Bool := (List.range w).map (isSet data w y) ++ List.replicate ((8 - w % 8) % 8) false

theorem range_map_add {α : Type} (f : Nat → α) (a b : Nat) : (List.range (a + b)).map f = (List.range a).map f ++ (List.range b).map (fun k => f (a + k)) := by
  rw [List.range_add, List.map_append, List.map_map]; rfl

theorem padRow_eq (data : List UInt8) (w y : Nat) :
    padRow data w y = (List.range ((w - 0 + (8 - 1)) / 8 * 8)).map fun t => decide (t < w) && isSet data w y t := by
  have e : (w - 0 + (8 - 1)) / 8 * 8 = w + (8 - w % 8) % 8 := by omega
  rw [e, range_map_add]
  unfold padRow
  congr 1
  · apply List.map_congr_left
    intro t ht
    rw [List.mem_range] at ht
    simp [ht]
  · apply List.ext_getElem
    · simp
    · intro n h1 h2
      simp

theorem packRows_spec {data : List UInt8} {w h : Nat} (hl : data.length = w * h) (h32 : w * h < 4294967296) :
    ∃ ops, packRows data w h = .ok ops ∧ fileBits (ops.flatMap WOp.bytes) = (List.range h).flatMap (padRow data w) ∧
      (ops.flatMap WOp.bytes).length = h * ((w + 7) / 8) := by
  unfold packRows
  refine loopN_inv (fun i (ops : List WOp) => fileBits (ops.flatMap WOp.bytes) = (List.range i).flatMap (padRow data w) ∧
      (ops.flatMap WOp.bytes).length = i * ((w + 7) / 8)) ⟨rfl, by simp⟩ ?_
  rintro i ops hi ⟨hops, hlen⟩
  rw [forStep_pos (by decide)]
  obtain ⟨t, e, ht, htl⟩ := loopN_inv (n := (w - 0 + (8 - 1)) / 8) (s := ops) (f := fun k ops => do
      let v ← packByte data w i (0 + k * 8)
      pure (ops ++ [WOp.putc v])) (fun n (t : List WOp) => fileBits (t.flatMap WOp.bytes) = fileBits (ops.flatMap WOp.bytes) ++
        (List.range (n * 8)).map (fun t => decide (t < w) && isSet data w i t) ∧
        (t.flatMap WOp.bytes).length = (ops.flatMap WOp.bytes).length + n) (by simp) (by
      rintro n t hn ⟨ht, htl⟩
      rw [packByte_spec hl h32 hi, bind_ok]
      refine ⟨_, rfl, ?_, ?_⟩
      · rw [List.flatMap_append, fileBits_append, ht, show (n + 1) * 8 = n * 8 + 8 by omega, range_map_add, ← List.append_assoc]
        congr 1
        show byteBits _ ++ [] = _
        rw [pack8_bits, List.append_nil, Nat.zero_add]
      · rw [List.flatMap_append, List.length_append, htl]; rfl)
  refine ⟨t, e, ?_, ?_⟩
  · rw [ht, hops, List.range_succ, List.flatMap_append, ← padRow_eq]; simp
  · rw [htl, hlen, Nat.add_mul]
    show _ + (w + 7) / 8 = _ + 1 * ((w + 7) / 8)
    omega

/-! ### Unpacking -/

/-- A bit as the reader stores it. -/
def bitByte (b : Bool) : UInt8 := if b then 1 else 0

theorem breadAt_spec {d : List UInt8} {at_ n : Nat} {s : B} (h : Ready s) (hn : n ≤ (rest s).length) (h32 : n < 4294967296)
    (hd : at_ + n ≤ d.length) :
    ∃ s', breadAt d at_ n s = .ok (splice d at_ (((rest s).take n).map bitByte), s') ∧ Ready s' ∧ rest s' = (rest s).drop n := by
  obtain ⟨s', e, r, hr, _⟩ := breadLoop_ok n s [] h hn
  refine ⟨s', ?_, r, hr⟩
  unfold breadAt bread
  rw [Nat.one_mul, u32_of_lt h32, e, bind_ok]
  simp only [List.nil_append]
  have hlen : ((rest s).take n).length = n := by simp; omega
  rw [copy_splice (p := 0) (by simp) (by simp; omega), bind_ok]
  simp only [List.drop_zero, pure_eq_ok]
  rw [List.take_of_length_le (Nat.le_refl _)]
  rfl

theorem padRow_length (data : List UInt8) (w y : Nat) : (padRow data w y).length = w + (8 - w % 8) % 8 := by simp [padRow]

theorem readRows_spec {junk : Nat → UInt8} {data d : List UInt8} {w h : Nat} {s : B} {tail : List Bool} (hr : Ready s)
    (h32 : w * h < 4294967296) (hw0 : 0 < w) (hh0 : 0 < h)
    (hd : d.length = w * h) (hs : rest s = (List.range h).flatMap (padRow data w) ++ tail) :
    ∃ s', readRows junk w h d s = .ok (((List.range h).flatMap fun y => (List.range w).map (isSet data w y)).map bitByte, s') := by
  have hflat : ∀ i, ((List.range i).flatMap fun y => (List.range w).map (isSet data w y)).length = w * i := by
    intro i
    induction i with
    | zero => simp
    | succ i ih => rw [List.range_succ, List.flatMap_append, List.length_append, ih]; simp [Nat.mul_add]
  have hw32 : w < 4294967296 := Nat.lt_of_le_of_lt (Nat.le_mul_of_pos_right w hh0) h32
  unfold readRows
  obtain ⟨t, e, h1, h2, h3⟩ := loopN_inv (n := h) (s := (d, s)) (f := fun i t => do
    let (data, s) ← breadAt t.1 (u32 (w * i)) w t.2
    let (_, s) ← breadAt (alloc junk 8) 0 ((8 - w % 8) % 8) s
    pure (data, s)) (fun i (t : List UInt8 × B) => t.1 = splice d 0 (((List.range i).flatMap fun y => (List.range w).map (isSet data w y)).map bitByte) ∧
      Ready t.2 ∧ rest t.2 = ((List.range (h - i)).flatMap fun k => padRow data w (i + k)) ++ tail)
    ⟨by simp, hr, by simpa using hs⟩ (by
      rintro i ⟨t1, t2⟩ hi ⟨h1, h2, h3⟩
      simp only at h1 h2 h3
      have hrow : w * i + w ≤ w * h := by rw [← Nat.mul_succ]; exact Nat.mul_le_mul_left w hi
      have hrest : rest t2 = padRow data w i ++ (((List.range (h - (i + 1))).flatMap fun k => padRow data w (i + 1 + k)) ++ tail) := by
        rw [h3, show h - i = 1 + (h - (i + 1)) by omega, List.range_add, List.flatMap_append, List.flatMap_map]
        simp [List.range_succ, Nat.add_assoc]
      have hl := padRow_length data w i
      have ht1 : t1.length = w * h := by
        rw [h1, splice_length (by rw [List.length_map, hflat]; omega), hd]
      obtain ⟨s1, e1, r1, q1⟩ := breadAt_spec (d := t1) (at_ := w * i) (n := w) h2 (by rw [hrest, List.length_append]; omega) hw32 (by omega)
      have hq1 : rest s1 = List.replicate ((8 - w % 8) % 8) false ++ (((List.range (h - (i + 1))).flatMap fun k => padRow data w (i + 1 + k)) ++ tail) := by
        rw [q1, hrest]
        unfold padRow
        rw [List.append_assoc, List.drop_append, List.drop_eq_nil_of_le (by simp)]
        simp
      obtain ⟨s2, e2, r2, q2⟩ := breadAt_spec (d := alloc junk 8) (at_ := 0) (n := (8 - w % 8) % 8) r1
        (by rw [hq1, List.length_append, List.length_replicate]; omega) (by omega) (by simp; omega)
      refine ⟨(splice t1 (w * i) (((rest t2).take w).map bitByte), s2), ?_, ?_, r2, ?_⟩
      · simp only []
        rw [u32_of_lt (by omega), e1, bind_ok]
        simp only []
        rw [e2, bind_ok]
        rfl
      · show splice t1 (w * i) (((rest t2).take w).map bitByte) = _
        have htake : (rest t2).take w = (List.range w).map (isSet data w i) := by
          rw [hrest]
          unfold padRow
          rw [List.append_assoc, List.take_left' (by simp)]
        rw [htake, h1]
        have := splice_splice (d := d) (o := ((List.range i).flatMap fun y => (List.range w).map (isSet data w y)).map bitByte)
          (o' := ((List.range w).map (isSet data w i)).map bitByte) (q := 0) (Nat.zero_le _)
        rw [List.length_map, hflat, Nat.zero_add] at this
        rw [this, List.range_succ, List.flatMap_append, List.map_append]
        simp
      · show rest s2 = _
        rw [q2, hq1, List.drop_append, List.drop_eq_nil_of_le (by simp)]
        simp)
  refine ⟨t.2, ?_⟩
  rw [e, splice_all (by rw [List.length_map, hflat, hd])] at *
  rw [← h1]

theorem whiten_spec (data : List UInt8) : whiten data.length data = .ok (data.map fun b => if b = 1 then 255 else b) := by
  unfold whiten
  have hu : Upd (fun d => loopN data.length (fun i d => do
      let b ← rd d i
      if b = 1 then wr d i 0xFF else pure d) d) data (fun i => ∃ k, k < data.length ∧ i = k) (fun i => ∃ k, k < data.length ∧ i = k)
      (fun i => (data[i]?).map fun b => if b = 1 then 255 else b) := by
    refine Upd.loop (U := fun k i => i = k) (R := fun k i => i = k) (fun k hk => ?_) (fun j k i hj _ _ hu => by omega)
    intro d hl hu
    have hk' : d[k]? = some data[k] := by rw [hu k rfl, List.getElem?_eq_getElem hk]
    refine ⟨d.set k (if data[k] = 1 then 255 else data[k]), ?_, by simp [hl], fun i hi => ⟨?_, ?_⟩⟩
    · simp only []
      rw [rd_of_some hk', bind_ok]
      by_cases hb : data[k] = 1
      · rw [if_pos hb, if_pos hb, wr_of_lt (by omega)]
      · rw [if_neg hb, if_neg hb]
        show Except.ok d = _
        congr 1
        obtain ⟨h, e⟩ := List.getElem?_eq_some_iff.mp hk'
        rw [← e, List.set_getElem_self]
    · rintro rfl
      simp only []
      rw [List.getElem?_set_self (by omega), List.getElem?_eq_getElem hk]
      rfl
    · intro hne
      rw [List.getElem?_set_ne (by omega)]
  obtain ⟨d', e, l, s⟩ := hu.apply
  rw [e]
  congr 1
  apply List.ext_getElem?
  intro i
  by_cases hi : i < data.length
  · rw [(s i hi).1 ⟨i, hi, rfl⟩, List.getElem?_map]
  · rw [List.getElem?_eq_none (by omega), List.getElem?_eq_none (by simp; omega)]

end DevIL.Wbmp
