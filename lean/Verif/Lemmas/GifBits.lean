import Verif.Model.Gif
import Verif.Spec.Gif
import Verif.Lemmas.Stream
/-! The bits of a GIF data stream as `get_next_code` delivers them. -/
set_option autoImplicit false
namespace DevIL.Gif
open DevIL.Lump DevIL.GifSpec

/-! ### Numbers and bits -/

/-- The number with these bits, the lowest first. -/
def ofBits : List Bool → Nat
  | [] => 0
  | b :: t => b.toNat + 2 * ofBits t

@[simp] theorem bitsOf_length (k v : Nat) : (bitsOf k v).length = k := by simp [bitsOf]

theorem bitsOf_succ (k v : Nat) : bitsOf (k + 1) v = v.testBit 0 :: bitsOf k (v / 2) := by
  unfold bitsOf
  rw [List.range_succ_eq_map, List.map_cons, List.map_map]
  congr 1
  apply List.map_congr_left
  intro i _
  simp [Nat.testBit_succ]

theorem ofBits_bitsOf (k : Nat) : ∀ v, ofBits (bitsOf k v) = v % 2 ^ k := by
  induction k with
  | zero => intro v; simp [bitsOf, ofBits, Nat.mod_one]
  | succ k ih =>
    intro v
    rw [bitsOf_succ, ofBits, ih, Nat.pow_succ, Nat.mul_comm (2 ^ k) 2, Nat.mod_mul]
    have : (v.testBit 0).toNat = v % 2 := by
      rw [Nat.testBit_zero]
      rcases Nat.mod_two_eq_zero_or_one v with h | h <;> simp [h]
    omega

theorem ofBits_append (a b : List Bool) : ofBits (a ++ b) = ofBits a + 2 ^ a.length * ofBits b := by
  induction a with
  | nil => simp [ofBits]
  | cons x a ih =>
    rw [List.cons_append, ofBits, ofBits, ih, List.length_cons, Nat.pow_succ]
    generalize 2 ^ a.length = q
    grind

theorem ofBits_lt (a : List Bool) : ofBits a < 2 ^ a.length := by
  induction a with
  | nil => simp [ofBits]
  | cons x a ih =>
    rw [ofBits, List.length_cons, Nat.pow_succ]
    have : x.toNat ≤ 1 := Bool.toNat_le x
    omega

theorem ofBits_take (a : List Bool) {n : Nat} (h : n ≤ a.length) : ofBits (a.take n) = ofBits a % 2 ^ n := by
  have e := ofBits_append (a.take n) (a.drop n)
  rw [List.take_append_drop, List.length_take, Nat.min_eq_left h] at e
  have hl := ofBits_lt (a.take n)
  rw [List.length_take, Nat.min_eq_left h] at hl
  rw [e, Nat.add_mul_mod_self_left, Nat.mod_eq_of_lt hl]

theorem ofBits_drop (a : List Bool) {n : Nat} (h : n ≤ a.length) : ofBits (a.drop n) = ofBits a / 2 ^ n := by
  have e := ofBits_append (a.take n) (a.drop n)
  rw [List.take_append_drop, List.length_take, Nat.min_eq_left h] at e
  have hl := ofBits_lt (a.take n)
  rw [List.length_take, Nat.min_eq_left h] at hl
  rw [e, Nat.add_mul_div_left _ _ (by positivity), Nat.div_eq_of_lt hl, Nat.zero_add]

/-! ### Bytes -/

/-- The bits of a byte. -/
abbrev byteBits (b : UInt8) : List Bool := bitsOf 8 b.toNat

theorem ofBits_byte (b : UInt8) : ofBits (byteBits b) = b.toNat := by
  rw [ofBits_bitsOf]
  exact Nat.mod_eq_of_lt b.toNat_lt

@[simp] theorem bitsOfBytes_nil : bitsOfBytes [] = [] := rfl
theorem bitsOfBytes_cons (b : UInt8) (bs : List UInt8) : bitsOfBytes (b :: bs) = byteBits b ++ bitsOfBytes bs := rfl
theorem bitsOfBytes_append (a b : List UInt8) : bitsOfBytes (a ++ b) = bitsOfBytes a ++ bitsOfBytes b := by
  unfold bitsOfBytes; rw [List.flatMap_append]

theorem bitsOfBytes_length (bs : List UInt8) : (bitsOfBytes bs).length = 8 * bs.length := by
  induction bs with
  | nil => rfl
  | cons b bs ih => rw [bitsOfBytes_cons, List.length_append, ih, List.length_cons, bitsOf_length]; omega

/-- `bytes` are still to come: those in the buffer and those in the blocks that follow; then comes `tail`. -/
def Left (z : Src) (bytes tail : List UInt8) : Prop :=
  ∃ n : Nat, ∃ blocks : List (List UInt8), z.navail = n ∧ z.p + n ≤ z.buf.length ∧ z.buf.length = 257 ∧ BlocksOk blocks ∧
    At z.inp (blockBytes blocks ++ tail) ∧ bytes = (z.buf.drop z.p).take n ++ blocks.flatten

theorem fillLoop_spec {bs : List UInt8} : ∀ {rest buf : List UInt8} {i : Nat} {l : R}, At l (bs ++ rest) → i + bs.length ≤ buf.length →
    fillLoop bs.length i buf l = .ok (true, splice buf i bs, adv l bs.length) := by
  induction bs with
  | nil => intro rest buf i l _ _; rw [splice_nil]; rfl
  | cons b bs ih =>
    intro rest buf i l hat hi
    rw [List.length_cons] at hi
    show fillLoop (bs.length + 1) i buf l = _
    unfold fillLoop
    rw [hat.getc, bind_ok]
    dsimp only
    rw [wr_splice (by omega), bind_ok, ih (rest := rest) (At.adv_cons hat) (by rw [splice_length (by simp; omega)]; omega), adv_adv, List.length_cons, Nat.add_comm 1]
    congr 3
    exact splice_splice (d := buf) (o := [b]) (o' := bs) (q := i) (by omega)

theorem byte_spec {z : Src} {b : UInt8} {bytes tail : List UInt8} (h : Left z (b :: bytes) tail) :
    ∃ z', byte z = .ok (true, z') ∧ z'.b1 = b ∧ z'.nbits = z.nbits ∧ Left z' bytes tail := by
  obtain ⟨n, blocks, h1, h2, h3, h4, h5, h6⟩ := h
  cases n with
  | zero =>
    rw [List.take_zero, List.nil_append] at h6
    cases blocks with
    | nil => simp at h6
    | cons blk blocks =>
      obtain ⟨hne, hlen⟩ := h4 blk (by simp)
      have hat : At z.inp (UInt8.ofNat blk.length :: (blk ++ (blockBytes blocks ++ tail))) := by
        simpa [blockBytes] using h5
      have hn : (UInt8.ofNat blk.length).toNat = blk.length := by simp; omega
      have hfl := fillLoop_spec (buf := z.buf) (i := 0) (At.adv_cons hat) (by omega)
      obtain ⟨b', blk', rfl⟩ : ∃ b' t, blk = b' :: t := by cases blk with | nil => exact absurd rfl hne | cons a t => exact ⟨a, t, rfl⟩
      rw [List.flatten_cons, List.cons_append] at h6
      obtain ⟨rfl, rfl⟩ := List.cons.inj h6
      have hsp : splice z.buf 0 (b :: blk') = (b :: blk') ++ z.buf.drop (b :: blk').length := by simp [splice]
      have hsl : (splice z.buf 0 (b :: blk')).length = z.buf.length := splice_length (by omega)
      refine ⟨{ z with p := 1, navail := (b :: blk').length - 1, buf := splice z.buf 0 (b :: blk'), inp := adv (adv z.inp 1) (b :: blk').length, b1 := b }, ?_, rfl, rfl,
        blk'.length, blocks, ?_, ?_, ?_, fun x hx => h4 x (by simp [hx]), At.adv (At.adv_cons hat), ?_⟩
      · unfold byte fill
        rw [if_pos (by omega), hat.getc, bind_ok]
        dsimp only
        rw [hn, hfl, bind_ok, pure_eq_ok, bind_ok]
        dsimp only
        rw [if_neg (by simp), rd_of_some (v := b) (by rw [hsp]; rfl), bind_ok]
        rfl
      · show ((b :: blk').length : Int) - 1 = _
        rw [List.length_cons]; omega
      · show 1 + blk'.length ≤ (splice z.buf 0 (b :: blk')).length
        rw [hsl]; rw [List.length_cons] at hlen; omega
      · show (splice z.buf 0 (b :: blk')).length = 257
        rw [hsl, h3]
      · show blk' ++ blocks.flatten = ((splice z.buf 0 (b :: blk')).drop 1).take blk'.length ++ _
        rw [hsp, List.cons_append, List.drop_succ_cons, List.drop_zero, List.take_left]
  | succ n =>
    have hp : z.p < z.buf.length := by omega
    have hd : z.buf.drop z.p = z.buf[z.p] :: z.buf.drop (z.p + 1) := List.drop_eq_getElem_cons hp
    rw [hd, List.take_succ_cons, List.cons_append] at h6
    obtain ⟨hb, hbs⟩ := List.cons.inj h6
    refine ⟨{ z with b1 := b, p := z.p + 1, navail := z.navail - 1 }, ?_, rfl, rfl, n, blocks, ?_, by show z.p + 1 + n ≤ z.buf.length; omega, h3, h4, h5, hbs⟩
    · unfold byte fill
      rw [if_neg (by omega), pure_eq_ok, bind_ok]
      dsimp only
      rw [if_neg (by simp), rd_of_lt hp, bind_ok, ← hb]
      rfl
    · show z.navail - 1 = n; omega

/-! ### Codes -/

/-- The bits still to come. -/
def Feeds (z : Src) (bits : List Bool) (tail : List UInt8) : Prop :=
  ∃ bytes, z.nbits ≤ 8 ∧ Left z bytes tail ∧ bits = (byteBits z.b1).drop (8 - z.nbits) ++ bitsOfBytes bytes

theorem or_shift {a b n : Nat} (h : a < 2 ^ n) : a ||| b <<< n = a + 2 ^ n * b := by
  rw [Nat.or_comm, Nat.shiftLeft_eq, Nat.mul_comm, ← Nat.two_pow_add_eq_or_of_lt h, Nat.add_comm]

/-- The loop that collects the bits of a code: `all` are collected, the last of them from `b1`. -/
theorem more_spec {cur : Nat} (fuel : Nat) : ∀ {z : Src} {all : List Bool} {bytes tail : List UInt8}, all.length = z.nbits →
    (∀ n, n ≤ 8 → n ≤ all.length → all.drop (all.length - n) = (byteBits z.b1).drop (8 - n)) → Left z bytes tail → cur ≤ all.length + 8 * bytes.length →
    cur ≤ all.length + 8 * fuel → (all.length ≤ 8 ∨ all.length < cur + 8) →
    ∃ all' bytes' z', more cur (fuel + 1) (ofBits all) z = .ok (some (ofBits all'), z') ∧ all'.length = z'.nbits ∧ cur ≤ all'.length ∧
      (all'.length ≤ 8 ∨ all'.length < cur + 8) ∧
      (∀ n, n ≤ 8 → n ≤ all'.length → all'.drop (all'.length - n) = (byteBits z'.b1).drop (8 - n)) ∧ Left z' bytes' tail ∧
      all ++ bitsOfBytes bytes = all' ++ bitsOfBytes bytes' := by
  induction fuel with
  | zero =>
    intro z all bytes tail h1 h2 h3 h4 h5 h6
    unfold more
    rw [if_neg (by omega)]
    exact ⟨all, bytes, z, rfl, h1, by omega, h6, h2, h3, rfl⟩
  | succ fuel ih =>
    intro z all bytes tail h1 h2 h3 h4 h5 h6
    unfold more
    by_cases hc : cur > z.nbits
    · rw [if_pos hc]
      cases bytes with
      | nil => simp at h4; omega
      | cons b bytes =>
        obtain ⟨z', e, eb, en, hl⟩ := byte_spec h3
        rw [e, bind_ok]
        dsimp only
        rw [if_neg (by simp), en, ← h1, or_shift (ofBits_lt all), ← ofBits_byte, ← ofBits_append, show byteBits z'.b1 = byteBits b by rw [eb]]
        obtain ⟨all', bytes', z2, f1, f2, f3, f4, f5, f6, f7⟩ := ih (z := { z' with nbits := all.length + 8 }) (all := all ++ byteBits b) (bytes := bytes) (tail := tail)
          (by simp) (by
            intro n hn _
            show _ = (byteBits z'.b1).drop (8 - n)
            rw [eb, List.length_append, bitsOf_length, List.drop_append, List.drop_of_length_le (by omega), List.nil_append]
            congr 1
            omega) hl (by rw [List.length_cons] at h4; simp; omega) (by simp; omega) (by simp; omega)
        exact ⟨all', bytes', z2, f1, f2, f3, f4, f5, f6, by rw [← f7, bitsOfBytes_cons, List.append_assoc]⟩
    · rw [if_neg hc]
      exact ⟨all, bytes, z, rfl, h1, by omega, h6, h2, h3, rfl⟩

theorem nextCode_spec {z : Src} {cur c : Nat} {bits : List Bool} {tail : List UInt8} (h : Feeds z (bitsOf cur c ++ bits) tail) (h0 : 0 < cur) (h12 : cur ≤ 12)
    (hc : c < 2 ^ cur) : ∃ z', nextCode cur z = .ok (some c, z') ∧ Feeds z' bits tail := by
  have key : ∀ {z1 : Src} {bytes : List UInt8}, 0 < z1.nbits → z1.nbits ≤ 8 → Left z1 bytes tail → bitsOf cur c ++ bits = (byteBits z1.b1).drop (8 - z1.nbits) ++ bitsOfBytes bytes →
      ∃ z', (more cur 3 (z1.b1.toNat >>> (8 - z1.nbits)) z1 >>= fun r : Option Nat × Src => (match r.1 with
        | none => pure (none, r.2)
        | some ret => pure (some (ret % 2 ^ cur), { r.2 with nbits := r.2.nbits - cur }) : C (Option Nat × Src))) = .ok (some c, z') ∧ Feeds z' bits tail := by
    intro z1 bytes hn0 hn8 hl he
    have hlen : ((byteBits z1.b1).drop (8 - z1.nbits)).length = z1.nbits := by simp; omega
    have htot := congrArg List.length he
    rw [List.length_append, List.length_append, hlen, bitsOf_length, bitsOfBytes_length] at htot
    have hret : z1.b1.toNat >>> (8 - z1.nbits) = ofBits ((byteBits z1.b1).drop (8 - z1.nbits)) := by
      rw [ofBits_drop _ (by simp), ofBits_byte, Nat.shiftRight_eq_div_pow]
    obtain ⟨all', bytes', z', f1, f2, f3, f4, f5, f6, f7⟩ := more_spec (cur := cur) 2 (z := z1) (all := (byteBits z1.b1).drop (8 - z1.nbits)) (bytes := bytes) (tail := tail) hlen
      (by
        intro n _ h2
        rw [hlen] at h2
        rw [hlen, List.drop_drop]
        congr 1
        omega) hl (by omega) (by omega) (by omega)
    rw [hret, f1, bind_ok]
    have e1 : all'.take cur = bitsOf cur c := by
      have := congrArg (List.take cur) (he.trans f7)
      rw [List.take_append_of_le_length (by simp), List.take_append_of_le_length f3, List.take_of_length_le (by simp)] at this
      exact this.symm
    have e2 : bits = all'.drop cur ++ bitsOfBytes bytes' := by
      have := congrArg (List.drop cur) (he.trans f7)
      rwa [List.drop_append_of_le_length (by simp), List.drop_append_of_le_length f3, List.drop_of_length_le (by simp), List.nil_append] at this
    refine ⟨{ z' with nbits := z'.nbits - cur }, ?_, bytes', ?_, f6, ?_⟩
    · dsimp only
      rw [← ofBits_take _ f3, e1, ofBits_bitsOf, Nat.mod_eq_of_lt hc]
      rfl
    · show z'.nbits - cur ≤ 8
      omega
    · have := f5 (z'.nbits - cur) (by omega) (by omega)
      rw [show all'.length - (z'.nbits - cur) = cur by omega] at this
      rw [e2, this]
  obtain ⟨bytes, hn, hl, he⟩ := h
  unfold nextCode first
  by_cases hz : z.nbits = 0
  · rw [if_pos hz]
    rw [hz, List.drop_of_length_le (by simp), List.nil_append] at he
    cases bytes with
    | nil => have := congrArg List.length he; simp at this; omega
    | cons b bytes =>
      obtain ⟨z1, e, eb, en, hl1⟩ := byte_spec hl
      rw [e, bind_ok]
      dsimp only
      rw [if_pos rfl, pure_eq_ok, bind_ok]
      dsimp only
      rw [if_neg (by simp)]
      exact key (z1 := { z1 with nbits := 8 }) (bytes := bytes) (by simp) (by simp) hl1 (by
        rw [he, bitsOfBytes_cons]
        show _ = (byteBits z1.b1).drop (8 - 8) ++ _
        rw [eb]; rfl)
  · rw [if_neg hz, pure_eq_ok, bind_ok]
    dsimp only
    rw [if_neg (by simp)]
    exact key (by omega) hn hl he

/-- When only padding is left, all blocks have been read. -/
theorem Feeds.done {z : Src} {pad : List Bool} {tail : List UInt8} (h : Feeds z pad tail) (hp : pad.length < 8) : At z.inp tail ∧ z.buf.length = 257 := by
  obtain ⟨bytes, hn, ⟨n, blocks, h1, h2, h3, h4, h5, h6⟩, he⟩ := h
  have := congrArg List.length he
  rw [List.length_append, bitsOfBytes_length] at this
  have hb : bytes = [] := List.length_eq_zero_iff.mp (by omega)
  rw [hb] at h6
  have h7 := (List.append_eq_nil_iff.mp h6.symm).2
  cases blocks with
  | nil => exact ⟨by simpa [blockBytes] using h5, h3⟩
  | cons b bs => exact absurd (List.append_eq_nil_iff.mp h7).1 (h4 b (by simp)).1

end DevIL.Gif
