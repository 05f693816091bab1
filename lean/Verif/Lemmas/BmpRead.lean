import Verif.Lemmas.Bmp
/-! The pixels that the BMP loader reads from a complete file. -/
set_option autoImplicit false
namespace DevIL.Bmp
open DevIL.Lump DevIL.Endian DevIL.Image DevIL.Utility DevIL.Load
open DevIL.Targa (Loaded)
open DevIL.Pcx (readByte)

/-- The first `q` of `n` cells have the values of `f`. -/
def Filled (f : Nat → UInt8) (n q : Nat) (d : List UInt8) : Prop := d.length = n ∧ ∀ i, i < q → d[i]? = some (f i)

theorem Filled.wr {f : Nat → UInt8} {n q : Nat} {d : List UInt8} {v : UInt8} (h : Filled f n q d) (hq : q < n) (hv : v = f q) :
    Holds (DevIL.wr d q v) (Filled f n (q + 1)) := by
  refine ⟨d.set q v, wr_of_lt (by rw [h.1]; exact hq), by rw [List.length_set]; exact h.1, fun i hi => ?_⟩
  rw [List.getElem?_set]
  by_cases e : q = i
  · rw [if_pos e, if_pos (by rw [h.1]; exact hq), hv, e]
  · rw [if_neg e]; exact h.2 i (by omega)

theorem Filled.put {f : Nat → UInt8} {n q : Nat} {d bs : List UInt8} (h : Filled f n q d) (hq : q + bs.length ≤ n)
    (hv : ∀ k, k < bs.length → bs[k]? = some (f (q + k))) : Filled f n (q + bs.length) (d.take q ++ (bs ++ d.drop (q + bs.length))) := by
  have hl := h.1
  have ht : (d.take q).length = q := by rw [List.length_take]; omega
  refine ⟨by simp only [List.length_append, List.length_take, List.length_drop]; omega, fun i hi => ?_⟩
  by_cases e : i < q
  · rw [List.getElem?_append_left (by omega), List.getElem?_take, if_pos e]
    exact h.2 i e
  · rw [List.getElem?_append_right (by omega), List.getElem?_append_left (by omega), hv _ (by omega)]
    congr 2
    omega

theorem read_here {l : R} (g : Good l) {a b : Nat} (ha : 0 < a) (h : l.pos + a * b ≤ l.size) :
    read l a b = .ok (⟨(l.data.drop l.pos).take (a * b), b, false⟩, adv l (a * b)) := by
  have hav : avail l a b = a * b := by
    unfold avail
    have := g.lt
    rw [u32_of_lt (by omega)]
    omega
  rw [read_spec g, hav, if_pos (by omega), Nat.mul_div_cancel_left _ ha]
  simp [adv]

theorem readByte_here {l : R} (g : Good l) (h : l.pos < l.size) :
    readByte l = .ok (some (l.data.getD l.pos 0), adv l 1) := by
  unfold readByte
  rw [read_here g (by decide) (by omega), bind_ok]
  have hl : l.pos < l.data.length := by rw [← g.size]; exact h
  simp only [if_true, Nat.mul_one, pure_eq_ok]
  congr 2
  rw [List.drop_eq_getElem_cons hl]
  simp only [List.take_succ_cons, List.head?_cons]
  simp [List.getD, hl]

theorem readAt_here {l : R} (g : Good l) {dst : List UInt8} {off k : Nat} (h : l.pos + k ≤ l.size) (hd : off + k ≤ dst.length) :
    readAt l dst off 1 k = .ok (k, dst.take off ++ ((l.data.drop l.pos).take k ++ dst.drop (off + k)), adv l k) := by
  have hl : ((l.data.drop l.pos).take k).length = k := by
    have := g.size
    rw [List.length_take, List.length_drop]; omega
  unfold readAt
  rw [read_here g (by decide) (by omega), bind_ok]
  simp only [Nat.one_mul, hl]
  rw [if_pos hd]
  rfl

theorem bit_eq (b : UInt8) {c : Nat} (hc : c < 8) :
    (if b.toNat &&& (128 >>> c) ≠ 0 then (1 : UInt8) else 0) = UInt8.ofNat (b.toNat / 2 ^ (7 - c) % 2) := by
  have key : ∀ (b : Fin 256) (c : Fin 8), (if b.val &&& (128 >>> c.val) ≠ 0 then (1 : UInt8) else 0) = UInt8.ofNat (b.val / 2 ^ (7 - c.val) % 2) := by
    decide +kernel
  exact key ⟨b.toNat, b.toNat_lt⟩ ⟨c, hc⟩

/-! ### One-bit and four-bit rows -/

theorem putBits_spec {w j n : Nat} {b : UInt8} {f : Nat → UInt8} {x : Nat} {d : List UInt8} (hx : x < w) (hn : j * w + w ≤ n) (hlt : n < 4294967296)
    (hd : Filled f n (j * w + x) d) (hv : ∀ c, c < 8 → x + c < w → f (j * w + x + c) = UInt8.ofNat (b.toNat / 2 ^ (7 - c) % 2)) :
    Holds (putBits w j b (x, d)) fun t => t.1 = min (x + 8) w ∧ Filled f n (j * w + t.1) t.2 := by
  unfold putBits
  refine (Holds.loop (fun (c : Nat) (t : Nat × List UInt8) => t.1 = min (x + c) w ∧ Filled f n (j * w + t.1) t.2) ⟨by show x = _; omega, hd⟩ ?_)
  intro c t hc ht
  obtain ⟨h1, h2⟩ := ht
  refine Holds.ite (fun h => ?_) (fun h => ?_)
  · have hxc : t.1 = x + c := by omega
    rw [u32_of_lt (by omega)]
    refine (h2.wr (by omega) ?_).bind fun d' hd' => ?_
    · rw [bit_eq b hc, hxc, ← Nat.add_assoc, hv c hc (by omega)]
    · exact Holds.pure ⟨by show t.1 + 1 = _; omega, hd'⟩
  · exact Holds.pure ⟨by omega, h2⟩

/-- A row of one-bit pixels. -/
theorem bitRow_spec {l : R} (g : Good l) {w j n o k : Nat} {f : Nat → UInt8} {d : List UInt8} (hn : j * w + w ≤ n) (hlt : n < 4294967296)
    (hd : Filled f n (j * w) d) (hin : l.pos + o + (w + 7) / 8 + k ≤ l.size)
    (hv : ∀ x, x < w → f (j * w + x) = UInt8.ofNat ((l.data.getD (l.pos + o + x / 8) 0).toNat / 2 ^ (7 - x % 8) % 2)) :
    Holds (smallRow bitStep k w j ⟨d, adv l o, false⟩) fun s => Filled f n (j * w + w) s.data ∧ s.inp = adv l (o + (w + 7) / 8 + k) ∧ s.failed = false := by
  unfold smallRow
  rw [if_neg (by simp)]
  have hwhile := Holds.while (c := fun x : X => !x.failed && decide (x.x < w)) (f := bitStep w j)
    (fun s : X => s.failed = false ∧ s.x ≤ w ∧ (s.x % 8 = 0 ∨ s.x = w) ∧ Filled f n (j * w + s.x) s.data ∧ s.inp = adv l (o + (s.x + 7) / 8))
    (fun s : X => w - s.x) (by
      intro s hs hc
      obtain ⟨h1, h2, h3, h4, h5⟩ := hs
      simp only [Bool.and_eq_true, Bool.not_eq_true', decide_eq_true_eq] at hc
      have h8 : s.x % 8 = 0 := by omega
      have hg : Good (adv l (o + (s.x + 7) / 8)) := good_adv g (by omega)
      unfold bitStep
      rw [h5, readByte_here hg (by show l.pos + (o + (s.x + 7) / 8) < l.size; omega), bind_ok]
      dsimp only
      refine (putBits_spec hc.2 hn hlt h4 fun c hc8 hcw => ?_).bind fun t ht => ?_
      · rw [Nat.add_assoc, hv _ hcw]
        have e1 : (s.x + c) / 8 = (s.x + 7) / 8 := by omega
        have e2 : (s.x + c) % 8 = c := by omega
        rw [e1, e2]
        simp only [adv_data, adv_pos, Nat.add_assoc]
      · obtain ⟨x', d'⟩ := t
        dsimp only at ht ⊢
        refine Holds.pure ⟨⟨rfl, by show x' ≤ w; omega, by show x' % 8 = 0 ∨ x' = w; omega, ht.2, ?_⟩, by show w - x' < w - s.x; omega⟩
        show adv (adv l (o + (s.x + 7) / 8)) 1 = adv l (o + (x' + 7) / 8)
        rw [adv_adv]
        congr 1
        omega) (w + 1) ⟨0, d, adv l o, false⟩ ⟨rfl, Nat.zero_le _, .inl rfl, hd, by simp⟩ (by show w - 0 < w + 1; omega)
  refine hwhile.bind fun x hx => ?_
  obtain ⟨⟨h1, h2, h3, h4, h5⟩, hc⟩ := hx
  have hxw : x.x = w := by
    rw [h1] at hc
    simp only [Bool.not_false, Bool.true_and, decide_eq_false_iff_not] at hc
    omega
  rw [if_neg (by simp [h1]), h5, hxw, read_here (good_adv g (by omega)) (by decide) (by simp only [adv_pos, adv_size]; omega), bind_ok]
  refine Holds.pure ⟨by rw [hxw] at h4; exact h4, ?_, rfl⟩
  show adv (adv l (o + (w + 7) / 8)) (1 * k) = _
  rw [adv_adv, Nat.one_mul]

/-- A row of four-bit pixels. -/
theorem nibbleRow_spec {l : R} (g : Good l) {w j n o k : Nat} {f : Nat → UInt8} {d : List UInt8} (hn : j * w + w ≤ n) (hlt : n < 4294967296)
    (hd : Filled f n (j * w) d) (hin : l.pos + o + (w + 1) / 2 + k ≤ l.size)
    (hv : ∀ x, x < w → f (j * w + x) = UInt8.ofNat (if x % 2 = 0 then (l.data.getD (l.pos + o + x / 2) 0).toNat / 16
      else (l.data.getD (l.pos + o + x / 2) 0).toNat % 16)) :
    Holds (smallRow nibbleStep k w j ⟨d, adv l o, false⟩) fun s => Filled f n (j * w + w) s.data ∧ s.inp = adv l (o + (w + 1) / 2 + k) ∧ s.failed = false := by
  unfold smallRow
  rw [if_neg (by simp)]
  have hwhile := Holds.while (c := fun x : X => !x.failed && decide (x.x < w)) (f := nibbleStep w j)
    (fun s : X => s.failed = false ∧ s.x ≤ w ∧ (s.x % 2 = 0 ∨ s.x = w) ∧ Filled f n (j * w + s.x) s.data ∧ s.inp = adv l (o + (s.x + 1) / 2))
    (fun s : X => w - s.x) (by
      intro s hs hc
      obtain ⟨h1, h2, h3, h4, h5⟩ := hs
      simp only [Bool.and_eq_true, Bool.not_eq_true', decide_eq_true_eq] at hc
      have h8 : s.x % 2 = 0 := by omega
      have hg : Good (adv l (o + (s.x + 1) / 2)) := good_adv g (by omega)
      have v1 := hv s.x hc.2
      rw [if_pos h8] at v1
      unfold nibbleStep
      rw [h5, readByte_here hg (by show l.pos + (o + (s.x + 1) / 2) < l.size; omega), bind_ok]
      dsimp only
      have ep : l.pos + (o + (s.x + 1) / 2) = l.pos + o + s.x / 2 := by omega
      rw [u32_of_lt (by omega)]
      refine (h4.wr (by omega) ?_).bind fun d' hd' => ?_
      · rw [v1]; simp only [adv_data, adv_pos]; rw [ep]
      refine Holds.ite (fun he => ?_) (fun he => ?_)
      · refine Holds.pure ⟨⟨rfl, by show s.x + 1 ≤ w; omega, .inr he, hd', ?_⟩, by show w - (s.x + 1) < w - s.x; omega⟩
        show adv (adv l (o + (s.x + 1) / 2)) 1 = adv l (o + (s.x + 1 + 1) / 2)
        rw [adv_adv]; congr 1; omega
      · have v2 := hv (s.x + 1) (by omega)
        rw [if_neg (by omega)] at v2
        rw [u32_of_lt (by omega)]
        refine (hd'.wr (by omega) ?_).bind fun d2 hd2 => ?_
        · rw [Nat.add_assoc, v2]; simp only [adv_data, adv_pos]; rw [ep, show (s.x + 1) / 2 = s.x / 2 by omega]
        · refine Holds.pure ⟨⟨rfl, by show s.x + 2 ≤ w; omega, .inl (by show (s.x + 2) % 2 = 0; omega), hd2, ?_⟩, by show w - (s.x + 2) < w - s.x; omega⟩
          show adv (adv l (o + (s.x + 1) / 2)) 1 = adv l (o + (s.x + 2 + 1) / 2)
          rw [adv_adv]; congr 1; omega) (w + 1) ⟨0, d, adv l o, false⟩ ⟨rfl, Nat.zero_le _, .inl rfl, hd, by simp⟩ (by show w - 0 < w + 1; omega)
  refine hwhile.bind fun x hx => ?_
  obtain ⟨⟨h1, h2, h3, h4, h5⟩, hc⟩ := hx
  have hxw : x.x = w := by
    rw [h1] at hc
    simp only [Bool.not_false, Bool.true_and, decide_eq_false_iff_not] at hc
    omega
  rw [if_neg (by simp [h1]), h5, hxw, read_here (good_adv g (by omega)) (by decide) (by simp only [adv_pos, adv_size]; omega), bind_ok]
  refine Holds.pure ⟨by rw [hxw] at h4; exact h4, ?_, rfl⟩
  show adv (adv l (o + (w + 1) / 2)) (1 * k) = _
  rw [adv_adv, Nat.one_mul]

/-- All rows, each `stride` bytes after the one before. -/
theorem smallRows_spec {step : Nat → Nat → X → C X} {l : R} {w h n k stride : Nat} {f : Nat → UInt8} {d : List UInt8} (hd : d.length = n)
    (hs : ∀ j d, j < h → Filled f n (j * w) d → Holds (smallRow step k w j ⟨d, adv l (j * stride), false⟩) fun s =>
      Filled f n (j * w + w) s.data ∧ s.inp = adv l (j * stride + stride) ∧ s.failed = false) :
    Holds (loopN h (smallRow step k w) ⟨d, l, false⟩) fun s => Filled f n (h * w) s.data ∧ s.failed = false := by
  refine (Holds.loop (fun (j : Nat) (s : S) => Filled f n (j * w) s.data ∧ s.inp = adv l (j * stride) ∧ s.failed = false)
    ⟨⟨hd, fun i hi => absurd hi (by simp)⟩, by rw [Nat.zero_mul]; rfl, rfl⟩ ?_).mono fun s hs => ⟨hs.1, hs.2.2⟩
  intro j s hj ht
  obtain ⟨h1, h2, h3⟩ := ht
  obtain ⟨sd, si, sf⟩ := s
  dsimp only at h1 h2 h3
  rw [h2, h3, Nat.succ_mul, Nat.succ_mul]
  exact hs j sd hj h1

/-! ### 8 and 24 bits -/

theorem rowsBytes_spec {l : R} (g : Good l) {bps h n stride : Nat} {f : Nat → UInt8} {d : List UInt8} (h0 : 0 < bps) (hn : n = h * bps) (hd : d.length = n)
    (hst : stride = bps + (4 - bps % 4) % 4) (hin : l.pos + h * stride ≤ l.size)
    (hv : ∀ j x, j < h → x < bps → f (j * bps + x) = l.data.getD (l.pos + j * stride + x) 0) :
    Holds (rowsBytes bps n d l) fun s => Filled f n n s.data ∧ s.failed = false := by
  have hsz := g.size
  have hget : ∀ p k i, p + k ≤ l.size → i < k → ((l.data.drop p).take k)[i]? = some (l.data.getD (p + i) 0) := by
    intro p k i hp hi
    rw [List.getElem?_take, if_pos hi, List.getElem?_drop]
    have : p + i < l.data.length := by omega
    simp [List.getD, this]
  unfold rowsBytes
  refine Holds.ite (fun hp => ?_) (fun hp => ?_)
  · have hsb : stride = bps := by omega
    rw [hsb] at hin hv
    rw [readAt_here g (by omega) (by omega), bind_ok]
    refine Holds.pure ⟨?_, by simp⟩
    have hl : ((l.data.drop l.pos).take n).length = n := by rw [List.length_take, List.length_drop]; omega
    have := Filled.put (f := f) (n := n) (q := 0) (d := d) (bs := (l.data.drop l.pos).take n) ⟨hd, fun i hi => absurd hi (by simp)⟩ (by omega) (by
      intro k hk
      rw [hl] at hk
      rw [hget _ _ _ (by omega) hk, Nat.zero_add]
      have hq : k / bps < h := Nat.div_lt_of_lt_mul (by rw [Nat.mul_comm]; omega)
      have := hv (k / bps) (k % bps) hq (Nat.mod_lt _ h0)
      rw [Nat.add_assoc, Nat.mul_comm (k / bps), Nat.div_add_mod] at this
      rw [this])
    rw [hl, Nat.zero_add] at this
    rw [Nat.zero_add]
    exact this
  · rw [hn, forStep_mul h0, ← hn]
    refine (Holds.loop (fun (j : Nat) (s : S) => Filled f n (j * bps) s.data ∧ s.inp = adv l (j * stride) ∧ s.failed = false)
      ⟨⟨hd, fun i hi => absurd hi (by simp)⟩, by rw [Nat.zero_mul]; rfl, rfl⟩ ?_).mono fun s hs => ⟨by rw [hn] at hs ⊢; exact hs.1, hs.2.2⟩
    intro j s hj ht
    obtain ⟨h1, h2, h3⟩ := ht
    have hle : (j + 1) * stride ≤ h * stride := Nat.mul_le_mul_right _ hj
    have hle2 : (j + 1) * bps ≤ h * bps := Nat.mul_le_mul_right _ hj
    rw [Nat.add_mul, Nat.one_mul] at hle hle2
    have hsl := h1.1
    rw [if_neg (by simp [h3]), h2, readAt_here (good_adv g (by omega)) (by simp only [adv_pos, adv_size]; omega) (by omega), bind_ok]
    dsimp only
    rw [if_neg (by simp), adv_adv, read_here (good_adv g (by omega)) (by decide) (by simp only [adv_pos, adv_size]; omega), bind_ok]
    have hl : ((l.data.drop (l.pos + j * stride)).take bps).length = bps := by rw [List.length_take, List.length_drop]; omega
    have := h1.put (bs := (l.data.drop (l.pos + j * stride)).take bps) (by omega) (by
      intro k hk
      rw [hl] at hk
      rw [hget _ _ _ (by omega) hk, hv j k hj hk])
    rw [hl] at this
    refine Holds.pure ⟨by rw [Nat.add_mul, Nat.one_mul]; exact this, ?_, rfl⟩
    show adv (adv l (j * stride + bps)) (1 * (4 - bps % 4)) = _
    rw [adv_adv]
    congr 1
    rw [Nat.add_mul]
    omega

/-! ### 16 and 32 bits -/

/-- A mask of `k` ones from bit `lo` on, with the shifts that bring them to the top of a byte. -/
def maskOf (k lo : Nat) : Mask := ⟨(2 ^ k - 1) * 2 ^ lo, 8 - k, lo⟩

theorem maskOf_get (k lo v : Nat) : (maskOf k lo).get v = UInt8.ofNat (v / 2 ^ lo % 2 ^ k * 2 ^ (8 - k)) := by
  unfold Mask.get maskOf
  dsimp only
  rw [Nat.shiftRight_and_distrib, Nat.shiftRight_eq_div_pow, Nat.shiftRight_eq_div_pow, Nat.mul_div_cancel _ (Nat.two_pow_pos lo),
    Nat.and_two_pow_sub_one_eq_mod, Nat.shiftLeft_eq]

theorem masks16_eq : masks16 = (maskOf 5 0, maskOf 5 5, maskOf 5 10) := rfl
theorem masks32_eq : masks32 = (maskOf 8 0, maskOf 8 8, maskOf 8 16) := rfl

theorem shiftR_spec {k : Nat} (hk : 0 < k) : ∀ (lo n : Nat), lo < n → shiftR ((2 ^ k - 1) * 2 ^ lo) n = lo := by
  intro lo
  induction lo with
  | zero =>
    intro n hn
    obtain ⟨n, rfl⟩ : ∃ i, n = i + 1 := ⟨n - 1, by omega⟩
    obtain ⟨k, rfl⟩ : ∃ i, k = i + 1 := ⟨k - 1, by omega⟩
    unfold shiftR
    have := Nat.two_pow_pos k
    rw [if_pos (by rw [Nat.pow_succ]; omega)]
  | succ lo ih =>
    intro n hn
    obtain ⟨n, rfl⟩ : ∃ i, n = i + 1 := ⟨n - 1, by omega⟩
    unfold shiftR
    rw [Nat.pow_succ, ← Nat.mul_assoc, if_neg (by omega), Nat.mul_div_cancel _ (by decide), ih n (by omega)]

theorem ones_spec : ∀ (k n : Nat), k ≤ n → ones (2 ^ k - 1) n = k := by
  intro k
  induction k with
  | zero =>
    intro n _
    cases n with
    | zero => rfl
    | succ n => rfl
  | succ k ih =>
    intro n hn
    obtain ⟨n, rfl⟩ : ∃ i, n = i + 1 := ⟨n - 1, by omega⟩
    unfold ones
    have := Nat.two_pow_pos k
    rw [if_pos (by rw [Nat.pow_succ]; omega), show (2 ^ (k + 1) - 1) / 2 = 2 ^ k - 1 by rw [Nat.pow_succ]; omega, ih n (by omega)]

theorem shift_spec {k lo : Nat} (hk : 0 < k) (hk8 : k ≤ 8) (hlo : lo < 32) :
    GetShiftFromMask ((2 ^ k - 1) * 2 ^ lo) = (8 - k, lo) := by
  have h1 : 1 < 2 ^ k := Nat.one_lt_two_pow (by omega)
  have h2 := Nat.two_pow_pos lo
  have : 0 < (2 ^ k - 1) * 2 ^ lo := Nat.mul_pos (by omega) h2
  unfold GetShiftFromMask
  rw [if_neg (by omega), shiftR_spec hk lo 32 hlo, Nat.mul_div_cancel _ h2, ones_spec k 8 hk8]

theorem readMask_here {l : R} (g : Good l) (big : Bool) (init : Nat) {k lo : Nat} (hk : 0 < k) (hk8 : k ≤ 8) (hlo : lo < 32) (h : l.pos + 4 ≤ l.size)
    (hm : field l.data l.pos 4 = (2 ^ k - 1) * 2 ^ lo) : readMask big init l = .ok (maskOf k lo, adv l 4) := by
  have hsz := g.size
  have hl : ((l.data.drop l.pos).take 4).length = 4 := by rw [List.length_take, List.length_drop]; omega
  unfold readMask
  rw [read_here g (by decide) (by omega), bind_ok]
  simp only [Nat.mul_one, hl]
  have hd : (objBytes big 4 init).drop 4 = [] := by
    apply List.drop_eq_nil_of_le
    unfold objBytes
    cases big <;> simp
  rw [hd, List.append_nil]
  have hm' : leVal ((l.data.drop l.pos).take 4) = (2 ^ k - 1) * 2 ^ lo := hm
  rw [hm', shift_spec hk hk8 hlo]
  rfl

theorem wideStep_spec {l : R} (g : Good l) {m : Mask × Mask × Mask} {k i n : Nat} {f : Nat → UInt8} {d : List UInt8} (hk : 0 < k)
    (hd : Filled f n i d) (hi : i + 3 ≤ n) (hin : l.pos + k ≤ l.size)
    (h0 : f i = m.1.get (field l.data l.pos k)) (h1 : f (i + 1) = m.2.1.get (field l.data l.pos k)) (h2 : f (i + 2) = m.2.2.get (field l.data l.pos k)) :
    Holds (wideStep false m k i ⟨d, l, false⟩) fun s => Filled f n (i + 3) s.data ∧ s.inp = adv l k ∧ s.failed = false := by
  unfold wideStep
  rw [if_neg (by simp), read_here g hk (by omega), bind_ok]
  dsimp only
  rw [if_neg (by simp)]
  have hv : objVal false ((l.data.drop l.pos).take (k * 1)) = field l.data l.pos k := by
    unfold objVal field
    rw [Nat.mul_one]
    rfl
  rw [hv]
  refine (hd.wr (by omega) h0.symm).bind fun d1 hd1 => ?_
  refine (hd1.wr (by omega) h1.symm).bind fun d2 hd2 => ?_
  refine (hd2.wr (by omega) h2.symm).bind fun d3 hd3 => ?_
  exact Holds.pure ⟨hd3, by rw [Nat.mul_one], rfl⟩

theorem rows16_spec {l : R} (g : Good l) {m : Mask × Mask × Mask} {w h n stride : Nat} {f : Nat → UInt8} {d : List UInt8} (hn : n = h * w * 3)
    (hlt : n < 4294967296) (hd : d.length = n)
    (hst : stride = w * 2 + (4 - w * 2 % 4) % 4) (hin : l.pos + h * stride ≤ l.size)
    (hv : ∀ j x, j < h → x < w → f ((j * w + x) * 3) = m.1.get (field l.data (l.pos + j * stride + x * 2) 2) ∧
      f ((j * w + x) * 3 + 1) = m.2.1.get (field l.data (l.pos + j * stride + x * 2) 2) ∧
      f ((j * w + x) * 3 + 2) = m.2.2.get (field l.data (l.pos + j * stride + x * 2) 2)) :
    Holds (rows16 false m w h d l) fun s => Filled f n n s.data ∧ s.failed = false := by
  unfold rows16
  refine (Holds.loop (fun (j : Nat) (s : S) => Filled f n (j * w * 3) s.data ∧ s.inp = adv l (j * stride) ∧ s.failed = false)
    ⟨⟨hd, fun i hi => absurd hi (by simp)⟩, by rw [Nat.zero_mul]; rfl, rfl⟩ ?_).mono fun s hs => ⟨by rw [hn] at hs ⊢; exact hs.1, hs.2.2⟩
  intro j s hj ht
  have hle : (j + 1) * stride ≤ h * stride := Nat.mul_le_mul_right _ hj
  rw [Nat.add_mul, Nat.one_mul] at hle
  refine (Holds.loop (fun (x : Nat) (s : S) => Filled f n ((j * w + x) * 3) s.data ∧ s.inp = adv l (j * stride + x * 2) ∧ s.failed = false) ?_ ?_).bind fun t ht => ?_
  · exact ht
  · intro x s hx hs
    obtain ⟨h1, h2, h3⟩ := hs
    obtain ⟨sd, si, sf⟩ := s
    dsimp only at h1 h2 h3
    have hb : j * w + x < h * w := idx_lt hj hx
    have hb2 : (j * w + x + 1) * 3 ≤ h * w * 3 := Nat.mul_le_mul_right 3 hb
    have := hv j x hj hx
    rw [h2, h3, u32_of_lt (by omega)]
    refine (wideStep_spec (l := adv l (j * stride + x * 2)) (good_adv g (by omega)) (by decide) h1 (by omega) (by simp only [adv_pos, adv_size]; omega) ?_ ?_ ?_).mono
      fun s hs => ⟨by rw [← Nat.add_assoc, Nat.add_mul]; exact hs.1, by rw [hs.2.1, adv_adv]; congr 1; omega, hs.2.2⟩
    · rw [this.1]; simp only [adv_data, adv_pos, Nat.add_assoc]
    · rw [this.2.1]; simp only [adv_data, adv_pos, Nat.add_assoc]
    · rw [this.2.2]; simp only [adv_data, adv_pos, Nat.add_assoc]
  · obtain ⟨h1, h2, h3⟩ := ht
    rw [if_neg (by simp [h3]), h2, read_here (good_adv g (by omega)) (by decide) (by simp only [adv_pos, adv_size]; omega), bind_ok]
    refine Holds.pure ⟨by rw [Nat.succ_mul]; exact h1, ?_, h3⟩
    show adv (adv l (j * stride + w * 2)) (1 * _) = _
    rw [adv_adv, Nat.one_mul, Nat.add_mul, Nat.one_mul]
    congr 1
    omega

theorem rows32_spec {l : R} (g : Good l) {m : Mask × Mask × Mask} {k n : Nat} {f : Nat → UInt8} {d : List UInt8} (hn : n = k * 3) (hd : d.length = n)
    (hin : l.pos + k * 4 ≤ l.size)
    (hv : ∀ p, p < k → f (p * 3) = m.1.get (field l.data (l.pos + p * 4) 4) ∧ f (p * 3 + 1) = m.2.1.get (field l.data (l.pos + p * 4) 4) ∧
      f (p * 3 + 2) = m.2.2.get (field l.data (l.pos + p * 4) 4)) :
    Holds (forStep 0 n 3 (fun i s => wideStep false m 4 i s) ⟨d, l, false⟩) fun s => Filled f n n s.data ∧ s.failed = false := by
  rw [hn, forStep_mul (by decide), ← hn]
  refine (Holds.loop (fun (p : Nat) (s : S) => Filled f n (p * 3) s.data ∧ s.inp = adv l (p * 4) ∧ s.failed = false)
    ⟨⟨hd, fun i hi => absurd hi (by simp)⟩, rfl, rfl⟩ ?_).mono fun s hs => ⟨by rw [hn] at hs ⊢; exact hs.1, hs.2.2⟩
  intro p s hp hs
  obtain ⟨h1, h2, h3⟩ := hs
  obtain ⟨sd, si, sf⟩ := s
  dsimp only at h1 h2 h3
  have := hv p hp
  rw [h2, h3]
  refine (wideStep_spec (l := adv l (p * 4)) (good_adv g (by omega)) (by decide) h1 (by omega) (by simp only [adv_pos, adv_size]; omega) ?_ ?_ ?_).mono
    fun s hs => ⟨by rw [Nat.add_mul]; exact hs.1, by rw [hs.2.1, adv_adv]; congr 1; omega, hs.2.2⟩
  · exact this.1
  · exact this.2.1
  · exact this.2.2

end DevIL.Bmp
