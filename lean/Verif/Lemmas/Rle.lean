import Verif.Model.Rle
import Verif.Comp
/-! Lemmas about the run-length encoder. -/
set_option autoImplicit false
namespace DevIL.Rle

/-- How a packet header is read: whether it announces a run, and of how many pixels.  `tga` as in the Truevision file format,
`sgi` as in the SGI image file format. -/
def tgaHeader (h : UInt8) : Bool × Nat := (decide (128 ≤ h.toNat), h.toNat % 128 + 1)
@[inherit_doc tgaHeader]
def sgiHeader (h : UInt8) : Bool × Nat := (decide (h.toNat < 128), h.toNat % 128)

/-- `Packets hd bpp s out`: the bytes `s` are a sequence of complete packets that stand for the bytes `out`, pixels having
`bpp` bytes. -/
inductive Packets (hd : UInt8 → Bool × Nat) (bpp : Nat) : List UInt8 → List UInt8 → Prop
  | nil : Packets hd bpp [] []
  | raw (h : UInt8) (n : Nat) (px s out : List UInt8) (hh : hd h = (false, n)) (h0 : 0 < n) (hl : px.length = n * bpp)
      (rest : Packets hd bpp s out) : Packets hd bpp (h :: (px ++ s)) (px ++ out)
  | run (h : UInt8) (n : Nat) (px s out : List UInt8) (hh : hd h = (true, n)) (h0 : 0 < n) (hl : px.length = bpp)
      (rest : Packets hd bpp s out) : Packets hd bpp (h :: (px ++ s)) ((List.replicate n px).flatten ++ out)

theorem Packets.append {hd : UInt8 → Bool × Nat} {bpp : Nat} {s1 o1 s2 o2 : List UInt8} (h1 : Packets hd bpp s1 o1)
    (h2 : Packets hd bpp s2 o2) : Packets hd bpp (s1 ++ s2) (o1 ++ o2) := by
  induction h1 with
  | nil => exact h2
  | raw h n px s out hh h0 hl rest ih =>
    rw [List.cons_append, List.append_assoc, List.append_assoc]
    exact .raw h n px _ _ hh h0 hl ih
  | run h n px s out hh h0 hl rest ih =>
    rw [List.cons_append, List.append_assoc, List.append_assoc]
    exact .run h n px _ _ hh h0 hl ih

/-- `n` bytes from position `p`. -/
def slice (data : List UInt8) (p n : Nat) : List UInt8 := (data.drop p).take n

theorem slice_length {data : List UInt8} {p n : Nat} (h : p + n ≤ data.length) : (slice data p n).length = n := by
  unfold slice; simp; omega

theorem slice_add (data : List UInt8) (p a b : Nat) : slice data p (a + b) = slice data p a ++ slice data (p + a) b := by
  unfold slice; rw [List.take_add, List.drop_drop]

theorem leVal_inj {a b : List UInt8} (hl : a.length = b.length) (h : leVal a = leVal b) : a = b := by
  rw [← leBytes_leVal a, ← leBytes_leVal b, hl, h]

theorem getPix_spec {data : List UInt8} {p bpp : Nat} (h0 : 0 < bpp) (h4 : bpp ≤ 4) (hp : p + bpp ≤ data.length) :
    getPix data p bpp = .ok (leVal (slice data p bpp).reverse) := by
  have step : ∀ k, p + k < data.length →
      leVal (slice data p (k + 1)).reverse = leVal (slice data p k).reverse * 256 + (data[p + k]?.getD 0).toNat := by
    intro k hk
    rw [slice_add data p k 1]
    have : slice data (p + k) 1 = [data[p + k]] := by
      unfold slice
      rw [List.drop_eq_getElem_cons hk]; rfl
    rw [this, List.reverse_append, List.getElem?_eq_getElem hk]
    simp [leVal]
    omega
  unfold getPix
  rw [rd_of_lt (by omega), bind_ok]
  obtain ⟨t, e, ht⟩ := loopN_inv (n := bpp - 1) (s := (data[p]'(by omega)).toNat) (f := fun k acc => do
      let b ← rd data (p + 1 + k)
      pure (u32 (acc * 256) + b.toNat)) (fun k t => t = leVal (slice data p (k + 1)).reverse)
    (by rw [step 0 (by omega)]; simp [slice, leVal]; rw [List.getElem?_eq_getElem (by omega)]; rfl) (by
      rintro k t hk rfl
      refine ⟨_, ?_, rfl⟩
      rw [rd_of_lt (by omega), bind_ok, pure_eq_ok, step (k + 1) (by omega)]
      congr 1
      have hlt := leVal_lt (slice data p (k + 1)).reverse
      rw [List.length_reverse, slice_length (by omega)] at hlt
      have hle : 256 ^ (k + 1) ≤ 256 ^ 3 := Nat.pow_le_pow_right (by decide) (by omega)
      rw [u32_of_lt (by have : (256 : Nat) ^ 3 = 16777216 := by decide
                        omega)]
      have hx : p + 1 + k = p + (k + 1) := by omega
      simp only [hx]
      rw [List.getElem?_eq_getElem (by omega)]
      rfl)
  rw [e, ht, Nat.sub_add_cancel h0]

/-- No two neighbouring pixels among the `n` from position `p` on are equal. -/
def Distinct (data : List UInt8) (p bpp n : Nat) : Prop :=
  ∀ i, i + 1 < n → slice data (p + i * bpp) bpp ≠ slice data (p + (i + 1) * bpp) bpp

theorem Distinct.drop {data : List UInt8} {p bpp n k : Nat} (h : Distinct data p bpp n) (hk : k ≤ n) :
    Distinct data (p + k * bpp) bpp (n - k) := by
  intro i hi
  have := h (k + i) (by omega)
  rw [show p + k * bpp + i * bpp = p + (k + i) * bpp by rw [Nat.add_mul]; omega,
    show p + k * bpp + (i + 1) * bpp = p + (k + i + 1) * bpp by grind]
  exact this

theorem Distinct.mono {data : List UInt8} {p bpp n k : Nat} (h : Distinct data p bpp n) (hk : k ≤ n) :
    Distinct data p bpp k := fun i hi => h i (by omega)

theorem pix_ne {data : List UInt8} {p bpp : Nat} (h : slice data p bpp ≠ slice data (p + bpp) bpp)
    (hp : p + 2 * bpp ≤ data.length) : leVal (slice data (p + bpp) bpp).reverse ≠ leVal (slice data p bpp).reverse := by
  intro e
  apply h
  have := leVal_inj (by simp [slice_length (show p + bpp ≤ data.length by omega),
    slice_length (show p + bpp + bpp ≤ data.length by omega)]) e
  exact (List.reverse_inj.mp this).symm

theorem diffLoop_spec {data : List UInt8} {bpp : Nat} (h0 : 0 < bpp) (h4 : bpp ≤ 4) : ∀ (k p n next : Nat),
    Distinct data p bpp (k + 1) → p + (k + 1) * bpp ≤ data.length → (k = 0 → next = leVal (slice data p bpp).reverse) →
    diffLoop data bpp k p (leVal (slice data p bpp).reverse) next n = .ok (n + k) := by
  intro k
  induction k with
  | zero => intro p n next _ _ hn; unfold diffLoop; rw [if_pos (hn rfl)]; rfl
  | succ k ih =>
    intro p n next hd hp _
    have e : (k + 1 + 1) * bpp = (k + 1) * bpp + bpp := by rw [Nat.add_mul, Nat.one_mul]
    have e' : (k + 1) * bpp = k * bpp + bpp := by rw [Nat.add_mul, Nat.one_mul]
    have g := getPix_spec (data := data) (p := p + bpp) h0 h4 (by omega)
    unfold diffLoop
    rw [g, bind_ok]
    have hne := hd 0 (by omega)
    simp only [Nat.zero_mul, Nat.add_zero, Nat.zero_add, Nat.one_mul] at hne
    rw [if_neg (pix_ne hne (by omega))]
    have hd' := hd.drop (k := 1) (by omega)
    rw [Nat.one_mul] at hd'
    rw [ih (p + bpp) (n + 1) _ hd' (by omega) (fun _ => rfl)]
    congr 1; omega

theorem countDiff_spec {data : List UInt8} {p bpp k : Nat} (h0 : 0 < bpp) (h4 : bpp ≤ 4) (hk : 0 < k)
    (hd : Distinct data p bpp k) (hp : p + k * bpp ≤ data.length) :
    countDiff data p bpp k = .ok (if k = 1 then 1 else k - 1) := by
  unfold countDiff
  by_cases h1 : k = 1
  · rw [if_pos h1, if_pos h1]; rfl
  · rw [if_neg h1, if_neg h1]
    have : bpp ≤ k * bpp := Nat.le_mul_of_pos_left _ hk
    rw [getPix_spec h0 h4 (by omega), bind_ok]
    rw [diffLoop_spec h0 h4 (k - 1) p 0 0 (by rw [Nat.sub_add_cancel hk]; exact hd) (by rw [Nat.sub_add_cancel hk]; exact hp)
      (by omega)]
    simp

theorem countSame_spec {data : List UInt8} {p bpp k : Nat} (h0 : 0 < bpp) (h4 : bpp ≤ 4) (hk : 0 < k)
    (hd : Distinct data p bpp k) (hp : p + k * bpp ≤ data.length) : countSame data p bpp k = .ok 1 := by
  unfold countSame
  have : bpp ≤ k * bpp := Nat.le_mul_of_pos_left _ hk
  rw [getPix_spec h0 h4 (by omega), bind_ok]
  cases hk' : k - 1 with
  | zero => rfl
  | succ j =>
    have hk2 : k = j + 2 := by omega
    have e : (j + 2) * bpp = j * bpp + 2 * bpp := by rw [Nat.add_mul]
    rw [hk2] at hp hd
    unfold sameLoop
    have hne := hd 0 (by omega)
    simp only [Nat.zero_mul, Nat.add_zero, Nat.zero_add, Nat.one_mul] at hne
    rw [getPix_spec h0 h4 (by omega), bind_ok, if_pos (pix_ne hne (by omega))]
    rfl

/-- The reading of headers in the given mode. -/
def headerOf (sgi : Bool) : UInt8 → Bool × Nat := if sgi then sgiHeader else tgaHeader

theorem raw_header (sgi : Bool) {d : Nat} (h0 : 0 < d) (h1 : d < 128) :
    headerOf sgi (if sgi then UInt8.ofNat (d ||| 0x80) else UInt8.ofNat (d - 1)) = (false, d) := by
  cases sgi
  · simp only [headerOf, tgaHeader, Bool.false_eq_true, if_false]
    have : (UInt8.ofNat (d - 1)).toNat = d - 1 := by simp; omega
    rw [this]; simp; omega
  · simp only [headerOf, sgiHeader, if_true]
    have e : d ||| 0x80 = d + 128 := by
      have := Nat.shiftLeft_add_eq_or_of_lt (b := d) (i := 7) h1 1
      have h2 : (1 : Nat) <<< 7 = 128 := by decide
      rw [h2] at this
      rw [Nat.or_comm]; omega
    have : (UInt8.ofNat (d ||| 0x80)).toNat = d + 128 := by rw [e]; simp; omega
    rw [this]; simp; omega

theorem maxRun_bounds (sgi : Bool) : 127 ≤ maxRun sgi ∧ maxRun sgi ≤ 128 := by cases sgi <;> decide

/-- One round on a line without runs: a raw packet of all pixels but one, or of the last pixel. -/
theorem lineStep_spec {data : List UInt8} {bpp : Nat} {sgi : Bool} (h0 : 0 < bpp) (h4 : bpp ≤ 4) {s : E} (hn : 0 < s.n)
    (hn2 : s.n < 2147483648) (hd : Distinct data s.p bpp s.n) (hp : s.p + s.n * bpp ≤ data.length) (d : Nat)
    (hdd : d = if s.n = 1 then 1 else min s.n (maxRun sgi) - 1) (hq : s.q + 1 + d * bpp ≤ s.dest.length) :
    ∃ h : UInt8, headerOf sgi h = (false, d) ∧ 0 < d ∧ d ≤ s.n ∧ lineStep data bpp sgi s =
      .ok ⟨s.p + d * bpp, s.q + 1 + d * bpp, s.n - d, s.size + d * bpp + 1,
        splice s.dest s.q (h :: slice data s.p (d * bpp))⟩ := by
  obtain ⟨m1, m2⟩ := maxRun_bounds sgi
  have ht : Lump.toInt s.n = s.n := by unfold Lump.toInt; rw [if_pos hn2]
  have hk : (if Lump.toInt s.n > (maxRun sgi : Int) then maxRun sgi else s.n) = min s.n (maxRun sgi) := by
    rw [ht]; split <;> omega
  have hk0 : 0 < min s.n (maxRun sgi) := by omega
  have hle : min s.n (maxRun sgi) ≤ s.n := by omega
  have hkb : min s.n (maxRun sgi) * bpp ≤ s.n * bpp := Nat.mul_le_mul_right _ hle
  have hdv : (if min s.n (maxRun sgi) = 1 then 1 else min s.n (maxRun sgi) - 1) = d := by rw [hdd]; split <;> split <;> omega
  have hd0 : 0 < d := by rw [hdd]; split <;> omega
  have hd1 : d < 128 := by rw [hdd]; split <;> omega
  have hdn : d ≤ s.n := by rw [hdd]; split <;> omega
  have hdb : d * bpp ≤ s.n * bpp := Nat.mul_le_mul_right _ hdn
  refine ⟨_, raw_header sgi hd0 hd1, hd0, hdn, ?_⟩
  unfold lineStep
  rw [hk]
  simp only []
  rw [countDiff_spec h0 h4 hk0 (hd.mono hle) (by omega), bind_ok, countSame_spec h0 h4 hk0 (hd.mono hle) (by omega), bind_ok, hdv]
  unfold rawPacket
  rw [if_pos hd0, wr_splice (by omega), bind_ok]
  have hc : casesOf bpp = bpp := by unfold casesOf; rw [if_pos h4]
  unfold copyBytes
  rw [hc, copy_splice (by omega) (by rw [splice_length (by simp; omega)]; omega), bind_ok]
  have ss := splice_splice (d := s.dest) (q := s.q)
    (o := [if sgi then UInt8.ofNat (d ||| 0x80) else UInt8.ofNat (d - 1)]) (o' := slice data s.p (d * bpp)) (by omega)
  simp only [List.length_singleton, List.singleton_append] at ss
  unfold slice at ss
  rw [ss]
  rfl

/-- The whole loop on a line without runs. -/
theorem loop_spec {data : List UInt8} {bpp : Nat} {sgi : Bool} (h0 : 0 < bpp) (h4 : bpp ≤ 4) :
    ∀ (fuel : Nat) (s : E), s.n < fuel → s.n < 2147483648 → Distinct data s.p bpp s.n → s.p + s.n * bpp ≤ data.length →
    s.q + s.n * bpp + s.n / 126 + (if s.n = 0 then 0 else if s.n = 1 then 1 else 2) ≤ s.dest.length →
    ∃ o, whileF (fun s : E => decide (s.n > 0)) (lineStep data bpp sgi) fuel s =
        .ok ⟨s.p + s.n * bpp, s.q + o.length, 0, s.size + o.length, splice s.dest s.q o⟩ ∧
      Packets (headerOf sgi) bpp o (slice data s.p (s.n * bpp)) ∧
      o.length ≤ s.n * bpp + s.n / 126 + (if s.n = 0 then 0 else if s.n = 1 then 1 else 2) := by
  intro fuel
  induction fuel with
  | zero => intro s h; omega
  | succ fuel ih =>
    intro s hf hn2 hd hp hq
    unfold whileF
    by_cases hn : s.n = 0
    · rw [if_neg (by simp [hn])]
      refine ⟨[], ?_, ?_, ?_⟩
      · obtain ⟨p, q, n, size, dest⟩ := s
        simp only at hn
        simp [hn]
      · rw [hn]; simpa [slice] using Packets.nil
      · simp
    · rw [if_pos (by simp; omega)]
      obtain ⟨m1, m2⟩ := maxRun_bounds sgi
      obtain ⟨d, hdd⟩ : ∃ d, d = if s.n = 1 then 1 else min s.n (maxRun sgi) - 1 := ⟨_, rfl⟩
      have hdn : d ≤ s.n := by rw [hdd]; split <;> omega
      have hdb : d * bpp ≤ s.n * bpp := Nat.mul_le_mul_right _ hdn
      obtain ⟨h, hh, hd0, hdn, e⟩ := lineStep_spec (sgi := sgi) h0 h4 (s := s) (by omega) hn2 hd hp d hdd
        (by rw [if_neg hn] at hq; split at hq <;> omega)
      rw [e, bind_ok]
      have hsub : (s.n - d) * bpp + d * bpp = s.n * bpp := by rw [← Nat.add_mul, Nat.sub_add_cancel hdn]
      have hsl : (slice data s.p (d * bpp)).length = d * bpp := slice_length (by omega)
      rw [if_neg hn] at hq
      have hq1 : s.q + s.n * bpp + s.n / 126 + 1 ≤ s.dest.length := by split at hq <;> omega
      have hbound : (s.n - d) / 126 + 2 + 1 ≤ s.n / 126 + 2 ∨ s.n - d = 1 ∨ s.n - d = 0 := by
        by_cases hb : s.n ≤ maxRun sgi
        · right; rw [hdd]; split <;> omega
        · left
          have : d = maxRun sgi - 1 := by rw [hdd, if_neg (by omega)]; omega
          omega
      obtain ⟨o, e2, pk, hlen⟩ := ih ⟨s.p + d * bpp, s.q + 1 + d * bpp, s.n - d, s.size + d * bpp + 1,
        splice s.dest s.q (h :: slice data s.p (d * bpp))⟩ (by show s.n - d < fuel; omega) (by show s.n - d < _; omega)
        (hd.drop hdn) (by show s.p + d * bpp + (s.n - d) * bpp ≤ _; omega) (by
          show s.q + 1 + d * bpp + (s.n - d) * bpp + (s.n - d) / 126 + (if s.n - d = 0 then 0 else if s.n - d = 1 then 1 else 2) ≤
            (splice s.dest s.q _).length
          rw [splice_length (by simp [hsl]; omega)]
          split at hq
          · rw [if_pos (by omega)]; omega
          · rcases hbound with hb | hb | hb
            · have : (if s.n - d = 0 then 0 else if s.n - d = 1 then 1 else 2) ≤ 2 := by
                split
                · omega
                · split <;> omega
              omega
            · rw [if_neg (by omega), if_pos hb]; omega
            · rw [if_pos hb]; omega)
      refine ⟨h :: slice data s.p (d * bpp) ++ o, ?_, ?_, ?_⟩
      · rw [e2]
        have ss := splice_splice (d := s.dest) (q := s.q) (o := h :: slice data s.p (d * bpp)) (o' := o) (by omega)
        simp only [List.length_cons, hsl] at ss
        simp only [List.length_append, List.length_cons, hsl]
        rw [show s.q + 1 + d * bpp = s.q + (d * bpp + 1) by omega, ss]
        congr 2 <;> omega
      · have := Packets.raw h d (slice data s.p (d * bpp)) o _ hh hd0 hsl pk
        rw [← hsub, Nat.add_comm, slice_add]
        exact this
      · simp only [List.length_append, List.length_cons, hsl]
        simp only at hlen
        have : d = s.n ∨ s.n ≠ 1 := by
          by_cases h1 : s.n = 1
          · left; omega
          · right; exact h1
        rw [if_neg hn]
        clear hq
        split at hlen
        · split <;> omega
        · split at hlen
          · rename_i a b
            rw [if_neg (by omega)]; omega
          · rw [if_neg (by omega)]
            rcases hbound with hb | hb | hb <;> omega

end DevIL.Rle
