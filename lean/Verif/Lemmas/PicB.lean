import Verif.Lemmas.Pic
set_option autoImplicit false
namespace DevIL.Pic
open DevIL.Games DevIL.Detect DevIL.Image DevIL.DetectSpec DevIL.PicSpec DevIL.PsdSpec DevIL.Dpx
open DevIL.Psd (EofLaw num_length)

variable {σ : Type} {o : Ops σ} {At : σ → List UInt8 → Nat → Prop}

/-! ### Mixed run-lengths -/

theorem longRun_ok (L : Laws2 o At) (E : EofLaw o At) (junk : Nat → UInt8) {bs : List UInt8} {s : σ} {p n : Nat} (h : At s bs p) (hn : Next bs p (num 2 n)) (hv : n ≤ 65535)
    (hlt : p + 2 < bs.length) : Holds (longRun o junk 128 s) (fun r => r.1 = some n ∧ At r.2 bs (p + 2)) := by
  unfold longRun
  rw [if_pos rfl]
  refine (Psd.u16_at L junk h hn (by omega)).bind (fun r hr => ?_)
  obtain ⟨g, s'⟩ := r
  obtain ⟨h1, h2⟩ := hr
  simp only at h1 h2 ⊢
  obtain ⟨e1, e2⟩ := E h2 (by omega) (by omega)
  rw [e1, if_neg (by simp; omega)]
  exact Holds.pure ⟨by rw [h1], e2⟩

theorem shortRun_ok (junk : Nat → UInt8) {bs : List UInt8} {s : σ} {p n : Nat} (h : At s bs p) (h2 : 2 ≤ n) (hv : n ≤ 128) :
    Holds (longRun o junk (UInt8.ofNat (n + 127)) s) (fun r => r.1 = some n ∧ At r.2 bs p) := by
  unfold longRun
  have hto : (UInt8.ofNat (n + 127)).toNat = n + 127 := by rw [UInt8.toNat_ofNat']; omega
  rw [if_neg (fun e => by
    have := congrArg UInt8.toNat e
    rw [hto] at this
    have : n + 127 = 128 := this
    omega)]
  exact Holds.pure ⟨by rw [hto, Nat.add_sub_cancel], h⟩

theorem rep_ok (L : Laws2 o At) {bs : List UInt8} (junk : Nat → UInt8) {w b a n : Nat} {off : List Nat} {c : UInt8} {t : Runs σ} {v : List UInt8} {s : σ} {p q : Nat} (hi : t.i = t.px)
    (hr : Holds (longRun o junk c s) (fun r => r.1 = some n ∧ At r.2 bs q)) (hv : Next bs q v) (hvl : v.length = off.length) (hfit : t.px + n ≤ w)
    (ho : ∀ i ∈ off, i < b) (ha : a + w * b ≤ t.scan.data.length) (hp : q + v.length = p) :
    Holds (repSeq o junk w off b a c t s)
      (fun r => r.i = r.px ∧ r.px = t.px + n ∧ r.scan.data = paint b off (a + t.px * b) (List.replicate n v) t.scan.data ∧ r.scan.ok = true ∧ At r.scan.inp bs p) := by
  unfold repSeq
  refine hr.bind (fun r hr => ?_)
  obtain ⟨count, s1⟩ := r
  obtain ⟨h1, h2⟩ := hr
  simp only at h1 h2
  subst h1
  simp only
  rw [if_neg (by omega), ← hvl]
  refine (readCol_ok L v h2 hv).bind (fun r hr => ?_)
  obtain ⟨col, s2⟩ := r
  obtain ⟨h1, h3⟩ := hr
  simp only at h1 h3
  subst h1
  simp only
  have hm : (t.px + n) * b ≤ w * b := Nat.mul_le_mul_right _ hfit
  rw [putPxs_ok (a := a + t.px * b) (b := b) off v n t.scan.data (fun k d => by rw [Nat.add_mul, ← Nat.add_assoc]) ho (by rw [Nat.add_mul] at hm; omega), bind_ok]
  exact Holds.pure ⟨by rw [hi]; push_cast; rfl, rfl, rfl, rfl, by rw [← hp]; exact h3⟩

theorem seq_bytes_pos (q : Seq) : 0 < q.bytes.length := by cases q <;> simp [Seq.bytes]

theorem seq_pixels_pos {q : Seq} {k : Nat} (h : q.Ok k) : 0 < q.pixels.length := by
  cases q with
  | lit px => exact h.1
  | rep n px => have := h.1; simp [Seq.pixels]; omega
  | long n px => have := h.1; simp [Seq.pixels]; omega

theorem seq_pixels {q : Seq} {k : Nat} (h : q.Ok k) : ∀ p ∈ q.pixels, p.length = k := by
  cases q with
  | lit px => exact h.2.2
  | rep n px => intro p hp; rw [(List.mem_replicate.mp hp).2]; exact h.2.2
  | long n px => intro p hp; rw [(List.mem_replicate.mp hp).2]; exact h.2.2

theorem mixedStep_ok (L : Laws2 o At) (E : EofLaw o At) {bs : List UInt8} (junk : Nat → UInt8) {w b a : Nat} {off : List Nat} (h0 : off ≠ []) {t : Runs σ} {p : Nat} (q : Seq)
    (hq : q.Ok off.length) (hi : t.i = t.px) (h : At t.scan.inp bs p) (hn : Next bs p q.bytes) (hfit : t.px + q.pixels.length ≤ w)
    (ho : ∀ i ∈ off, i < b) (ha : a + w * b ≤ t.scan.data.length) :
    Holds (mixedStep o junk w off b a t)
      (fun r => r.i = r.px ∧ r.px = t.px + q.pixels.length ∧ r.scan.data = paint b off (a + t.px * b) q.pixels t.scan.data ∧ r.scan.ok = true ∧ At r.scan.inp bs (p + q.bytes.length)) := by
  have hle := Psd.Next.le hn (seq_bytes_pos q)
  have hpos := seq_bytes_pos q
  have h0' : 0 < off.length := List.length_pos_iff.mpr h0
  unfold mixedStep
  obtain ⟨e1, e2⟩ := E h (by omega) (by omega)
  simp only []
  rw [e1, if_neg (by simp; omega)]
  cases q with
  | lit px =>
    obtain ⟨hq1, hq2, hq3⟩ := hq
    simp only [Seq.bytes, Seq.pixels] at hn hfit ⊢
    refine (getc_full L.toLaws e2 hn.head).bind (fun r hr => ?_)
    obtain ⟨c, s⟩ := r
    obtain ⟨h1, h2⟩ := hr
    simp only at h1 h2
    subst h1
    have hto : (UInt8.ofNat (px.length - 1)).toNat = px.length - 1 := by rw [UInt8.toNat_ofNat']; omega
    simp only
    rw [if_neg (by rw [hto]; omega)]
    unfold rawSeq
    simp only []
    rw [hto, show px.length - 1 + 1 = px.length by omega, if_neg (by omega)]
    have hm : (t.px + px.length) * b ≤ w * b := Nat.mul_le_mul_right _ hfit
    rw [Nat.add_mul] at hm
    refine (readPxs_ok L (b := b) (a := a + t.px * b) off px (fun i t' p hi hA hlt hok => ⟨t'.inp, hA, ?_⟩) ho h0 ⟨t.scan.data, s, true⟩ h2 rfl hn.tail hq3 (by simp only []; omega)).bind (fun r hr => ?_)
    · rw [if_neg (by simp [hok]), Nat.add_mul, ← Nat.add_assoc]
    · refine Holds.pure ⟨by rw [hi]; push_cast; rfl, rfl, hr.1, hr.2.1, ?_⟩
      have := hr.2.2
      rw [List.length_cons, show p + (px.flatten.length + 1) = p + 1 + px.flatten.length by omega]
      exact this
  | rep n v =>
    obtain ⟨hq1, hq2, hq3⟩ := hq
    simp only [Seq.bytes, Seq.pixels, List.length_replicate] at hn hfit ⊢
    refine (getc_full L.toLaws e2 hn.head).bind (fun r hr => ?_)
    obtain ⟨c, s⟩ := r
    obtain ⟨h1, h2⟩ := hr
    simp only at h1 h2
    subst h1
    have hto : (UInt8.ofNat (n + 127)).toNat = n + 127 := by rw [UInt8.toNat_ofNat']; omega
    simp only
    rw [if_pos (by rw [hto]; omega)]
    exact rep_ok L junk hi (shortRun_ok junk h2 hq1 hq2) hn.tail hq3 hfit ho ha (by rw [List.length_cons]; omega)
  | long n v =>
    obtain ⟨hq1, hq2, hq3⟩ := hq
    simp only [Seq.bytes, Seq.pixels, List.length_replicate] at hn hfit ⊢
    refine (getc_full L.toLaws e2 hn.head).bind (fun r hr => ?_)
    obtain ⟨c, s⟩ := r
    obtain ⟨h1, h2⟩ := hr
    simp only at h1 h2
    subst h1
    simp only
    rw [if_pos (by decide)]
    have hv := hn.tail.right
    rw [num_length] at hv
    have := Psd.Next.le hv (by omega)
    exact rep_ok L junk hi (longRun_ok L E junk h2 hn.tail.left hq2 (by omega)) hv hq3 hfit ho ha (by rw [List.length_cons, List.length_append, num_length]; omega)

theorem mixed_loop (L : Laws2 o At) (E : EofLaw o At) {bs : List UInt8} (junk : Nat → UInt8) {w b a : Nat} {off : List Nat} (h0 : off ≠ []) (ho : ∀ i ∈ off, i < b) (seqs : List Seq) :
    ∀ (fuel : Nat) (t : Runs σ) (p : Nat), (∀ q ∈ seqs, q.Ok off.length) → t.i = t.px → t.scan.ok = true → At t.scan.inp bs p → Next bs p (seqs.flatMap Seq.bytes) →
      t.px + (seqs.flatMap Seq.pixels).length = w → a + w * b ≤ t.scan.data.length → seqs.length < fuel →
    Holds (whileF (fun t : Runs σ => t.scan.ok && decide (t.i < w)) (mixedStep o junk w off b a) fuel t)
      (fun r => r.scan.data = paint b off (a + t.px * b) (seqs.flatMap Seq.pixels) t.scan.data ∧ r.scan.ok = true ∧ At r.scan.inp bs (p + (seqs.flatMap Seq.bytes).length)) := by
  induction seqs with
  | nil =>
    intro fuel t p _ hi hok h hn hw _ hf
    obtain ⟨fuel, rfl⟩ : ∃ n, fuel = n + 1 := ⟨fuel - 1, by simp at hf; omega⟩
    unfold whileF
    rw [if_neg (by rw [hok, hi]; simp at hw ⊢; omega)]
    exact Holds.pure ⟨rfl, hok, by simpa using h⟩
  | cons q qs ih =>
    intro fuel t p hq hi hok h hn hw ha hf
    obtain ⟨fuel, rfl⟩ : ∃ n, fuel = n + 1 := ⟨fuel - 1, by simp at hf; omega⟩
    simp only [List.flatMap_cons, List.length_append, List.length_cons] at hn hw hf ⊢
    have hq1 := hq q List.mem_cons_self
    have hpp := seq_pixels_pos hq1
    unfold whileF
    rw [if_pos (by rw [hok, hi]; simp; omega)]
    refine (mixedStep_ok L E junk h0 q hq1 hi h hn.left (by omega) ho ha).bind (fun r hr => ?_)
    obtain ⟨h1, h2, h3, h4, h5⟩ := hr
    refine (ih fuel r _ (fun q hq' => hq q (List.mem_cons_of_mem _ hq')) h1 h4 h5 hn.right (by omega) (by rw [h3, paint_length]; exact ha) (by omega)).mono (fun s hs => ⟨?_, hs.2.1, ?_⟩)
    · rw [hs.1, h3, h2, paint_append, Nat.add_mul]
      congr 1
      omega
    · rw [← Nat.add_assoc]; exact hs.2.2

theorem seqs_le (seqs : List Seq) : seqs.length ≤ (seqs.flatMap Seq.bytes).length := by
  induction seqs with
  | nil => simp
  | cons q qs ih =>
    have := seq_bytes_pos q
    simp only [List.flatMap_cons, List.length_append, List.length_cons]
    omega

theorem readMixed_ok (L : Laws2 o At) (E : EofLaw o At) {bs : List UInt8} (junk : Nat → UInt8) {w b a fuel : Nat} {off : List Nat} (h0 : off ≠ []) (ho : ∀ i ∈ off, i < b) (seqs : List Seq)
    (t : Scan σ) {p : Nat} (hq : ∀ q ∈ seqs, q.Ok off.length) (hok : t.ok = true) (h : At t.inp bs p) (hn : Next bs p (seqs.flatMap Seq.bytes)) (hw : (seqs.flatMap Seq.pixels).length = w)
    (ha : a + w * b ≤ t.data.length) (hf : bs.length < fuel) :
    Holds (readMixed o junk fuel w off b a t)
      (fun r => r.data = paint b off a (seqs.flatMap Seq.pixels) t.data ∧ r.ok = true ∧ At r.inp bs (p + (seqs.flatMap Seq.bytes).length)) := by
  unfold readMixed
  have h1 := seqs_le seqs
  have h2 := hn.fit
  refine (mixed_loop L E junk h0 ho seqs fuel ⟨0, 0, t⟩ p hq rfl hok h hn (by simpa using hw) ha (by
    rcases h2 with h2 | h2
    · omega
    · rw [h2] at h1; simp at h1; rw [h1]; simp; omega)).bind (fun r hr => Holds.pure ?_)
  simpa using hr

/-! ### Pure run-lengths of one pixel each -/

theorem pureStep_ok (L : Laws2 o At) (E : EofLaw o At) {bs : List UInt8} {w b a : Nat} {off : List Nat} (h0 : off ≠ []) {t : Runs σ} {p : Nat} (v : List UInt8) (hv : v.length = off.length)
    (h : At t.scan.inp bs p) (hn : Next bs p (1 :: v)) (hfit : t.px + 1 ≤ w) (ho : ∀ i ∈ off, i < b) (ha : a + w * b ≤ t.scan.data.length) :
    Holds (pureStep o w off b a t)
      (fun r => r.i = t.i - 1 ∧ r.px = t.px + 1 ∧ r.scan.data = paint b off (a + t.px * b) [v] t.scan.data ∧ r.scan.ok = true ∧ At r.scan.inp bs (p + (v.length + 1))) := by
  have h0' : 0 < off.length := List.length_pos_iff.mpr h0
  have hle := Psd.Next.le hn (by simp)
  rw [List.length_cons] at hle
  unfold pureStep
  refine (getc_full L.toLaws h hn.head).bind (fun r hr => ?_)
  obtain ⟨c, s⟩ := r
  obtain ⟨h1, h2⟩ := hr
  simp only at h1 h2
  subst h1
  simp only
  obtain ⟨e1, e2⟩ := E h2 (by omega) (by omega)
  rw [e1, if_neg (by simp; omega), ← hv]
  refine (readCol_ok L v e2 hn.tail).bind (fun r hr => ?_)
  obtain ⟨col, s2⟩ := r
  obtain ⟨h1, h3⟩ := hr
  simp only at h1 h3
  subst h1
  simp only
  have hc : (if (1 : UInt8).toNat > w then w else (1 : UInt8).toNat) = 1 := by
    rw [if_neg (by show ¬ 1 > w; omega)]; rfl
  rw [hc]
  have hm : (t.px + 1) * b ≤ w * b := Nat.mul_le_mul_right _ hfit
  rw [Nat.add_mul] at hm
  have := putPx_ok (a + t.px * b) off v t.scan.data (fun i hi => by have := ho i hi; omega)
  rw [loopN_succ, loopN_zero, bind_ok, Nat.add_zero, Nat.add_zero, this, bind_ok]
  exact Holds.pure ⟨rfl, rfl, rfl, rfl, by rw [show p + (v.length + 1) = p + 1 + v.length by omega]; exact h3⟩

theorem pure_loop (L : Laws2 o At) (E : EofLaw o At) {bs : List UInt8} {w b a : Nat} {off : List Nat} (h0 : off ≠ []) (ho : ∀ i ∈ off, i < b) (px : List (List UInt8)) :
    ∀ (fuel : Nat) (t : Runs σ) (p : Nat), (∀ q ∈ px, q.length = off.length) → t.i = w - t.px → t.scan.ok = true → At t.scan.inp bs p → Next bs p (px.flatMap (fun v => 1 :: v)) →
      t.px + px.length = w → a + w * b ≤ t.scan.data.length → px.length < fuel →
    Holds (whileF (fun t : Runs σ => t.scan.ok && decide (0 < t.i)) (pureStep o w off b a) fuel t)
      (fun r => r.scan.data = paint b off (a + t.px * b) px t.scan.data ∧ r.scan.ok = true ∧ At r.scan.inp bs (p + (px.flatMap (fun v => 1 :: v)).length)) := by
  induction px with
  | nil =>
    intro fuel t p _ hi hok h hn hw _ hf
    obtain ⟨fuel, rfl⟩ : ∃ n, fuel = n + 1 := ⟨fuel - 1, by simp at hf; omega⟩
    unfold whileF
    rw [if_neg (by rw [hok, hi]; simp at hw ⊢; omega)]
    exact Holds.pure ⟨rfl, hok, by simpa using h⟩
  | cons q qs ih =>
    intro fuel t p hq hi hok h hn hw ha hf
    obtain ⟨fuel, rfl⟩ : ∃ n, fuel = n + 1 := ⟨fuel - 1, by simp at hf; omega⟩
    simp only [List.flatMap_cons, List.length_append, List.length_cons] at hn hw hf ⊢
    have hq1 := hq q List.mem_cons_self
    unfold whileF
    rw [if_pos (by rw [hok, hi]; simp; omega)]
    refine (pureStep_ok L E h0 q hq1 h hn.left (by omega) ho ha).bind (fun r hr => ?_)
    obtain ⟨h1, h2, h3, h4, h5⟩ := hr
    refine (ih fuel r _ (fun q hq' => hq q (List.mem_cons_of_mem _ hq')) (by rw [h1, h2, hi]; push_cast; omega) h4 h5 hn.right (by omega) (by rw [h3, paint_length]; exact ha) (by omega)).mono (fun s hs => ⟨?_, hs.2.1, ?_⟩)
    · rw [hs.1, h3, h2]
      show _ = paint b off (a + t.px * b) ([q] ++ qs) _
      rw [paint_append b off (a + t.px * b) [q] qs, List.length_singleton, Nat.add_mul, Nat.add_assoc]
    · rw [← Nat.add_assoc]; exact hs.2.2

theorem readPure_ok (L : Laws2 o At) (E : EofLaw o At) {bs : List UInt8} {w b a fuel : Nat} {off : List Nat} (h0 : off ≠ []) (ho : ∀ i ∈ off, i < b) (px : List (List UInt8))
    (t : Scan σ) {p : Nat} (hq : ∀ q ∈ px, q.length = off.length) (hok : t.ok = true) (h : At t.inp bs p) (hn : Next bs p (px.flatMap (fun v => 1 :: v))) (hw : px.length = w)
    (ha : a + w * b ≤ t.data.length) (hf : bs.length < fuel) :
    Holds (readPure o fuel w off b a t)
      (fun r => r.data = paint b off a px t.data ∧ r.ok = true ∧ At r.inp bs (p + (px.flatMap (fun v => 1 :: v)).length)) := by
  unfold readPure
  have h1 : px.length ≤ (px.flatMap (fun v => (1 : UInt8) :: v)).length := by
    clear hq hn hw
    induction px with
    | nil => simp
    | cons q qs ih => simp only [List.flatMap_cons, List.length_append, List.length_cons]; omega
  have h2 := hn.fit
  refine (pure_loop L E h0 ho px fuel ⟨w, 0, t⟩ p hq (by simp) hok h hn (by simpa using hw) ha (by
    rcases h2 with h2 | h2
    · omega
    · rw [h2] at h1; simp at h1; rw [h1]; simp; omega)).bind (fun r hr => Holds.pure ?_)
  simpa using hr

end DevIL.Pic
