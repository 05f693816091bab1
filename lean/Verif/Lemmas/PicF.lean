import Verif.Lemmas.PicE
set_option autoImplicit false
namespace DevIL.Pic
open DevIL.Games DevIL.Detect DevIL.Image DevIL.DetectSpec DevIL.PicSpec DevIL.Dpx
open DevIL.PsdSpec (num)
open DevIL.Psd (EofLaw num_length)
open DevIL.Sun (Laws3)

variable {σ : Type} {o : Ops σ} {At : σ → List UInt8 → Nat → Prop}

/-! ### Faults -/

theorem bind_err {α β : Type} {c : C α} {f : α → C β} {P : α → Prop} {e : Fault} (h : Holds c P) (hf : ∀ a, P a → f a = .error e) : (c >>= f) = .error e := by
  obtain ⟨a, ea, pa⟩ := h
  rw [ea, bind_ok, hf a pa]

theorem loop_first {α : Type} {f : Nat → α → C α} {n : Nat} {s : α} {e : Fault} (hn : 0 < n) (h : f 0 s = .error e) : loopN n f s = .error e := by
  obtain ⟨n, rfl⟩ : ∃ m, n = m + 1 := ⟨n - 1, by omega⟩
  unfold loopN
  rw [loopFrom_succ, h, bind_error]

theorem wr_err {d : List UInt8} {i : Nat} {v : UInt8} (h : d.length ≤ i) : wr d i v = .error .oobWrite := by
  unfold wr
  rw [if_neg (by omega)]

theorem putPx_len (off : List Nat) : ∀ (c d : List UInt8) (a : Nat), putPx off c a d = .error .oobWrite ∨ ∃ d', putPx off c a d = .ok d' ∧ d'.length = d.length := by
  induction off with
  | nil => intro c d a; exact .inr ⟨d, by cases c <;> rfl, rfl⟩
  | cons j js ih =>
    intro c d a
    cases c with
    | nil => exact .inr ⟨d, rfl, rfl⟩
    | cons c cs =>
      unfold putPx
      rcases Nat.lt_or_ge (a + j) d.length with h | h
      · rw [wr_of_lt h, bind_ok]
        rcases ih cs (d.set (a + j) c) a with h1 | ⟨d', h1, h2⟩
        · exact .inl h1
        · exact .inr ⟨d', h1, by rw [h2, List.length_set]⟩
      · rw [wr_err h]; exact .inl rfl

theorem putPx_err (off : List Nat) : ∀ (c d : List UInt8) (a : Nat), c.length = off.length → (∃ i ∈ off, d.length ≤ a + i) → putPx off c a d = .error .oobWrite := by
  induction off with
  | nil => rintro c d a _ ⟨i, hi, -⟩; cases hi
  | cons j js ih =>
    intro c d a hc he
    cases c with
    | nil => simp at hc
    | cons c cs =>
      unfold putPx
      rcases Nat.lt_or_ge (a + j) d.length with h | h
      · rw [wr_of_lt h, bind_ok]
        refine ih cs _ a (by simpa using hc) ?_
        obtain ⟨i, hi, hle⟩ := he
        rcases List.mem_cons.mp hi with rfl | hi
        · omega
        · exact ⟨i, hi, by rw [List.length_set]; exact hle⟩
      · rw [wr_err h]; rfl

theorem readPx_err (L : Laws2 o At) {bs : List UInt8} {a : Nat} {off : List Nat} (h0 : off ≠ []) {t : Scan σ} {p : Nat} (h : At t.inp bs p) (hp : p < bs.length) (ha : t.data.length ≤ a) :
    readPx o off a t = .error .oobWrite := by
  cases off with
  | nil => exact absurd rfl h0
  | cons j js =>
    unfold readPx
    refine bind_err (read_full L.toLaws 1 1 h (by decide) (by decide) (by omega)) (fun r hr => ?_)
    obtain ⟨g, n, s⟩ := r
    obtain ⟨h1, h2, h3⟩ := hr
    simp only at h1 h2 h3 ⊢
    rw [h1, show at_ bs p (1 * 1) = [bs[p]] from at_one (List.getElem?_eq_getElem hp)]
    unfold memcpy
    rw [if_pos (by simp), if_neg (by simp; omega)]
    rfl

/-- The first pixel of the first part of a row is written outside of the block. -/
theorem scanline_err (L : Laws2 o At) (E : EofLaw o At) {bs : List UInt8} (junk : Nat → UInt8) {w b a fuel : Nat} (hf : 0 < fuel) {q : Part} {c : Packet} {cs : List Chan} {status : Bool} {t : Scan σ} {p : Nat}
    (hw : 0 < w) (hq : q.Ok w c) (h0 : compsOf c.chan ≠ []) (h : At t.inp bs p) (hn : Next bs p q.bytes) (ha : t.data.length ≤ a) :
    readScanline o junk fuel w b a (toChan c :: cs) status t = .error .oobWrite := by
  have h0' : 0 < (compsOf c.chan).length := List.length_pos_iff.mpr h0
  have hpos := part_bytes_pos hq.stored h0' (by rw [hq.width]; exact hw)
  have hle := Psd.Next.le hn hpos
  obtain ⟨fuel, rfl⟩ : ∃ m, fuel = m + 1 := ⟨fuel - 1, by omega⟩
  obtain ⟨e1, e2⟩ := E h (by omega) (by omega)
  have loop : ∀ (v : List UInt8) (n : Nat) (f : Nat → List UInt8 → C (List UInt8)), v.length = (compsOf c.chan).length → 0 < n → f 0 t.data = putPx (compsOf c.chan) v a t.data →
      loopN n f t.data = .error .oobWrite := by
    intro v n f hv hn he
    refine loop_first hn ?_
    rw [he]
    obtain ⟨i, hi⟩ := List.exists_mem_of_ne_nil _ h0
    exact putPx_err _ v _ _ hv ⟨i, hi, by omega⟩
  have rep : ∀ (x : UInt8) (n q' : Nat) (v : List UInt8) (s : σ), Holds (longRun o junk x s) (fun r => r.1 = some n ∧ At r.2 bs q') → Next bs q' v → v.length = (compsOf c.chan).length →
      0 < n → n ≤ w → repSeq o junk w (compsOf c.chan) b a x ⟨0, 0, { t with ok := true }⟩ s = .error .oobWrite := by
    intro x n q' v s hl hv hvl hn0 hnw
    unfold repSeq
    refine bind_err hl (fun r hr => ?_)
    obtain ⟨count, s1⟩ := r
    obtain ⟨h1, h2⟩ := hr
    simp only at h1 h2
    subst h1
    simp only
    rw [if_neg (by omega), ← hvl]
    refine bind_err (readCol_ok L v h2 hv) (fun r hr => ?_)
    obtain ⟨col, s2⟩ := r
    obtain ⟨h1, h3⟩ := hr
    simp only at h1 h3
    subst h1
    simp only
    rw [loop v n _ hvl hn0 (by simp), bind_error]
  have hk : (toChan c).type &&& 0x0F = q.kind := hq.kind
  unfold readScanline
  rw [hk, show offs (toChan c).chan = compsOf c.chan from offs_eq _]
  cases q with
  | plain px =>
    rw [if_pos (show (Part.plain px).kind = 0 from rfl)]
    unfold readRaw
    rw [loop_first hw, bind_error]
    simp only [Bool.not_true, Bool.false_eq_true, if_false]
    rw [e1, if_neg (by simp; omega)]
    exact readPx_err L h0 e2 (by omega) (by show t.data.length ≤ _; omega)
  | mixed seqs =>
    rw [if_neg (show ¬ (Part.mixed seqs).kind = 0 from (by decide : ¬ (2 : UInt8) = 0)), if_neg (show ¬ (Part.mixed seqs).kind = 1 from (by decide : ¬ (2 : UInt8) = 1)),
      if_pos (show (Part.mixed seqs).kind = 2 from rfl)]
    cases seqs with
    | nil => have := hq.width; simp [Part.pixels] at this; omega
    | cons q qs =>
      have hqk := hq.stored q List.mem_cons_self
      have hqw := hq.width
      simp only [Part.pixels, Part.bytes, List.flatMap_cons, List.length_append] at hqw hn
      have hn1 := hn.left
      unfold readMixed whileF
      rw [if_pos (by simp; omega)]
      unfold mixedStep
      simp only []
      rw [e1, if_neg (by simp; omega)]
      cases q with
      | lit px =>
        obtain ⟨hq1, hq2, hq3⟩ := hqk
        simp only [Seq.bytes, Seq.pixels] at hn1 hqw
        rw [bind_err (getc_full L.toLaws e2 hn1.head), bind_error, bind_error, bind_error]
        rintro ⟨x, s⟩ ⟨h1, h2⟩
        simp only at h1 h2
        subst h1
        have hto : (UInt8.ofNat (px.length - 1)).toNat = px.length - 1 := by rw [UInt8.toNat_ofNat']; omega
        simp only
        rw [if_neg (by rw [hto]; omega)]
        unfold rawSeq
        simp only []
        rw [hto, show px.length - 1 + 1 = px.length by omega, if_neg (by omega), loop_first (by omega), bind_error]
        rw [if_neg (by simp)]
        have hfl : 0 < px.flatten.length := by
          cases px with
          | nil => simp at hq1
          | cons v vs =>
            have := hq3 v List.mem_cons_self
            rw [List.flatten_cons, List.length_append]; omega
        have := Psd.Next.le hn1.tail hfl
        exact readPx_err L h0 h2 (by omega) (by show t.data.length ≤ _; omega)
      | rep n v =>
        obtain ⟨hq1, hq2, hq3⟩ := hqk
        simp only [Seq.bytes, Seq.pixels, List.length_replicate] at hn1 hqw
        rw [bind_err (getc_full L.toLaws e2 hn1.head), bind_error, bind_error, bind_error]
        rintro ⟨x, s⟩ ⟨h1, h2⟩
        simp only at h1 h2
        subst h1
        have hto : (UInt8.ofNat (n + 127)).toNat = n + 127 := by rw [UInt8.toNat_ofNat']; omega
        simp only
        rw [if_pos (by rw [hto]; omega)]
        exact rep _ n _ v s (shortRun_ok junk h2 hq1 hq2) hn1.tail hq3 (by omega) (by omega)
      | long n v =>
        obtain ⟨hq1, hq2, hq3⟩ := hqk
        simp only [Seq.bytes, Seq.pixels, List.length_replicate] at hn1 hqw
        rw [bind_err (getc_full L.toLaws e2 hn1.head), bind_error, bind_error, bind_error]
        rintro ⟨x, s⟩ ⟨h1, h2⟩
        simp only at h1 h2
        subst h1
        simp only
        rw [if_pos (by decide)]
        have hv := hn1.tail.right
        rw [num_length] at hv
        have := Psd.Next.le hv (by omega)
        exact rep _ n _ v s (longRun_ok L E junk h2 hn1.tail.left hq2 (by omega)) hv hq3 hq1 (by omega)
  | pure runs =>
    rw [if_neg (show ¬ (Part.pure runs).kind = 0 from (by decide : ¬ (1 : UInt8) = 0)), if_pos (show (Part.pure runs).kind = 1 from rfl)]
    cases runs with
    | nil => have := hq.width; simp [Part.pixels] at this; omega
    | cons r rs =>
      obtain ⟨n, v⟩ := r
      obtain ⟨hq1, hq2, hq3⟩ := hq.stored (n, v) List.mem_cons_self
      simp only [Part.bytes, List.flatMap_cons] at hn hq1 hq2 hq3
      have hn1 := hn.left
      have hle1 := Psd.Next.le hn1 (by simp)
      rw [List.length_cons] at hle1
      unfold readPure whileF
      rw [if_pos (by simp; omega)]
      unfold pureStep
      rw [bind_err (getc_full L.toLaws h hn1.head), bind_error, bind_error, bind_error]
      rintro ⟨x, s⟩ ⟨h1, h2⟩
      simp only at h1 h2
      subst h1
      have hto : (UInt8.ofNat n).toNat = n := by rw [UInt8.toNat_ofNat']; omega
      simp only
      obtain ⟨g1, g2⟩ := E h2 (by omega) (by omega)
      rw [g1, if_neg (by simp; omega), hto, ← hq3]
      refine bind_err (readCol_ok L v g2 hn1.tail) (fun r hr => ?_)
      obtain ⟨col, s2⟩ := r
      obtain ⟨h1, h3⟩ := hr
      simp only at h1 h3
      subst h1
      simp only
      rw [loop v _ _ hq3 (by split <;> omega) (by simp), bind_error]

theorem upto_err (L : Laws2 o At) (E : EofLaw o At) (junk : Nat → UInt8) {fuel : Nat} (cur : Loaded) (d : Doc) (hd : d.Ok) (hf : d.bytes.length < fuel) {s : σ} (hA : At s d.bytes 0) {e : Fault}
    (hQ : ∀ s1, At s1 d.bytes (104 + (listBytes d.packets).length) → readScanlines o junk fuel d.width d.height (depthOf d) (d.packets.map toChan)
        ⟨(tex junk d.width d.height (depthOf d) IL_RGBA).data, s1, true⟩ = .error e) : iLoadPicInternal o junk fuel cur s = .error e := by
  have hbp := body_pos hd
  have hhl := header_length (w := d.width) (h := d.height) hd.note hd.ratio
  have hbl : d.bytes.length = 104 + ((listBytes d.packets).length + (d.rows.flatMap (fun r => r.flatMap Part.bytes)).length) := by
    unfold Doc.bytes
    rw [List.length_append, List.length_append, hhl]
  have hN : Next d.bytes 0 (header d.note d.width d.height d.ratio ++ (listBytes d.packets ++ d.rows.flatMap (fun r => r.flatMap Part.bytes))) := next_drop (r := []) (by rw [List.append_nil]; rfl)
  have hN2 := hN.right
  rw [hhl] at hN2
  unfold iLoadPicInternal
  refine bind_err (header_ok L junk hA hd.note hd.ratio ⟨hd.width.1, by have := hd.width.2; omega⟩ ⟨hd.height.1, by have := hd.height.2; omega⟩ hN.left) (fun r hr => ?_)
  obtain ⟨hh, s0⟩ := r
  obtain ⟨h1, h2, h3, h4⟩ := hr
  simp only at h1 h2 h3 h4 ⊢
  rw [if_neg (by rw [h1]; decide)]
  refine bind_err (list_ok L E d.packets fuel ⟨[], s0, true, true⟩ 104 hd.some rfl h4 (by simpa using hN2.left) (by omega) (by
    have := listBytes_length d.packets
    omega)) (fun r hr => ?_)
  obtain ⟨r1, r2, r3⟩ := hr
  rw [if_neg (by rw [r2]; decide), r1, h2, h3]
  have w1 : wide d.width = d.width := if_pos hd.width.2
  have w2 : wide d.height = d.height := if_pos hd.height.2
  have w3 : short d.width = d.width := if_pos hd.width.2
  have w4 : short d.height = d.height := if_pos hd.height.2
  have ht := hQ r.inp r3
  simp only [List.nil_append]
  rw [w1, w2, w3, w4]
  unfold depthOf at ht
  rw [ht]; rfl

theorem body_next (d : Doc) (hd : d.Ok) : Next d.bytes (104 + (listBytes d.packets).length) (d.rows.flatMap (fun r => r.flatMap Part.bytes)) := by
  have hN : Next d.bytes 0 ((header d.note d.width d.height d.ratio ++ listBytes d.packets) ++ d.rows.flatMap (fun r => r.flatMap Part.bytes)) :=
    next_drop (r := []) (by rw [List.append_nil, List.append_assoc]; rfl)
  have hN2 := hN.right
  rwa [List.length_append, header_length hd.note hd.ratio, Nat.zero_add] at hN2

theorem opaque_err (L : Laws2 o At) (E : EofLaw o At) (junk : Nat → UInt8) {fuel : Nat} (cur : Loaded) (d : Doc) (hd : d.Ok) (hf : d.bytes.length < fuel) (ha : ¬ d.HasAlpha) (hh : 4 ≤ d.height)
    {s : σ} (hA : At s d.bytes 0) : iLoadPicInternal o junk fuel cur s = .error .oobWrite := by
  refine upto_err L E junk cur d hd hf hA (fun s1 h1 => ?_)
  have hdep : depthOf d = 3 := if_neg (fun h => ha ((alpha_any _).mp h))
  have hfit := whole_fit hd.width.2 hd.height.2 (show 3 ≤ 4 by decide)
  have hl : (tex junk d.width d.height 3 IL_RGBA).data.length = d.width * d.height * 3 := by
    rw [tex_len]; exact (tex_fields junk d.width d.height 3 IL_RGBA hd.width.1 hd.height.1 (by decide) hfit).2.2.2.2.2.2.2.2
  have hN := body_next d hd
  rw [hdep]
  unfold readScanlines
  refine loop_first hd.height.1 ?_
  rw [if_neg (by simp)]
  have h2 := hd.rows
  cases hr : d.rows with
  | nil => rw [hr] at h2; simp at h2; omega
  | cons r rs =>
    have hrow := hd.parts r (by rw [hr]; exact List.mem_cons_self)
    rw [hr, List.flatMap_cons] at hN
    cases hp : d.packets with
    | nil => exact absurd hp hd.some
    | cons q qs =>
      rw [hp] at hrow
      cases r with
      | nil => exact hrow.elim
      | cons t ts =>
        rw [List.flatMap_cons, List.append_assoc] at hN
        rw [List.map_cons]
        refine scanline_err L E junk (by omega) hd.width.1 hrow.1 (hd.comps q (by rw [hp]; exact List.mem_cons_self)) h1 hN.left ?_
        show (tex junk d.width d.height 3 IL_RGBA).data.length ≤ _
        rw [hl, Nat.sub_zero, Nat.mul_comm d.width d.height, Nat.mul_right_comm, Nat.mul_right_comm _ d.width]
        exact Nat.mul_le_mul_right _ (by omega)

/-! ### A pure run -/

theorem loop_last {f : Nat → List UInt8 → C (List UInt8)} {n l : Nat} {e : Fault} (hf : ∀ k s, s.length = l → f k s = .error e ∨ ∃ s', f k s = .ok s' ∧ s'.length = l)
    (hl : ∀ s, s.length = l → f n s = .error e) {s : List UInt8} (hs : s.length = l) : loopN (n + 1) f s = .error e := by
  have : ∀ m, loopN m f s = .error e ∨ ∃ s', loopN m f s = .ok s' ∧ s'.length = l := by
    intro m
    induction m with
    | zero => exact .inr ⟨s, rfl, hs⟩
    | succ m ih =>
      rw [loopN_succ]
      rcases ih with h | ⟨s', h, h'⟩
      · rw [h]; exact .inl rfl
      · rw [h, bind_ok]; exact hf m s' h'
  rw [loopN_succ]
  rcases this n with h | ⟨s', h, h'⟩
  · rw [h]; rfl
  · rw [h, bind_ok]; exact hl s' h'

/-- A row of `w` equal pixels as one pure run. -/
def runDoc (note ratio : List UInt8) (w : Nat) (v : List UInt8) : Doc := ⟨note, ratio, w, 1, [⟨8, 1, 0xF0⟩], [[.pure [(w, v)]]]⟩

theorem runDoc_ok {note ratio v : List UInt8} {w : Nat} (hn : note.length = 84) (hr : ratio.length = 8) (hw : 0 < w ∧ w < 256) (hv : v.length = 4) : (runDoc note ratio w v).Ok where
  note := hn
  ratio := hr
  width := ⟨hw.1, by have := hw.2; show w < _; omega⟩
  height := ⟨by show 0 < 1; decide, by show 1 < _; decide⟩
  some := by simp [runDoc]
  comps := by
    intro p hp
    rw [List.mem_singleton.mp hp]
    decide
  rows := rfl
  parts := by
    intro r hr
    rw [List.mem_singleton.mp hr]
    refine ⟨⟨rfl, ?_, ?_⟩, trivial⟩
    · intro r hr
      rw [List.mem_singleton.mp hr]
      exact ⟨hw.1, by have := hw.2; show w ≤ _; omega, hv⟩
    · simp [Part.pixels, runDoc]

theorem run_err (L : Laws2 o At) (E : EofLaw o At) (junk : Nat → UInt8) {fuel : Nat} (cur : Loaded) {note ratio v : List UInt8} {w : Nat} (hn : note.length = 84) (hr : ratio.length = 8)
    (hw : 2 ≤ w ∧ w < 256) (hv : v.length = 4) (hf : (runDoc note ratio w v).bytes.length < fuel) {s : σ} (hA : At s (runDoc note ratio w v).bytes 0) :
    iLoadPicInternal o junk fuel cur s = .error .oobWrite := by
  have hd := runDoc_ok hn hr ⟨by omega, hw.2⟩ hv
  refine upto_err L E junk cur _ hd hf hA (fun s1 h1 => ?_)
  have hdep : depthOf (runDoc note ratio w v) = 4 := rfl
  have hN := body_next _ hd
  have hfit := whole_fit hd.width.2 hd.height.2 (show 4 ≤ 4 by decide)
  have hl : (tex junk w 1 4 IL_RGBA).data.length = w * 4 := by
    rw [tex_len]
    have := (tex_fields junk w 1 4 IL_RGBA (by omega) (by decide) (by decide) hfit).2.2.2.2.2.2.2.2
    rw [this, Nat.mul_one]
  rw [hdep]
  show readScanlines o junk fuel w 1 4 [toChan ⟨8, 1, 0xF0⟩] ⟨(tex junk w 1 4 IL_RGBA).data, s1, true⟩ = _
  have hN1 : Next (runDoc note ratio w v).bytes (104 + (listBytes (runDoc note ratio w v).packets).length) (UInt8.ofNat w :: v) := by
    have e : (runDoc note ratio w v).rows.flatMap (fun r => r.flatMap Part.bytes) = UInt8.ofNat w :: v := by simp [runDoc, Part.bytes]
    rwa [e] at hN
  have hle := Psd.Next.le hN1 (by simp)
  rw [List.length_cons] at hle
  generalize htd : (tex junk w 1 4 IL_RGBA).data = td at hl
  generalize 104 + (listBytes (runDoc note ratio w v).packets).length = p at h1 hN1 hle
  obtain ⟨fuel, rfl⟩ : ∃ m, fuel = m + 1 := ⟨fuel - 1, by omega⟩
  unfold readScanlines
  refine loop_first (by decide) ?_
  rw [if_neg (by simp)]
  unfold readScanline
  rw [if_neg (show ¬ ((toChan ⟨8, 1, 0xF0⟩).type &&& 0x0F = 0) by decide), if_pos (show (toChan ⟨8, 1, 0xF0⟩).type &&& 0x0F = 1 by decide)]
  rw [show offs (toChan ⟨8, 1, 0xF0⟩).chan = [0, 1, 2, 3] by decide]
  unfold readPure whileF
  rw [if_pos (by simp; omega)]
  unfold pureStep
  rw [bind_err (getc_full L.toLaws h1 hN1.head), bind_error, bind_error, bind_error]
  rintro ⟨x, s⟩ ⟨g1, g2⟩
  simp only at g1 g2
  subst g1
  have hto : (UInt8.ofNat w).toNat = w := by rw [UInt8.toNat_ofNat']; omega
  simp only
  obtain ⟨k1, k2⟩ := E g2 (by omega) (by omega)
  rw [k1, if_neg (by simp; omega), hto, show [0, 1, 2, 3].length = v.length by rw [hv]; rfl]
  refine bind_err (readCol_ok L v k2 hN1.tail) (fun r hr => ?_)
  obtain ⟨col, s2⟩ := r
  obtain ⟨g1, g3⟩ := hr
  simp only at g1 g3
  subst g1
  simp only
  obtain ⟨m, rfl⟩ : ∃ m, w = m + 1 := ⟨w - 1, by omega⟩
  rw [if_neg (by omega), loop_last (l := (m + 1) * 4) (e := .oobWrite), bind_error]
  · intro k s hs
    rcases putPx_len [0, 1, 2, 3] v s ((1 - 1 - 0) * (m + 1) * 4 + (0 + k) * 4 + k) with h | ⟨s', h, h'⟩
    · exact .inl h
    · exact .inr ⟨s', h, by rw [h', hs]⟩
  · intro s hs
    exact putPx_err _ _ _ _ (by rw [hv]; rfl) ⟨3, by decide, by rw [hs]; omega⟩
  · exact hl

/-! ### A list of packets that is cut off in memory -/

theorem getb_back (L : Laws3 o At true) {s : σ} {bs : List UInt8} (h : At s bs bs.length) : Holds (getb o s) (fun r => At r.2 bs (bs.length - 1)) := by
  refine (L.getcStop h (Nat.le_refl _)).bind (fun r hr => Holds.pure ?_)
  exact (hr.2.2 rfl).2

theorem list_hang (L : Laws3 o At true) (E : EofLaw o At) {bs : List UInt8} {c : UInt8} (hc : c ≠ 0) {p : Nat} (hb : bs[p]? = some c) (hlen : bs.length = p + 1) : ∀ (fuel : Nat) (t : Chans σ), t.more = true →
    At t.inp bs p → whileF (fun t : Chans σ => t.more) (chanStep o) fuel t = .error .hang := by
  intro fuel
  induction fuel with
  | zero => intro t _ _; rfl
  | succ fuel ih =>
    intro t hm h
    unfold whileF
    rw [if_pos hm]
    have : Holds (chanStep o t) (fun r => r.more = true ∧ At r.inp bs p) := by
      unfold chanStep
      refine (getb_full L.toLaws2.toLaws h hb).bind (fun r1 g1 => ?_)
      obtain ⟨v1, s1⟩ := r1; obtain ⟨rfl, g1⟩ := g1
      have g1' : At s1 bs bs.length := by rw [hlen]; exact g1
      refine (getb_back L g1').bind (fun r2 g2 => ?_)
      rw [show bs.length - 1 = p by omega] at g2
      refine (getb_full L.toLaws2.toLaws g2 hb).bind (fun r3 g3 => ?_)
      have g3' : At r3.2 bs bs.length := by rw [hlen]; exact g3.2
      refine (getb_back L g3').bind (fun r4 g4 => ?_)
      rw [show bs.length - 1 = p by omega] at g4
      obtain ⟨e1, e2⟩ := E g4 (by omega) (by omega)
      simp only []
      rw [e1, if_neg (by simp; omega)]
      exact Holds.pure ⟨by simpa using hc, e2⟩
    exact bind_err this (fun r hr => ih r hr.1 hr.2)

theorem load_hang (L : Laws3 o At true) (E : EofLaw o At) (junk : Nat → UInt8) (fuel : Nat) (cur : Loaded) {note ratio : List UInt8} {w h : Nat} {c : UInt8} (hn : note.length = 84) (hr : ratio.length = 8)
    (hw : 0 < w ∧ w < 65536) (hh : 0 < h ∧ h < 65536) (hc : c ≠ 0) {s : σ} (hA : At s (header note w h ratio ++ [c]) 0) : iLoadPicInternal o junk fuel cur s = .error .hang := by
  have hl := header_length (w := w) (h := h) hn hr
  unfold iLoadPicInternal
  refine bind_err (header_ok L.toLaws2 junk hA hn hr hw hh (next_drop (r := [c]) rfl)) (fun r hr' => ?_)
  obtain ⟨g, s0⟩ := r
  obtain ⟨h1, -, -, h4⟩ := hr'
  simp only at h1 h4 ⊢
  rw [if_neg (by rw [h1]; decide), list_hang L E hc (p := 104) (by rw [List.getElem?_append_right (by omega), hl]; rfl) (by rw [List.length_append, hl]; rfl) fuel _ rfl h4]
  rfl

end DevIL.Pic
