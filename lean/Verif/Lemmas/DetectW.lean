import Verif.Lemmas.DetectV
/-! What each `iIsValid…` says, continued. -/
set_option autoImplicit false
set_option linter.unusedSimpArgs false
namespace DevIL.Detect

open DevIL.Lump (SEEK_SET SEEK_CUR SEEK_END)
open DevIL.DetectSpec

variable {σ : Type} {o : Ops σ} {At : σ → List UInt8 → Nat → Prop}

theorem sub_at (bs : List UInt8) (n off k : Nat) (h : off + k ≤ n) : ((at_ bs 0 n).drop off).take k = at_ bs off k := by
  rw [at_drop, at_take _ _ _ _ (by omega), Nat.zero_add]

theorem bmp_spec (L : Laws o At) (junk : Nat → UInt8) (dec : Dec) {s : σ} {bs : List UInt8} (hs : At s bs 0) (hl : 54 ≤ bs.length) :
    Says At bs (iIsValidBmp o junk s) (Fmt.is dec .bmp bs) := by
  unfold iIsValidBmp
  refine (head_spec L junk bs _ s 0 hs (by decide)).bind (fun r hr => ?_)
  have hp : At r.2 bs 54 := hr.2.1 (by show 0 + 54 ≤ _; omega)
  have H := hr.2.2
  refine (L.seekCur _ hp).bind (fun t ht => ?_)
  have ht0 := ht.2 0 rfl (by omega)
  have h0 : fle r.1 0 = leAt bs 0 2 := congrArg le (H 0 _ rfl (by show 0 + 2 ≤ _; omega))
  have h4 : fle r.1 4 = leAt bs 14 4 := congrArg le (H 4 _ rfl (by show 14 + 4 ≤ _; omega))
  have h5 : fle r.1 5 = leAt bs 18 4 := congrArg le (H 5 _ rfl (by show 18 + 4 ≤ _; omega))
  have h6 : fle r.1 6 = leAt bs 22 4 := congrArg le (H 6 _ rfl (by show 22 + 4 ≤ _; omega))
  have h7 : fle r.1 7 = leAt bs 26 2 := congrArg le (H 7 _ rfl (by show 26 + 2 ≤ _; omega))
  have h8 : fle r.1 8 = leAt bs 28 2 := congrArg le (H 8 _ rfl (by show 28 + 2 ≤ _; omega))
  have h9 : fle r.1 9 = leAt bs 30 4 := congrArg le (H 9 _ rfl (by show 30 + 4 ≤ _; omega))
  have e0 : (leAt bs 0 2 == 0x4D42) = Fmt.sig .bmp bs := le_beq (by rw [at_length]; simp; omega) (by decide)
  have l5 := leAt_lt bs 18 4
  have l7 := leAt_lt bs 26 2
  -- the header of Windows
  have hwin : iCheckBmp r.1 = (Fmt.sig .bmp bs && (leAt bs 14 4 == 40 && leAt bs 22 4 != 0 && positive 32 (leAt bs 18 4)
      && !(positive 16 (leAt bs 26 2) && leAt bs 26 2 != 1)
      && decide (leAt bs 30 4 ≤ 3) && !(leAt bs 30 4 == 3 && leAt bs 28 2 != 16 && leAt bs 28 2 != 32)
      && [1, 4, 8, 16, 24, 32].contains (leAt bs 28 2))) := by
    unfold iCheckBmp
    rw [h0, h4, h5, h6, h7, h8, h9, bne, e0]
    unfold Lump.toInt positive
    generalize Fmt.sig .bmp bs = g
    generalize leAt bs 14 4 = a4
    generalize leAt bs 18 4 = a5 at *
    generalize leAt bs 22 4 = a6
    generalize leAt bs 26 2 = a7 at *
    generalize leAt bs 28 2 = a8
    generalize leAt bs 30 4 = a9
    clear h0 h4 h5 h6 h7 h8 h9 e0 H hr hp ht ht0 hs
    rw [Bool.eq_iff_iff]
    cases g with
    | false => simp
    | true =>
      simp
      omega
  -- the header of OS/2
  have hos : iCheckOS2 (at_ bs 0 26) = (Fmt.sig .bmp bs && (decide (26 ≤ leAt bs 10 4) && decide (12 ≤ leAt bs 14 4) && leAt bs 22 2 == 1
      && leAt bs 18 2 != 0 && leAt bs 20 2 != 0 && [1, 4, 8, 24].contains (leAt bs 24 2))) := by
    unfold iCheckOS2
    simp only []
    simp only [sub_at bs 26 0 2 (by decide), sub_at bs 26 10 4 (by decide), sub_at bs 26 14 4 (by decide), sub_at bs 26 22 2 (by decide),
      sub_at bs 26 18 2 (by decide), sub_at bs 26 20 2 (by decide), sub_at bs 26 24 2 (by decide)]
    change (if (leAt bs 0 2 != 0x4D42 || decide (leAt bs 10 4 < 26) || decide (leAt bs 14 4 < 12)) = true then false
      else if (leAt bs 22 2 != 1) = true then false
      else if (leAt bs 18 2 == 0 || leAt bs 20 2 == 0) = true then false
      else if (leAt bs 24 2 != 1 && leAt bs 24 2 != 4 && leAt bs 24 2 != 8 && leAt bs 24 2 != 24) = true then false else true) = _
    rw [bne, e0]
    generalize Fmt.sig .bmp bs = g
    generalize leAt bs 10 4 = a1
    generalize leAt bs 14 4 = a2
    generalize leAt bs 22 2 = a3
    generalize leAt bs 18 2 = a4
    generalize leAt bs 20 2 = a5
    generalize leAt bs 24 2 = a6
    rw [Bool.eq_iff_iff]
    cases g with
    | false => simp
    | true =>
      simp
      omega
  have hall : Fmt.is dec .bmp bs = (iCheckBmp r.1 || iCheckOS2 (at_ bs 0 26)) := by
    rw [hwin, hos]
    unfold Fmt.is Fmt.header
    cases Fmt.sig .bmp bs <;> simp
  rw [hall]
  simp only []
  cases hb : iCheckBmp r.1 with
  | true =>
    rw [if_pos rfl]
    exact Holds.pure ⟨by simp, ht.1⟩
  | false =>
    rw [if_neg (by decide)]
    refine (read_full L 26 1 ht0 (by decide) (by decide) (by omega)).bind (fun u hu => ?_)
    rw [if_neg (by rw [hu.2.1]; decide)]
    refine (L.seekCur _ hu.2.2).bind (fun v hv => ?_)
    obtain ⟨q, hq⟩ := hv.1
    refine (L.seekCur _ hq).bind (fun w hw => Holds.pure ⟨?_, hw.1⟩)
    show iCheckOS2 (u.1 ++ _) = _
    rw [hu.1, at_length, List.drop_of_length_le (by simp; omega), List.append_nil, Bool.false_or]

/-- Reading some bytes, perhaps past the end. -/
theorem read_any (L : Laws o At) {s : σ} {bs : List UInt8} {p : Nat} (number : Nat) (h : At s bs p)
    (hlt : number < 4294967296) : Holds (o.read s 1 number) (fun r => r.1 = at_ bs p number ∧ r.2.1 = (at_ bs p number).length ∧
      At r.2.2 bs (p + r.1.length)) := by
  refine (L.read 1 number h (by decide) (by omega)).mono (fun r hr => ?_)
  have h1 : r.1 = at_ bs p number := by rw [hr.1, Nat.one_mul]
  exact ⟨h1, by rw [hr.2.1, ← h1, Nat.div_one], hr.2.2⟩

theorem scitex_spec (L : Laws o At) (junk : Nat → UInt8) (dec : Dec) {s : σ} {bs : List UInt8} (hs : At s bs 0) (hl : 54 ≤ bs.length)
    (hn : Fmt.sig .scitex bs = true → Fmt.need .scitex ≤ bs.length) : Says At bs (iIsValidScitex o junk dec s) (Fmt.is dec .scitex bs) := by
  unfold iIsValidScitex
  refine (read_any L 80 hs (by decide)).bind (fun r1 hr1 => ?_)
  simp only []
  by_cases hg : Fmt.sig .scitex bs = true
  · have hn : 1080 ≤ bs.length := hn hg
    have len : ∀ p n, p + n ≤ 1080 → (at_ bs p n).length = n := fun p n h => by rw [at_length]; omega
    have a1 : At r1.2.2 bs 80 := by have := hr1.2.2; rw [hr1.1, len _ _ (by decide)] at this; exact this
    rw [if_neg (by rw [hr1.2.1, len _ _ (by decide)]; decide)]
    refine (read_any L 2 a1 (by decide)).bind (fun r2 hr2 => ?_)
    have a2 : At r2.2.2 bs 82 := by have := hr2.2.2; rw [hr2.1, len _ _ (by decide)] at this; exact this
    try simp only []
    rw [if_neg (by rw [hr2.2.1, len _ _ (by decide)]; decide)]
    refine (head_spec L junk bs _ _ _ a2 (by decide)).bind (fun u hu => ?_)
    have a3 : At u.2 bs 1028 := hu.2.1 (by show 82 + 946 ≤ _; omega)
    have h1 : fle u.1 1 = leAt bs 1024 1 := congrArg le (hu.2.2 1 _ rfl (by show 1024 + 1 ≤ _; omega))
    have h2 : fle u.1 2 = leAt bs 1025 1 := congrArg le (hu.2.2 2 _ rfl (by show 1025 + 1 ≤ _; omega))
    have h3 : fbe u.1 3 = beAt bs 1026 2 := congrArg be (hu.2.2 3 _ rfl (by show 1026 + 2 ≤ _; omega))
    refine (read_any L 14 a3 (by decide)).bind (fun r4 hr4 => ?_)
    have a4 : At r4.2.2 bs 1042 := by have := hr4.2.2; rw [hr4.1, len _ _ (by decide)] at this; exact this
    try simp only []
    rw [if_neg (by rw [hr4.2.1, len _ _ (by decide)]; decide)]
    refine (read_any L 14 a4 (by decide)).bind (fun r5 hr5 => ?_)
    have a5 : At r5.2.2 bs 1056 := by have := hr5.2.2; rw [hr5.1, len _ _ (by decide)] at this; exact this
    try simp only []
    rw [if_neg (by rw [hr5.2.1, len _ _ (by decide)]; decide)]
    refine (read_any L 12 a5 (by decide)).bind (fun r6 hr6 => ?_)
    have a6 : At r6.2.2 bs 1068 := by have := hr6.2.2; rw [hr6.1, len _ _ (by decide)] at this; exact this
    try simp only []
    rw [if_neg (by rw [hr6.2.1, len _ _ (by decide)]; decide)]
    refine (read_any L 12 a6 (by decide)).bind (fun r7 hr7 => ?_)
    try simp only []
    rw [if_neg (by rw [hr7.2.1, len _ _ (by decide)]; decide)]
    have hg' : at_ bs 80 2 = [0x43, 0x54] := by simpa [Fmt.sig, has] using hg
    rw [hr2.1, hr4.1, hr5.1, hr6.1, hr7.1, h1, h2, h3, hg']
    unfold Fmt.is Fmt.header
    rw [hg]
    simp only [Bool.true_and]
    have hq7 := hr7.2.2
    generalize dec.pos (at_ bs 1028 14) = d1
    generalize dec.pos (at_ bs 1042 14) = d2
    generalize dec.int (at_ bs 1056 12) = d3
    generalize dec.trunc (at_ bs 1068 12) = d4
    generalize leAt bs 1024 1 = x1
    generalize leAt bs 1025 1 = x2
    generalize beAt bs 1026 2 = x3
    by_cases c1 : (x3 == 7 && x2 != 3) = true
    · rw [if_pos c1]
      exact Holds.pure ⟨by clear hu; grind, _, hq7⟩
    rw [if_neg c1]
    by_cases c2 : (x3 == 8 && x2 != 1) = true
    · rw [if_pos c2]
      exact Holds.pure ⟨by clear hu; grind, _, hq7⟩
    rw [if_neg c2]
    refine (L.seekCur _ hq7).bind (fun t ht => ?_)
    rw [if_neg (by decide)]
    clear hu
    by_cases c3 : (x1 != 0 && x1 != 1) = true
    · rw [if_pos c3]
      exact Holds.pure ⟨by grind, ht.1⟩
    rw [if_neg c3]
    by_cases c4 : (x3 != 7 && x3 != 8) = true
    · rw [if_pos c4]
      exact Holds.pure ⟨by grind, ht.1⟩
    rw [if_neg c4]
    have k1 : decide (x1 ≤ 1) = true := by simp at c3 ⊢; omega
    have k2 : (x3 == 7 && x2 == 3 || x3 == 8 && x2 == 1) = true := by simp at c1 c2 c4 ⊢; omega
    rw [k1, k2]
    cases d1 <;> cases d2 <;> cases d3 <;> cases d4 <;> exact Holds.pure ⟨rfl, ht.1⟩
  · have hf : Fmt.is dec .scitex bs = false := by unfold Fmt.is; simp [hg]
    have hg' : at_ bs 80 2 ≠ [0x43, 0x54] := by simpa [Fmt.sig, has] using hg
    rw [hf]
    by_cases cr1 : r1.2.1 ≠ 80
    · rw [if_pos cr1]; exact Holds.pure ⟨rfl, _, hr1.2.2⟩
    rw [if_neg cr1]
    have hlen : (at_ bs 0 80).length = 80 := by have := hr1.2.1; omega
    have a1 : At r1.2.2 bs 80 := by have := hr1.2.2; rw [hr1.1, hlen] at this; exact this
    refine (read_any L 2 a1 (by decide)).bind (fun r2 hr2 => ?_)
    try simp only []
    by_cases cr2 : r2.2.1 ≠ 2
    · rw [if_pos cr2]; exact Holds.pure ⟨rfl, _, hr2.2.2⟩
    rw [if_neg cr2]
    refine (head_spec L junk bs _ _ _ hr2.2.2 (by decide)).bind (fun u hu => ?_)
    obtain ⟨q3, a3⟩ := hu.1
    refine (read_any L 14 a3 (by decide)).bind (fun r4 hr4 => ?_)
    try simp only []
    by_cases cr4 : r4.2.1 ≠ 14
    · rw [if_pos cr4]; exact Holds.pure ⟨rfl, _, hr4.2.2⟩
    rw [if_neg cr4]
    refine (read_any L 14 hr4.2.2 (by decide)).bind (fun r5 hr5 => ?_)
    try simp only []
    by_cases cr5 : r5.2.1 ≠ 14
    · rw [if_pos cr5]; exact Holds.pure ⟨rfl, _, hr5.2.2⟩
    rw [if_neg cr5]
    refine (read_any L 12 hr5.2.2 (by decide)).bind (fun r6 hr6 => ?_)
    try simp only []
    by_cases cr6 : r6.2.1 ≠ 12
    · rw [if_pos cr6]; exact Holds.pure ⟨rfl, _, hr6.2.2⟩
    rw [if_neg cr6]
    refine (read_any L 12 hr6.2.2 (by decide)).bind (fun r7 hr7 => ?_)
    try simp only []
    by_cases cr7 : r7.2.1 ≠ 12
    · rw [if_pos cr7]; exact Holds.pure ⟨rfl, _, hr7.2.2⟩
    rw [if_neg cr7]
    by_cases d7 : (fbe u.1 3 == 7 && fle u.1 2 != 3) = true
    · rw [if_pos d7]; exact Holds.pure ⟨rfl, _, hr7.2.2⟩
    rw [if_neg d7]
    by_cases d8 : (fbe u.1 3 == 8 && fle u.1 2 != 1) = true
    · rw [if_pos d8]; exact Holds.pure ⟨rfl, _, hr7.2.2⟩
    rw [if_neg d8]
    refine (L.seekCur _ hr7.2.2).bind (fun t ht => ?_)
    rw [if_pos (by rw [hr2.1]; simpa using hg')]
    exact Holds.pure ⟨rfl, ht.1⟩

theorem vtf_spec (L : Laws o At) (junk : Nat → UInt8) (dec : Dec) {s : σ} {bs : List UInt8} (hs : At s bs 0) (hl : 54 ≤ bs.length)
    (hn : Fmt.sig .vtf bs = true → Fmt.need .vtf ≤ bs.length) : Says At bs (iIsValidVtf o junk s) (Fmt.is dec .vtf bs) := by
  unfold iIsValidVtf
  refine (head_spec L junk bs _ s 0 hs (by decide)).bind (fun r hr => ?_)
  have H := hr.2.2
  obtain ⟨q, hq⟩ := hr.1
  have hmid : Holds (if (fle r.1 3 == 64) = true then do
        let (_, s) ← head o junk [.getc] r.2
        pure (true, s)
      else do
        let (_, s) ← head o junk [u16] r.2
        o.seek s (Lump.toInt (Lump.ofInt ((fle r.1 3 : Int) - 65))) SEEK_CUR : C (Bool × σ)) (fun t => ∃ q, At t.2 bs q) := by
    split
    · refine (head_spec L junk bs _ _ _ hq (by decide)).bind (fun u hu => Holds.pure hu.1)
    · refine (head_spec L junk bs _ _ _ hq (by decide)).bind (fun u hu => ?_)
      obtain ⟨q', hq'⟩ := hu.1
      exact (L.seekCur _ hq').mono (fun _ h => h.1)
  refine hmid.bind (fun t ht => ?_)
  obtain ⟨q', hq'⟩ := ht
  refine (L.seekCur _ hq').bind (fun v hv => ?_)
  have h0 : fld r.1 0 = at_ bs 0 4 := H 0 _ rfl (by show 0 + 4 ≤ _; omega)
  have e0 : (at_ bs 0 4 == [0x56, 0x54, 0x46, 0x00]) = Fmt.sig .vtf bs := rfl
  have hc : Holds (iCheckVtf r.1) (fun b => b = Fmt.is dec .vtf bs) := by
    unfold iCheckVtf
    rw [h0, bne, e0]
    unfold Fmt.is
    cases hg : Fmt.sig .vtf bs with
    | false => exact Holds.pure rfl
    | true =>
      have hn : 63 ≤ bs.length := hn hg
      rw [if_neg (by decide), Bool.true_and]
      have h1 : fle r.1 1 = leAt bs 4 4 := congrArg le (H 1 _ rfl (by show 4 + 4 ≤ _; omega))
      have h2 : fle r.1 2 = leAt bs 8 4 := congrArg le (H 2 _ rfl (by show 8 + 4 ≤ _; omega))
      have h3 : fle r.1 3 = leAt bs 12 4 := congrArg le (H 3 _ rfl (by show 12 + 4 ≤ _; omega))
      have h4 : fle r.1 4 = leAt bs 16 2 := congrArg le (H 4 _ rfl (by show 16 + 2 ≤ _; omega))
      have h5 : fle r.1 5 = leAt bs 18 2 := congrArg le (H 5 _ rfl (by show 18 + 2 ≤ _; omega))
      have h17 : fle r.1 17 = leAt bs 57 4 := congrArg le (H 17 _ rfl (by show 57 + 4 ≤ _; omega))
      have h18 : fle r.1 18 = leAt bs 61 1 := congrArg le (H 18 _ rfl (by show 61 + 1 ≤ _; omega))
      have h19 : fle r.1 19 = leAt bs 62 1 := congrArg le (H 19 _ rfl (by show 62 + 1 ≤ _; omega))
      rw [h1, h2, h3, h4, h5, h17, h18, h19]
      have l4 := leAt_lt bs 16 2
      have l5 := leAt_lt bs 18 2
      have l18 := leAt_lt bs 61 1
      have l19 := leAt_lt bs 62 1
      clear h0 h1 h2 h3 h4 h5 h17 h18 h19 H hr hmid hv hq' hq e0
      simp only [Fmt.header]
      generalize leAt bs 4 4 = a1
      generalize leAt bs 8 4 = a2
      generalize leAt bs 12 4 = a3
      generalize leAt bs 16 2 = a4 at *
      generalize leAt bs 18 2 = a5 at *
      generalize leAt bs 57 4 = a17 at *
      generalize leAt bs 61 1 = a18 at *
      generalize leAt bs 62 1 = a19 at *
      have c3 : [64, 80, 96, 104].contains a3 = (a3 == 64 || a3 == 80 || a3 == 96 || a3 == 104) := by
        rw [Bool.eq_iff_iff]; simp [or_assoc]
      rw [c3]
      by_cases c : (a1 != 7) = true
      · rw [if_pos c]; exact Holds.pure (by grind)
      rw [if_neg c]
      have k1 : (a1 == 7) = true := by simpa using c
      rw [k1, Bool.true_and]
      clear c k1
      by_cases c : decide (a2 > 4) = true
      · rw [if_pos c]; exact Holds.pure (by grind)
      rw [if_neg c]
      have k1 : decide (a2 ≤ 4) = true := by simpa using c
      rw [k1, Bool.true_and]
      clear c k1
      by_cases c : (a3 != 80 && a3 != 96 && a3 != 104 && a3 != 64) = true
      · rw [if_pos c]; exact Holds.pure (by grind)
      rw [if_neg c]
      have k1 : (a3 == 64 || a3 == 80 || a3 == 96 || a3 == 104) = true := by grind
      rw [k1, Bool.true_and]
      clear c k1
      by_cases c : (a4 == 0 || a5 == 0) = true
      · rw [if_pos c]; exact Holds.pure (by grind)
      rw [if_neg c]
      have k1 : (a4 != 0) = true := by grind
      have k2 : (a5 != 0) = true := by grind
      rw [k1, k2, Bool.true_and, Bool.true_and]
      clear c k1 k2
      refine (nextPower2_spec a4 (by omega)).bind (fun p4 hp4 => ?_)
      refine (nextPower2_spec a5 (by omega)).bind (fun p5 hp5 => ?_)
      rw [← hp4, ← hp5]
      by_cases c : (p4 != a4 || p5 != a5) = true
      · rw [if_pos c]; exact Holds.pure (by grind)
      rw [if_neg c]
      have k1 : (p4 == a4) = true := by grind
      have k2 : (p5 == a5) = true := by grind
      rw [k1, k2, Bool.true_and, Bool.true_and]
      clear c k1 k2 hp4 hp5
      refine (nextPower2_spec a18 (by omega)).bind (fun p18 hp18 => ?_)
      refine (nextPower2_spec a19 (by omega)).bind (fun p19 hp19 => ?_)
      rw [← hp18, ← hp19]
      clear hp18 hp19
      by_cases c : ((a18 != 0 && a19 != 0) && (p18 != a18 || p19 != a19)) = true
      · rw [if_pos c]; exact Holds.pure (by grind)
      rw [if_neg c]
      have k1 : (a18 == 0 || a19 == 0 || (p18 == a18 && p19 == a19)) = true := by grind
      rw [k1, Bool.true_and]
      clear c k1
      by_cases c : (decide (a18 > 16) || decide (a19 > 16)) = true
      · rw [if_pos c]; exact Holds.pure (by grind)
      rw [if_neg c]
      have k1 : decide (a18 ≤ 16) = true := by grind
      have k2 : decide (a19 ≤ 16) = true := by grind
      rw [k1, k2, Bool.true_and, Bool.true_and]
      clear c k1 k2
      by_cases c : (decide (a18 > a4) || decide (a19 > a5)) = true
      · rw [if_pos c]; exact Holds.pure (by grind)
      rw [if_neg c]
      have k1 : decide (a18 ≤ a4) = true := by grind
      have k2 : decide (a19 ≤ a5) = true := by grind
      rw [k1, k2, Bool.true_and, Bool.true_and]
      clear c k1 k2
      split
      · exact Holds.pure (by grind)
      · exact Holds.pure (by grind)
  exact hc.bind (fun b hb => Holds.pure ⟨hb, hv.1⟩)

theorem xpmLoop_spec (L : Laws o At) {bs : List UInt8} (target : List UInt8) :
    ∀ (acc : List UInt8) (s : σ) (p : Nat), (∀ c ∈ target, c ≠ 10 ∧ c ≠ 13) → At s bs p → p + 2 * target.length + 1 ≤ bs.length →
    Holds (xpmLoop o target.length acc s) (fun r => (∃ q, At r.2 bs q) ∧
      ∃ t, r.1 = acc ++ t ∧ t.length ≤ target.length ∧ (t = target ↔ crText target (bs.drop p) = true)) := by
  induction target with
  | nil =>
    intro acc s p _ h hl
    refine (L.getc h).bind (fun r hr => Holds.pure ⟨hr.1, [], by simp, by simp, ?_⟩)
    simp [crText]
  | cons c cs ih =>
    intro acc s p hc h hl
    have hcs : ∀ c ∈ cs, c ≠ 10 ∧ c ≠ 13 := fun x hx => hc x (List.mem_cons_of_mem _ hx)
    have hc0 := hc c List.mem_cons_self
    simp only [List.length_cons] at hl ⊢
    refine (L.getc h).bind (fun r hr => ?_)
    have hp : p < bs.length := by omega
    obtain ⟨hb, ha⟩ := hr.2 hp
    rw [List.getElem?_eq_getElem hp] at hb
    rw [List.drop_eq_getElem_cons hp]
    simp only [hb]
    -- a character is stored
    have step : ∀ (d : UInt8) (s' : σ) (p' : Nat), d = c ∨ d ≠ c → At s' bs p' → p' ≤ p + 2 →
        Holds (xpmLoop o cs.length (acc ++ [d]) s') (fun r => (∃ q, At r.2 bs q) ∧
          ∃ t, r.1 = acc ++ t ∧ t.length ≤ cs.length + 1 ∧ (t = c :: cs ↔ (d == c && crText cs (bs.drop p')) = true)) := by
      intro d s' p' _ h' hp'
      refine (ih (acc ++ [d]) s' p' hcs h' (by omega)).mono (fun r hr => ?_)
      obtain ⟨hq, t, e, ht, hiff⟩ := hr
      refine ⟨hq, d :: t, by rw [e]; simp, by simp; omega, ?_⟩
      rw [List.cons.injEq, hiff]
      simp
    by_cases h10 : bs[p] = 10
    · rw [if_pos h10]
      refine Holds.pure ⟨hr.1, [], by simp, by simp, ?_⟩
      rw [h10]
      unfold crText
      rw [if_neg (by decide)]
      have : ¬((10 : UInt8) = c) := fun e => hc0.1 e.symm
      simp [this]
    rw [if_neg h10]
    by_cases h13 : bs[p] = 13
    · rw [if_pos h13]
      refine (L.getc ha).bind (fun r2 hr2 => ?_)
      have hp1 : p + 1 < bs.length := by omega
      obtain ⟨hb2, ha2⟩ := hr2.2 hp1
      rw [List.getElem?_eq_getElem hp1] at hb2
      simp only [hb2]
      rw [h13, List.drop_eq_getElem_cons hp1]
      unfold crText
      rw [if_pos rfl]
      by_cases h10' : bs[p + 1] = 10
      · rw [if_pos h10', h10']
        have : ¬((10 : UInt8) = c) := fun e => hc0.1 e.symm
        exact Holds.pure ⟨hr2.1, [], by simp, by simp, by simp [this]⟩
      · rw [if_neg h10']
        exact step _ _ _ (em _) ha2 (by omega)
    · rw [if_neg h13]
      have e : crText (c :: cs) (bs[p] :: bs.drop (p + 1)) = (bs[p] == c && crText cs (bs.drop (p + 1))) := by
        conv => lhs; unfold crText
        rw [if_neg h13]
      rw [e]
      exact step _ _ _ (em _) ha (by omega)

theorem xpm_spec (L : Laws o At) (junk : Nat → UInt8) (dec : Dec) {s : σ} {bs : List UInt8} (hs : At s bs 0) (hl : 54 ≤ bs.length) :
    Says At bs (iIsValidXpm o junk s) (Fmt.is dec .xpm bs) := by
  unfold iIsValidXpm
  obtain ⟨he, hs'⟩ := L.eof hs (by omega)
  simp only [L.tell hs, he]
  rw [if_neg (by decide)]
  have hloop := xpmLoop_spec L (bs := bs) [0x2F, 0x2A, 0x20, 0x58, 0x50, 0x4D, 0x20, 0x2A, 0x2F] [] _ 0 (by decide) hs' (by simp; omega)
  have hbuf : Holds (do
      let (t, s) ← xpmLoop o 9 [] (o.eof s).2
      pure (t ++ [0] ++ (alloc junk 10).drop (t.length + 1), s) : C (List UInt8 × σ)) (fun r => (∃ q, At r.2 bs q) ∧
        (r.1.take 9 == [0x2F, 0x2A, 0x20, 0x58, 0x50, 0x4D, 0x20, 0x2A, 0x2F]) = Fmt.is dec .xpm bs) := by
    refine hloop.bind (fun r hr => Holds.pure ⟨hr.1, ?_⟩)
    obtain ⟨t, e, ht, hiff⟩ := hr.2
    rw [List.nil_append] at e
    have htl : t.length ≤ 9 := ht
    rw [Bool.eq_iff_iff]
    have e2 : Fmt.is dec .xpm bs = crText [0x2F, 0x2A, 0x20, 0x58, 0x50, 0x4D, 0x20, 0x2A, 0x2F] (bs.drop 0) := by
      simp [Fmt.is, Fmt.sig, Fmt.header]
    rw [e2, ← hiff, beq_iff_eq]
    show (r.1 ++ [0] ++ _).take 9 = _ ↔ _
    rw [e]
    constructor
    · intro h
      by_cases h9 : t.length = 9
      · rw [List.append_assoc, List.take_append_of_le_length (by omega), List.take_of_length_le (by omega)] at h
        exact h
      · exfalso
        have hz : ((t ++ [0] ++ (alloc junk 10).drop (t.length + 1)).take 9)[t.length]? = some 0 := by
          rw [List.getElem?_take, if_pos (by omega), List.append_assoc, List.getElem?_append_right (by omega)]
          simp
        rw [h] at hz
        have : (0 : UInt8) ∈ [0x2F, 0x2A, 0x20, 0x58, 0x50, 0x4D, 0x20, 0x2A, (0x2F : UInt8)] := List.mem_of_getElem? hz
        revert this
        decide
    · intro h
      rw [h]
      rfl
  refine hbuf.bind (fun r hr => ?_)
  obtain ⟨q, hq⟩ := hr.1
  exact (L.seekSet hq).bind (fun t ht => Holds.pure ⟨hr.2, ht⟩)

/-- What the test of a format says. -/
theorem validator_spec (L : Laws o At) (junk : Nat → UInt8) (dec : Dec) {s : σ} {bs : List UInt8} (f : Fmt) (hs : At s bs 0)
    (hl : 54 ≤ bs.length) (hn : f.sig bs = true → f.need ≤ bs.length) :
    Says At bs (validator o junk dec f.code s) (f.is dec bs) := by
  cases f
  · exact jpg_spec L junk dec hs hl
  · exact dds_spec L junk dec hs hl hn
  · exact png_spec L junk dec hs hl
  · exact bmp_spec L junk dec hs hl
  · exact blp_spec L junk dec hs hl
  · exact exr_spec L junk dec hs hl
  · exact gif_spec L dec hs hl
  · exact hdr_spec L dec hs hl
  · exact icns_spec L junk dec hs hl
  · exact ilbm_spec L dec hs hl
  · exact iwi_spec L junk dec hs hl
  · exact jp2_spec L dec hs hl
  · exact lif_spec L junk dec hs hl
  · exact mdl_spec L junk dec hs hl
  · exact mp3_spec L junk dec hs hl
  · exact pcx_spec L junk dec hs hl hn
  · exact pic_spec L junk dec hs hl hn
  · exact pnm_spec L dec hs hl
  · exact psd_spec L junk dec hs hl
  · exact psp_spec L junk dec hs hl
  · exact sgi_spec L junk dec hs hl
  · exact scitex_spec L junk dec hs hl hn
  · exact sun_spec L junk dec hs hl
  · exact tif_spec L junk dec hs hl
  · exact tpl_spec L junk dec hs hl
  · exact vtf_spec L junk dec hs hl hn
  · exact xpm_spec L junk dec hs hl
  · exact tga_spec L junk dec hs hl

end DevIL.Detect
