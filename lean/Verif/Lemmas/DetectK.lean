import Verif.Lemmas.DetectW
/-! No test of a format gets stuck, whatever the bytes and however few. -/
set_option autoImplicit false
namespace DevIL.Detect

open DevIL.Lump (SEEK_SET SEEK_CUR SEEK_END)
open DevIL.DetectSpec

variable {σ : Type} {o : Ops σ} {At : σ → List UInt8 → Nat → Prop}

/-- A test ends, with the input intact. -/
def Ends (At : σ → List UInt8 → Nat → Prop) (bs : List UInt8) {α : Type} (c : C (α × σ)) : Prop := Holds c (fun r => ∃ q, At r.2 bs q)

theorem Ends.pure {s : σ} {bs : List UInt8} {q : Nat} {α : Type} (b : α) (h : At s bs q) : Ends At bs (Pure.pure (b, s) : C (α × σ)) :=
  Holds.pure ⟨q, h⟩

theorem ends_read (L : Laws o At) {s : σ} {bs : List UInt8} {q : Nat} (size number : Nat) (h : At s bs q) (hs : 0 < size)
    (hlt : size * number < 4294967296) {α : Type} {k : List UInt8 × Nat × σ → C (α × σ)}
    (hk : ∀ r p, At r.2.2 bs p → Ends At bs (k r)) : Ends At bs (o.read s size number >>= k) :=
  (L.read size number h hs hlt).bind (fun r hr => hk r _ hr.2.2)

theorem ends_seek (L : Laws o At) {s : σ} {bs : List UInt8} {q : Nat} (off : Int) (h : At s bs q) {α : Type} {k : Bool × σ → C (α × σ)}
    (hk : ∀ r p, At r.2 bs p → Ends At bs (k r)) : Ends At bs (o.seek s off SEEK_CUR >>= k) :=
  (L.seekCur off h).bind (fun r hr => hk r _ hr.1.choose_spec)

theorem ends_head (L : Laws o At) (junk : Nat → UInt8) {s : σ} {bs : List UInt8} {q : Nat} (fs : List Fld) (h : At s bs q) (hok : ∀ f ∈ fs, f.Ok)
    {α : Type} {k : List (List UInt8) × σ → C (α × σ)} (hk : ∀ r p, At r.2 bs p → Ends At bs (k r)) :
    Ends At bs (head o junk fs s >>= k) :=
  (head_spec L junk bs fs s q h hok).bind (fun r hr => hk r _ hr.1.choose_spec)

/-- The fields have no more bytes than they should. -/
theorem head_width (L : Laws o At) (junk : Nat → UInt8) (all : List UInt8) (fs : List Fld) :
    ∀ (s : σ) (p : Nat), At s all p → (∀ f ∈ fs, f.Ok) →
    Holds (head o junk fs s) (fun r => (∃ q, At r.2 all q) ∧ ∀ i f, fs[i]? = some f → (fld r.1 i).length ≤ f.width) := by
  induction fs with
  | nil =>
    intro s p h _
    exact Holds.pure ⟨⟨p, h⟩, by simp⟩
  | cons f fs ih =>
    intro s p h hok
    have hok' : ∀ g ∈ fs, g.Ok := fun g hg => hok g (List.mem_cons_of_mem _ hg)
    have hf := hok f List.mem_cons_self
    have key : ∀ (s' : σ) (b : List UInt8), (∃ q, At s' all q) → b.length ≤ f.width →
        Holds (head o junk fs s' >>= fun r => pure (b :: r.1, r.2) : C (List (List UInt8) × σ))
          (fun r => (∃ q, At r.2 all q) ∧ ∀ i g, (f :: fs)[i]? = some g → (fld r.1 i).length ≤ g.width) := by
      intro s' b hq hb
      obtain ⟨q, hq⟩ := hq
      refine (ih s' q hq hok').bind (fun r hr => Holds.pure ⟨hr.1, fun i g hi => ?_⟩)
      cases i with
      | zero =>
        simp only [List.getElem?_cons_zero, Option.some.injEq] at hi
        rw [← hi]
        exact hb
      | succ i => exact hr.2 i g hi
    cases f with
    | rd size number =>
      refine (L.read size number h hf.1 hf.2).bind (fun r hr => ?_)
      refine key r.2.2 _ ⟨_, hr.2.2⟩ ?_
      show _ ≤ size * number
      have : r.1.length ≤ size * number := by rw [hr.1, at_length]; omega
      simp
      omega
    | getc =>
      refine (L.getc h).bind (fun r hr => ?_)
      exact key r.2 _ hr.1 (by show 1 ≤ 1; omega)
    | skip n =>
      refine (L.seekCur _ h).bind (fun r hr => ?_)
      exact key r.2 _ hr.1 (Nat.zero_le _)

theorem fle_lt {h : List (List UInt8)} {i n : Nat} (hn : (fld h i).length ≤ n) : fle h i < 256 ^ n :=
  Nat.lt_of_lt_of_le (le_lt _) (Nat.pow_le_pow_right (by decide) hn)

theorem power2_ends (n : Nat) (h : n < 65536) : ∃ p, Utility.ilNextPower2 40 n = .ok p := by
  obtain ⟨p, e, _⟩ := nextPower2_spec n (by omega)
  exact ⟨p, e⟩

theorem iwi_total {h : List (List UInt8)} (h3 : fle h 3 < 65536) (h4 : fle h 4 < 65536) : ∃ b, iCheckIwi h = .ok b := by
  unfold iCheckIwi
  obtain ⟨p, hp⟩ := power2_ends _ h3
  obtain ⟨q, hq⟩ := power2_ends _ h4
  simp only [hp, hq, bind_ok]
  repeat' split
  all_goals exact ⟨_, rfl⟩

theorem vtf_total {h : List (List UInt8)} (h4 : fle h 4 < 65536) (h5 : fle h 5 < 65536) (h18 : fle h 18 < 65536) (h19 : fle h 19 < 65536) :
    ∃ b, iCheckVtf h = .ok b := by
  unfold iCheckVtf
  obtain ⟨p, hp⟩ := power2_ends _ h4
  obtain ⟨q, hq⟩ := power2_ends _ h5
  obtain ⟨p', hp'⟩ := power2_ends _ h18
  obtain ⟨q', hq'⟩ := power2_ends _ h19
  simp only [hp, hq, hp', hq', bind_ok]
  repeat' split
  all_goals exact ⟨_, rfl⟩

theorem headed_ends (L : Laws o At) (junk : Nat → UInt8) (fs : List Fld) (back : Nat) (check : List (List UInt8) → Bool) {s : σ}
    {bs : List UInt8} {p : Nat} (hs : At s bs p) (hok : ∀ f ∈ fs, f.Ok) : Ends At bs (headed o junk fs back (fun h => pure (check h)) s) :=
  ends_head L junk fs hs hok (fun _ _ h => ends_seek L _ h (fun _ _ h => Ends.pure _ h))

theorem xpmLoop_ends (L : Laws o At) {bs : List UInt8} (n : Nat) : ∀ (acc : List UInt8) (s : σ) (p : Nat), At s bs p →
    Ends At bs (xpmLoop o n acc s) := by
  induction n with
  | zero => intro acc s p h; exact (L.getc h).bind (fun r hr => Holds.pure hr.1)
  | succ n ih =>
    intro acc s p h
    refine (L.getc h).bind (fun ⟨b, s⟩ hr => ?_)
    obtain ⟨q, hq⟩ := hr.1
    cases b with
    | none => exact Holds.pure hr.1
    | some c =>
      simp only []
      by_cases h10 : c = 10
      · rw [if_pos h10]; exact Holds.pure hr.1
      rw [if_neg h10]
      by_cases h13 : c = 13
      · rw [if_pos h13]
        refine (L.getc hq).bind (fun ⟨b2, s2⟩ hr2 => ?_)
        obtain ⟨q2, hq2⟩ := hr2.1
        cases b2 with
        | none => exact Holds.pure hr2.1
        | some d =>
          simp only []
          by_cases h10' : d = 10
          · rw [if_pos h10']; exact Holds.pure hr2.1
          rw [if_neg h10']
          exact ih _ _ _ hq2
      · rw [if_neg h13]
        exact ih _ _ _ hq

theorem Ends.alt {α : Type} {bs : List UInt8} {s : σ} {p : Prop} [Decidable p] {a b : σ → C (α × σ)} (ha : Ends At bs (a s))
    (hb : Ends At bs (b s)) : Ends At bs ((if p then a else b) s) := by
  split
  · exact ha
  · exact hb

theorem validator_ends (L : Laws o At) (he : ∀ {s all}, At s all 0 → ∃ q, At (o.eof s).2 all q) (junk : Nat → UInt8) (dec : Dec) {s : σ}
    {bs : List UInt8} (t : Nat) (hs : At s bs 0) : Ends At bs (validator o junk dec t s) := by
  unfold validator
  refine Ends.alt ?_ ?_
  · exact headed_ends L junk _ _ _ hs (by decide)
  refine Ends.alt ?_ ?_
  · exact headed_ends L junk _ _ _ hs (by decide)
  refine Ends.alt ?_ ?_
  · exact ends_read L 1 8 hs (by decide) (by decide) (fun _ _ h => ends_seek L _ h (fun _ _ h => Ends.pure _ h))
  refine Ends.alt ?_ ?_
  · refine ends_head L junk _ hs (by decide) (fun _ _ h => ends_seek L _ h (fun t _ h => ?_))
    simp only []
    split
    · exact Ends.pure _ h
    · refine ends_read L 26 1 h (by decide) (by decide) (fun u _ h => ?_)
      have : Ends At bs (if u.2.1 ≠ 1 then pure (false, u.2.2) else o.seek u.2.2 (Lump.toInt (le (((u.1 ++ (alloc junk 26).drop u.1.length).drop 14).take 4)) - 12) SEEK_CUR) := by
        split
        · exact Ends.pure _ h
        · exact (L.seekCur _ h).mono (fun _ h => h.1)
      refine this.bind (fun v hv => ?_)
      obtain ⟨q, hq⟩ := hv
      exact ends_seek L _ hq (fun _ _ h => Ends.pure _ h)
  refine Ends.alt ?_ ?_
  · exact headed_ends L junk _ _ _ hs (by decide)
  refine Ends.alt ?_ ?_
  · exact headed_ends L junk _ _ _ hs (by decide)
  refine Ends.alt ?_ ?_
  · refine ends_read L 1 6 hs (by decide) (by decide) (fun r _ h => ?_)
    simp only []
    split
    · exact Ends.pure _ h
    · refine ends_seek L _ h (fun _ _ h => ?_)
      split
      · exact Ends.pure _ h
      · split <;> exact Ends.pure _ h
  refine Ends.alt ?_ ?_
  · refine ends_read L 1 10 hs (by decide) (by decide) (fun r _ h => ends_seek L _ h (fun _ _ h => ?_))
    simp only []
    split <;> exact Ends.pure _ h
  refine Ends.alt ?_ ?_
  · exact headed_ends L junk _ _ _ hs (by decide)
  refine Ends.alt ?_ ?_
  · unfold iIsValidIlbm
    rw [L.tell hs]
    refine ends_read L 12 1 hs (by decide) (by decide) (fun r _ h => ?_)
    exact (L.seekSet h).bind (fun t ht => Holds.pure ht)
  refine Ends.alt ?_ ?_
  · unfold iIsValidIwi
    refine (head_width L junk bs _ s 0 hs (by decide)).bind (fun r hr => ?_)
    obtain ⟨q, hq⟩ := hr.1
    obtain ⟨b, hb⟩ := iwi_total (fle_lt (hr.2 3 _ rfl)) (fle_lt (hr.2 4 _ rfl))
    refine ends_seek L _ hq (fun _ _ h => ?_)
    simp only [hb, bind_ok]
    exact Ends.pure _ h
  refine Ends.alt ?_ ?_
  · unfold iIsValidJp2
    refine ends_seek L _ hs (fun _ _ h => ends_read L 1 4 h (by decide) (by decide) (fun r _ h => ?_))
    simp only []
    split
    · exact ends_seek L _ h (fun _ _ h => Ends.pure _ h)
    · refine ends_seek L _ h (fun _ _ h => ?_)
      split <;> exact Ends.pure _ h
  refine Ends.alt ?_ ?_
  · exact Ends.pure _ hs
  refine Ends.alt ?_ ?_
  · exact headed_ends L junk _ _ _ hs (by decide)
  refine Ends.alt ?_ ?_
  · exact headed_ends L junk _ _ _ hs (by decide)
  refine Ends.alt ?_ ?_
  · unfold iIsValidMp3
    refine ends_read L 3 1 hs (by decide) (by decide) (fun r _ h => ?_)
    simp only []
    split
    · exact Ends.pure _ h
    · refine ends_head L junk _ h (by decide) (fun _ _ h => ends_seek L _ h (fun _ _ h => ?_))
      repeat' split
      all_goals exact Ends.pure _ h
  refine Ends.alt ?_ ?_
  · exact headed_ends L junk _ _ _ hs (by decide)
  refine Ends.alt ?_ ?_
  · exact headed_ends L junk _ _ _ hs (by decide)
  refine Ends.alt ?_ ?_
  · refine ends_read L 1 2 hs (by decide) (by decide) (fun r _ h => ends_seek L _ h (fun _ _ h => ?_))
    simp only []
    repeat' split
    all_goals exact Ends.pure _ h
  refine Ends.alt ?_ ?_
  · exact headed_ends L junk _ _ _ hs (by decide)
  refine Ends.alt ?_ ?_
  · unfold iIsValidPsp
    refine ends_read L 1 32 hs (by decide) (by decide) (fun r _ h => ?_)
    simp only []
    split
    · exact Ends.pure _ h
    · refine ends_head L junk _ h (by decide) (fun _ _ h => ends_seek L _ h (fun _ _ h => ?_))
      repeat' split
      all_goals exact Ends.pure _ h
  refine Ends.alt ?_ ?_
  · exact headed_ends L junk _ _ _ hs (by decide)
  refine Ends.alt ?_ ?_
  · unfold iIsValidScitex
    refine ends_read L 1 80 hs (by decide) (by decide) (fun r1 _ h => ?_)
    simp only []
    by_cases c1 : r1.2.1 ≠ 80
    · rw [if_pos c1]; exact Ends.pure _ h
    rw [if_neg c1]
    refine ends_read L 1 2 h (by decide) (by decide) (fun r2 _ h => ?_)
    by_cases c2 : r2.2.1 ≠ 2
    · rw [if_pos c2]; exact Ends.pure _ h
    rw [if_neg c2]
    refine ends_head L junk _ h (by decide) (fun u _ h => ends_read L 1 14 h (by decide) (by decide) (fun r3 _ h => ?_))
    by_cases c3 : r3.2.1 ≠ 14
    · rw [if_pos c3]; exact Ends.pure _ h
    rw [if_neg c3]
    refine ends_read L 1 14 h (by decide) (by decide) (fun r4 _ h => ?_)
    by_cases c4 : r4.2.1 ≠ 14
    · rw [if_pos c4]; exact Ends.pure _ h
    rw [if_neg c4]
    refine ends_read L 1 12 h (by decide) (by decide) (fun r5 _ h => ?_)
    by_cases c5 : r5.2.1 ≠ 12
    · rw [if_pos c5]; exact Ends.pure _ h
    rw [if_neg c5]
    refine ends_read L 1 12 h (by decide) (by decide) (fun r6 _ h => ?_)
    by_cases c6 : r6.2.1 ≠ 12
    · rw [if_pos c6]; exact Ends.pure _ h
    rw [if_neg c6]
    by_cases c7 : (fbe u.1 3 == 7 && fle u.1 2 != 3) = true
    · rw [if_pos c7]; exact Ends.pure _ h
    rw [if_neg c7]
    by_cases c8 : (fbe u.1 3 == 8 && fle u.1 2 != 1) = true
    · rw [if_pos c8]; exact Ends.pure _ h
    rw [if_neg c8]
    refine ends_seek L _ h (fun t _ h => ?_)
    by_cases c9 : (r2.1 != [0x43, 0x54]) = true
    · rw [if_pos c9]; exact Ends.pure _ h
    rw [if_neg c9]
    by_cases c10 : (fle u.1 1 != 0 && fle u.1 1 != 1) = true
    · rw [if_pos c10]; exact Ends.pure _ h
    rw [if_neg c10]
    by_cases c11 : (fbe u.1 3 != 7 && fbe u.1 3 != 8) = true
    · rw [if_pos c11]; exact Ends.pure _ h
    rw [if_neg c11]
    by_cases c12 : (!dec.pos r3.1 || !dec.pos r4.1) = true
    · rw [if_pos c12]; exact Ends.pure _ h
    rw [if_neg c12]
    by_cases c13 : (!dec.int r5.1 || !dec.trunc r6.1) = true
    · rw [if_pos c13]; exact Ends.pure _ h
    rw [if_neg c13]
    exact Ends.pure _ h
  refine Ends.alt ?_ ?_
  · exact headed_ends L junk _ _ _ hs (by decide)
  refine Ends.alt ?_ ?_
  · unfold ilisValidTiffFunc
    refine ends_head L junk _ hs (by decide) (fun r _ h => ?_)
    simp only []
    split
    · exact Ends.pure _ h
    · refine ends_head L junk _ h (by decide) (fun u _ h => ?_)
      by_cases c : ((if (fle r.1 0 == 0x4949) = true then fle u.1 0 else fbe u.1 0) != 42) = true
      · show Ends At bs (if _ then _ else _)
        rw [if_pos c]; exact Ends.pure _ h
      · show Ends At bs (if _ then _ else _)
        rw [if_neg c]; exact Ends.pure _ h
  refine Ends.alt ?_ ?_
  · exact headed_ends L junk _ _ _ hs (by decide)
  refine Ends.alt ?_ ?_
  · unfold iIsValidVtf
    refine (head_width L junk bs _ s 0 hs (by decide)).bind (fun r hr => ?_)
    obtain ⟨q, hq⟩ := hr.1
    have lt1 : ∀ i, (fld r.1 i).length ≤ 1 → fle r.1 i < 65536 := fun i h => by have := fle_lt h; omega
    obtain ⟨b, hb⟩ := vtf_total (fle_lt (hr.2 4 _ rfl)) (fle_lt (hr.2 5 _ rfl)) (lt1 18 (hr.2 18 _ rfl)) (lt1 19 (hr.2 19 _ rfl))
    have hmid : Ends At bs (if (fle r.1 3 == 64) = true then do
          let (_, s) ← head o junk [.getc] r.2
          pure (true, s)
        else do
          let (_, s) ← head o junk [u16] r.2
          o.seek s (Lump.toInt (Lump.ofInt ((fle r.1 3 : Int) - 65))) SEEK_CUR : C (Bool × σ)) := by
      split
      · exact ends_head L junk _ hq (by decide) (fun u _ h => Ends.pure _ h)
      · exact ends_head L junk _ hq (by decide) (fun u _ h => (L.seekCur _ h).mono (fun _ h => h.1))
    refine hmid.bind (fun t ht => ?_)
    obtain ⟨q', hq'⟩ := ht
    refine ends_seek L _ hq' (fun _ _ h => ?_)
    simp only [hb, bind_ok]
    exact Ends.pure _ h
  refine Ends.alt ?_ ?_
  · unfold iIsValidXpm
    obtain ⟨q, hq⟩ := he hs
    simp only [L.tell hs]
    have hbuf : Ends At bs (if (o.eof s).1 = true then pure (alloc junk 10, (o.eof s).2) else do
        let (t, s) ← xpmLoop o 9 [] (o.eof s).2
        pure (t ++ [0] ++ (alloc junk 10).drop (t.length + 1), s) : C (List UInt8 × σ)) := by
      split
      · exact Ends.pure _ hq
      · refine (xpmLoop_ends L 9 [] _ _ hq).bind (fun r hr => Holds.pure hr)
    refine hbuf.bind (fun r hr => ?_)
    obtain ⟨q, hq⟩ := hr
    exact (L.seekSet hq).bind (fun t ht => Holds.pure ht)
  · exact headed_ends L junk _ _ _ hs (by decide)

end DevIL.Detect
