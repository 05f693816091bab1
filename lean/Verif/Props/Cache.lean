import Verif.Lemmas.Cache
/-! Property C110: reading ahead changes nothing. -/
set_option autoImplicit false
namespace DevIL.Cache
open DevIL.Lump (SEEK_SET SEEK_CUR SEEK_END)

/-- The state between requests: reading ahead (`c`) or not, at the logical position `p`. -/
def At (data : List UInt8) (c : Bool) (s : S) (p : Nat) : Prop := if c then On data s p ∧ s.cread = s.cpos else Off data s p

theorem direct_le {data : List UInt8} {p q : Nat} {op : Op} {g : Got} (hp : p ≤ data.length) (h : direct data p op = some (g, q)) : q ≤ data.length := by
  cases op with
  | getc =>
    simp only [direct] at h
    split at h
    · rename_i b hb
      cases h
      exact (List.getElem?_eq_some_iff.mp hb).1
    · cases h
  | read size number =>
    simp only [direct] at h
    split at h
    · rename_i hc; cases h; exact hc.2
    · cases h
  | seek off mode =>
    simp only [direct] at h
    obtain ⟨t, ht⟩ : ∃ t : Int, t = (if mode = 0 then off else if mode = 1 then p + off else data.length + off) := ⟨_, rfl⟩
    rw [← ht] at h
    split at h
    · rename_i hc
      cases h
      omega
    · cases h
  | tell => cases h; exact hp
  | eof => cases h; exact hp
  | pre n => cases h; exact hp
  | un => cases h; exact hp

theorem seek_off {data : List UInt8} {s : S} {p q : Nat} {off : Int} {mode : Nat} {g : Got} (h : Off data s p) (he : direct data p (.seek off mode) = some (g, q)) :
    g = .ok true ∧ (iSeekRFile s off mode).1 = true ∧ Off data (iSeekRFile s off mode).2 q := by
  simp only [direct] at he
  have hpos := h.pos
  have hst : (if mode = SEEK_SET then off + (s.start : Int) else if mode = SEEK_CUR then (s.pos : Int) + off else (s.data.length : Int) + off) =
      (if mode = 0 then off else if mode = 1 then (p : Int) + off else (data.length : Int) + off) := by
    rw [h.start, h.pos, h.file]
    simp [SEEK_SET, SEEK_CUR]
  unfold iSeekRFile
  simp only
  rw [hst]
  obtain ⟨t, ht⟩ : ∃ t : Int, t = (if mode = 0 then off else if mode = 1 then (p : Int) + off else (data.length : Int) + off) := ⟨_, rfl⟩
  rw [← ht] at he ⊢
  split at he
  · rename_i hc
    cases he
    rw [if_neg (by omega)]
    exact ⟨rfl, rfl, h.file, h.start, h.use, rfl⟩
  · cases he

/-- One request. -/
theorem step_same {data : List UInt8} {c : Bool} {s : S} {p q : Nat} {op : Op} {ops : List Op} {g : Got} (junk : Nat → UInt8) (hd : data.length < 2 ^ 31) (hp : p ≤ data.length)
    (h : At data c s p) (hpr : Proper c (op :: ops)) (he : direct data p op = some (g, q)) :
    ∃ c', Proper c' ops ∧ Holds (step junk s op) (fun t => t.1 = g ∧ At data c' t.2 q) := by
  cases op with
  | getc =>
    simp only [direct] at he
    split at he
    rotate_left
    · cases he
    rename_i b hb
    cases he
    refine ⟨c, hpr, ?_⟩
    cases c with
    | true =>
      simp only [step]
      refine (getc_on junk h.1 h.2 hd hb).bind (fun t ht => ?_)
      obtain ⟨t1, t2⟩ := t
      exact Holds.pure ⟨by rw [ht.1], ht.2⟩
    | false =>
      have h : Off data s p := h
      simp only [step, iGetcFile]
      rw [if_pos (by simp [h.use])]
      simp only [fgetc, h.file, h.pos, hb]
      exact Holds.ok ⟨rfl, rfl, h.start, h.use, rfl⟩
  | read size number =>
    simp only [direct] at he
    split at he
    rotate_left
    · cases he
    rename_i hc
    cases he
    refine ⟨c, hpr.2, ?_⟩
    cases c with
    | true =>
      simp only [step]
      refine (read_on junk h.1 h.2 hd hpr.1 hc.1 hc.2).bind (fun t ht => ?_)
      obtain ⟨t1, t2, t3⟩ := t
      exact Holds.pure ⟨by rw [← ht.1, ← ht.2.1], ht.2.2⟩
    | false =>
      have h : Off data s p := h
      simp only [step, iReadFile]
      rw [if_pos (by simp [h.use])]
      simp only [fread, h.file, h.pos]
      have hl : ((data.drop p).take (size * number)).length = size * number := by simp; omega
      refine Holds.ok ⟨?_, rfl, h.start, h.use, ?_⟩
      · simp only [hl]
        rw [if_neg (by omega), Nat.mul_div_cancel_left _ hc.1]
      · simp only [hl]
  | seek off mode =>
    refine ⟨c, hpr.2, ?_⟩
    cases c with
    | true =>
      obtain ⟨rfl, rfl⟩ := hpr.1 rfl
      have hon : On data s p := h.1
      have hs : iSeekRFile s 0 1 = (true, s) := by
        unfold iSeekRFile
        have : ¬ ((s.pos : Int) < 0) := by omega
        simp [SEEK_SET, SEEK_CUR, this]
      have hq : g = .ok true ∧ q = p := by
        have hx : direct data p (.seek 0 1) = some (.ok true, p) := by simp [direct]; omega
        rw [hx] at he
        cases he
        exact ⟨rfl, rfl⟩
      obtain ⟨rfl, rfl⟩ := hq
      simp only [step, hs]
      exact Holds.ok ⟨rfl, h⟩
    | false =>
      obtain ⟨h1, h2, h3⟩ := seek_off h he
      simp only [step]
      exact Holds.ok ⟨by rw [h1, h2], h3⟩
  | tell =>
    obtain ⟨rfl, hpr⟩ := hpr
    cases he
    have h : Off data s p := h
    refine ⟨false, hpr, Holds.ok ⟨?_, h⟩⟩
    simp only [iTellRFile, h.pos]
    rw [u32_of_lt (by omega)]
  | eof =>
    obtain ⟨rfl, hpr⟩ := hpr
    cases he
    have h : Off data s p := h
    refine ⟨false, hpr, ?_⟩
    have h0 : direct data p (.seek 0 2) = some (.ok true, data.length) := by simp [direct]
    obtain ⟨-, -, h1⟩ := seek_off h h0
    have h2 : direct data data.length (.seek p 0) = some (.ok true, p) := by simp [direct]; omega
    obtain ⟨-, -, h3⟩ := seek_off h1 h2
    simp only [step, iEofFile, iTellRFile, h.pos]
    have e1 : u32 (iSeekRFile s 0 SEEK_END).2.pos = data.length := by rw [show SEEK_END = 2 from rfl, h1.pos, u32_of_lt (by omega)]
    have e2 : Lump.toInt (u32 p) = (p : Int) := by rw [u32_of_lt (by omega)]; unfold Lump.toInt; rw [if_pos (by omega)]
    rw [e1, e2]
    refine Holds.ok ⟨?_, h3⟩
    rw [show SEEK_SET = 0 from rfl, show SEEK_END = 2 from rfl, h3.pos, u32_of_lt (by omega)]
  | pre n =>
    obtain ⟨rfl, hn, hpr⟩ := hpr
    cases he
    have h : Off data s p := h
    refine ⟨true, hpr, ?_⟩
    simp only [step]
    refine (pre_on junk h.file h.start h.pos hp hd hn).bind (fun t ht => ?_)
    exact Holds.pure ⟨rfl, ht.1, by rw [ht.2.1, ht.2.2.1]⟩
  | un =>
    cases he
    refine ⟨false, hpr, ?_⟩
    simp only [step]
    refine Holds.ok ⟨rfl, ?_⟩
    cases c with
    | true => exact un_on h.1 h.2 hp hd
    | false =>
      have h : Off data s p := h
      have : iUnCache s = s := by unfold iUnCache; rw [if_pos (by simp [h.use])]
      rw [this]
      exact h

/-- **C110** (part).  A loader that reads a file from its beginning, and does not ask for more than there is, gets the same bytes, numbers and positions whether or not, and however far, it reads ahead; and when it has stopped reading ahead, the file is at the position
where reading without the cache would have left it.  What is missing: requests beyond the end of the file, see `C110_violated_end`, and files that are loaded from a later position, see `C110_violated_start`. -/
theorem C110_same_partial (junk : Nat → UInt8) (data : List UInt8) (hd : data.length < 2 ^ 31) (ops : List Op) (hpr : Proper false ops) (s : S) (p : Nat) (hp : p ≤ data.length)
    (hs : s.data = data ∧ s.start = 0 ∧ s.use = false ∧ s.pos = p) (gs : List Got) (q : Nat) (he : directAll data p ops = some (gs, q)) :
    ∃ t, run junk ops s = .ok (gs, t) ∧ (t.use = false → t.pos = q) := by
  have key : ∀ (ops : List Op) (c : Bool) (s : S) (p : Nat) (gs : List Got), Proper c ops → p ≤ data.length → At data c s p → directAll data p ops = some (gs, q) →
      ∃ t, run junk ops s = .ok (gs, t) ∧ (t.use = false → t.pos = q) := by
    intro ops
    induction ops with
    | nil =>
      intro c s p gs _ _ ha he
      cases he
      refine ⟨s, rfl, fun hu => ?_⟩
      cases c with
      | true => rw [ha.1.use] at hu; cases hu
      | false => exact Off.pos ha
    | cons op ops ih =>
      intro c s p gs hpr hp ha he
      simp only [directAll] at he
      split at he
      · cases he
      rename_i g p' hdir
      split at he
      · cases he
      rename_i gs' p'' hrest
      cases he
      obtain ⟨c', hpr', ⟨t, e, h1, h2⟩⟩ := step_same junk hd hp ha hpr hdir
      obtain ⟨g', t⟩ := t
      simp only at h1 h2
      subst h1
      obtain ⟨u, e', hu⟩ := ih c' t p' gs' hpr' (direct_le hp hdir) h2 hrest
      refine ⟨u, ?_, hu⟩
      simp only [run]
      rw [e, bind_ok]
      simp only
      rw [e', bind_ok]
      rfl
  exact key ops false s p gs hpr hp ⟨hs.1, hs.2.1, hs.2.2.1, hs.2.2.2⟩ he

/-- A file of twelve bytes, open at position `p`, where loading starts. -/
def demo (data : List UInt8) (p : Nat) : S := ⟨data, p, p, false, [], 0, 0, 0, 0⟩

-- the hypotheses are met: a cache of two bytes, and requests that do not fit into it
example : ∃ t, run (fun _ => 99) [.pre 2, .getc, .read 1 3, .read 2 2, .un, .getc] (demo [0, 1, 2, 3, 4, 5, 6, 7, 8, 9, 10, 11] 0) =
    .ok ([.nothing, .byte (some 0), .bytes [1, 2, 3] 3, .bytes [4, 5, 6, 7] 2, .nothing, .byte (some 8)], t) ∧ (t.use = false → t.pos = 9) :=
  C110_same_partial _ [0, 1, 2, 3, 4, 5, 6, 7, 8, 9, 10, 11] (by decide) [.pre 2, .getc, .read 1 3, .read 2 2, .un, .getc] (by simp [Proper]) _ 0 (by decide) ⟨rfl, rfl, rfl, rfl⟩ _ _ (by decide)

/-- **C110 is false at the end of the file**: of a file with two bytes, the cache delivers four, the last two of which are what the memory contained, and says that all were read. -/
theorem C110_violated_end (junk : Nat → UInt8) :
    (∃ t, run junk [.read 1 4] (demo [1, 2] 0) = .ok ([.bytes [1, 2] 2], t)) ∧
    (∃ t, run junk [.pre 4, .read 1 4] (demo [1, 2] 0) = .ok ([.nothing, .bytes [1, 2, junk 2, junk 3] 4], t)) :=
  ⟨⟨_, rfl⟩, ⟨⟨[1, 2], 2, 0, true, [1, 2, junk 2, junk 3], 4, 4, 0, 4⟩, by with_unfolding_all rfl⟩⟩

/-- **C110 is false of a file that is loaded from a later position**: after one byte has been read through the cache at position 5, the file is at 11 instead of 6. -/
theorem C110_violated_start (junk : Nat → UInt8) :
    (∃ t, run junk [.getc, .getc] (demo [0, 1, 2, 3, 4, 5, 6, 7, 8, 9, 10, 11] 5) = .ok ([.byte (some 5), .byte (some 6)], t)) ∧
    (∃ t, run junk [.pre 2, .getc, .un, .getc] (demo [0, 1, 2, 3, 4, 5, 6, 7, 8, 9, 10, 11] 5) = .ok ([.nothing, .byte (some 5), .nothing, .byte (some 11)], t)) := ⟨⟨_, rfl⟩, ⟨_, rfl⟩⟩

/-- **Asking whether the end is reached moves** in a file that is loaded from a later position. -/
theorem C110_violated_eof (junk : Nat → UInt8) :
    ∃ t, run junk [.getc, .eof, .getc] (demo [0, 1, 2, 3, 4, 5, 6, 7, 8, 9, 10, 11] 5) = .ok ([.byte (some 5), .ok false, .byte (some 11)], t) := ⟨_, rfl⟩

end DevIL.Cache
