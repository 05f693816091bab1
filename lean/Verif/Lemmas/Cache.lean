import Verif.Model.Cache
import Verif.Hoare
/-! Lemmas on the read cache. -/
set_option autoImplicit false
namespace DevIL.Cache
open DevIL.Lump (SEEK_SET SEEK_CUR SEEK_END)

/-- The cache holds the file from `cstart` on, and the logical position is `p`. -/
structure On (data : List UInt8) (s : S) (p : Nat) : Prop where
  file : s.data = data
  start : s.start = 0
  use : s.use = true
  at_ : s.cstart + s.cpos = p
  le : s.cpos ≤ s.size
  pos : 0 < s.size
  big : s.size < 2 ^ 31
  len : s.cache.length = s.size
  in_ : s.cstart ≤ data.length
  fpos : s.pos = min (s.cstart + s.size) data.length
  same : ∀ i, i < s.size → s.cstart + i < data.length → s.cache[i]? = data[s.cstart + i]?

/-- Without the cache the logical position is that of the file. -/
structure Off (data : List UInt8) (s : S) (p : Nat) : Prop where
  file : s.data = data
  start : s.start = 0
  use : s.use = false
  pos : s.pos = p

theorem pre_on {data : List UInt8} {s : S} {p n : Nat} (junk : Nat → UInt8) (hf : s.data = data) (hs : s.start = 0) (hp : s.pos = p) (hl : p ≤ data.length) (hd : data.length < 2 ^ 31) (hn : n < 2 ^ 31) :
    Holds (iPreCache junk s n) (fun t => On data t p ∧ t.cpos = 0 ∧ t.cread = 0 ∧ t.size = (if n = 0 then 1 else n)) := by
  obtain ⟨k, hk⟩ : ∃ k, k = (if n = 0 then 1 else n) := ⟨_, rfl⟩
  have hk0 : 0 < k := by rw [hk]; split <;> omega
  have hk1 : k < 2 ^ 31 := by rw [hk]; split <;> omega
  unfold iPreCache
  rw [← hk]
  simp only [fread, hf, hp, Nat.one_mul]
  obtain ⟨g, hg⟩ : ∃ g, g = (data.drop p).take k := ⟨_, rfl⟩
  have hgl : g.length = min k (data.length - p) := by rw [hg]; simp
  rw [← hg]
  obtain ⟨b, e, l, sp⟩ := memcpy_get (dst := alloc junk k) (src := g) (dOff := 0) (sOff := 0) (n := g.length) (by omega) (by simp; omega)
  rw [e, bind_ok]
  refine Holds.pure ⟨⟨rfl, hs, rfl, ?_, ?_, hk0, hk1, ?_, ?_, ?_, ?_⟩, rfl, rfl, rfl⟩
  · simp [iTellRFile, hp, u32_of_lt (show p < 4294967296 by omega)]
  · simp
  · rw [l, alloc_length]
  · simpa [iTellRFile, hp, u32_of_lt (show p < 4294967296 by omega)] using hl
  · simp only [iTellRFile, hp, u32_of_lt (show p < 4294967296 by omega)]; omega
  · intro i hi hlt
    simp only [iTellRFile, hp, u32_of_lt (show p < 4294967296 by omega)] at hi hlt ⊢
    rw [sp, if_pos (by omega), hg, List.getElem?_take_of_lt (by omega), List.getElem?_drop]
    congr 1
    omega

/-- Copying out of the cache. -/
theorem copy_on {data : List UInt8} {s : S} {p n : Nat} (h : On data s p) (hn : s.cpos + n ≤ s.size) (hl : p + n ≤ data.length) :
    memcpy (List.replicate n 0) 0 s.cache s.cpos n = .ok ((data.drop p).take n) := by
  obtain ⟨b, e, l, sp⟩ := memcpy_get (dst := List.replicate n (0 : UInt8)) (src := s.cache) (dOff := 0) (sOff := s.cpos) (n := n) (by rw [h.len]; exact hn) (by simp)
  rw [e]
  congr 1
  apply List.ext_getElem?
  intro i
  have ha := h.at_
  rw [sp]
  rcases Nat.lt_or_ge i n with hi | hi
  · rw [if_pos (by omega), List.getElem?_take_of_lt hi, List.getElem?_drop, h.same _ (by omega) (by omega)]
    congr 1
    omega
  · rw [if_neg (by omega), List.getElem?_eq_none (by simp; omega), List.getElem?_eq_none (by simp; omega)]

/-- Moving on inside the cache. -/
theorem On.move {data : List UInt8} {s : S} {p n : Nat} (h : On data s p) (hn : s.cpos + n ≤ s.size) (r : Nat) : On data { s with cpos := s.cpos + n, cread := r } (p + n) :=
  ⟨h.file, h.start, h.use, by have := h.at_; simp only; omega, hn, h.pos, h.big, h.len, h.in_, h.fpos, h.same⟩

theorem On.move' {data : List UInt8} {s : S} {p n : Nat} (h : On data s p) (hn : s.cpos + n ≤ s.size) : On data { s with cpos := s.cpos + n } (p + n) :=
  ⟨h.file, h.start, h.use, by have := h.at_; simp only; omega, hn, h.pos, h.big, h.len, h.in_, h.fpos, h.same⟩

theorem getc_on {data : List UInt8} {s : S} {p : Nat} {b : UInt8} (junk : Nat → UInt8) (h : On data s p) (hr : s.cread = s.cpos) (hd : data.length < 2 ^ 31) (hb : data[p]? = some b) :
    Holds (iGetcFile junk s) (fun t => t.1 = some b ∧ On data t.2 (p + 1) ∧ t.2.cread = t.2.cpos) := by
  have hp : p < data.length := by
    rcases Nat.lt_or_ge p data.length with h | h
    · exact h
    · rw [List.getElem?_eq_none h] at hb; cases hb
  unfold iGetcFile
  rw [if_neg (by simp [h.use])]
  refine Holds.bind (P := fun t => On data t p ∧ t.cread = t.cpos ∧ t.cpos < t.size) ?_ (fun t ht => ?_)
  · refine Holds.ite (fun hge => ?_) (fun hlt => Holds.pure ⟨h, hr, by omega⟩)
    have ha := h.at_
    have hc : s.cpos = s.size := by have := h.le; omega
    refine (pre_on junk h.file h.start (p := p) (by have := h.fpos; omega) (by omega) hd h.big).mono (fun t ht => ?_)
    exact ⟨ht.1, by rw [ht.2.1, ht.2.2.1], by rw [ht.2.1]; exact ht.1.pos⟩
  · obtain ⟨ht, hr, hlt⟩ := ht
    have ha := ht.at_
    have : t.cache[t.cpos]? = some b := by rw [ht.same _ hlt (by omega), ha, hb]
    rw [rd_of_some this, bind_ok]
    have hbig := ht.big
    refine Holds.pure ⟨rfl, ht.move (n := 1) (by omega) _, ?_⟩
    simp only
    rw [u32_of_lt (by omega), hr]

theorem slice_append {data : List UInt8} {p a b : Nat} : (data.drop p).take a ++ (data.drop (p + a)).take b = (data.drop p).take (a + b) := by
  rw [List.take_add, List.drop_drop]

theorem loop_on {data : List UInt8} {s : S} {p want : Nat} (junk : Nat → UInt8) (h : On data s p) (hd : data.length < 2 ^ 31) (hw : want < 2 ^ 31) (hl : p + want ≤ data.length) :
    Holds (readLoop junk want s) (fun t => t.1 = (data.drop p).take want ∧ On data t.2 (p + want)) := by
  unfold readLoop
  refine (Holds.while (fun t : List UInt8 × S => t.1.length ≤ want ∧ t.1 = (data.drop p).take t.1.length ∧ On data t.2 (p + t.1.length))
    (fun t => if t.1.length = want then 0 else want - t.1.length + (if t.2.cpos = t.2.size then 1 else 0)) ?_ (want + 2) ([], s) ⟨by simp, by simp, by simpa using h⟩ ?_).mono ?_
  · rintro ⟨acc, t⟩ ⟨h1, h2, h3⟩ hc
    simp only at h1 h2 h3 ⊢
    have hlt : acc.length < want := by simpa using hc
    have hle := h3.le
    have hbig := h3.big
    rw [u32_of_lt (by omega)]
    obtain ⟨n, hn⟩ : ∃ n, n = (if acc.length + t.size - t.cpos > want then want - acc.length else t.size - t.cpos) := ⟨_, rfl⟩
    rw [← hn]
    have hn1 : t.cpos + n ≤ t.size ∧ acc.length + n ≤ want ∧ (acc.length + n < want → n = t.size - t.cpos) := by rw [hn]; split <;> omega
    rw [copy_on h3 hn1.1 (by omega), bind_ok]
    have hlen : (acc ++ (data.drop (p + acc.length)).take n).length = acc.length + n := by simp; omega
    have hacc : acc ++ (data.drop (p + acc.length)).take n = (data.drop p).take (acc.length + n) := by
      rw [← slice_append, ← h2]
    have hmv := h3.move' hn1.1
    refine Holds.bind (P := fun u => On data u (p + acc.length + n) ∧ (acc.length + n < want → u.cpos < u.size)) ?_ (fun u hu => ?_)
    · rw [hlen]
      refine Holds.ite (fun hlt' => ?_) (fun hge => Holds.pure ⟨hmv, fun h => by omega⟩)
      have hnn := hn1.2.2 hlt'
      have ha := h3.at_
      refine (pre_on junk h3.file h3.start (p := p + acc.length + n) (by have := h3.fpos; omega) (by omega) hd h3.big).mono (fun u hu => ?_)
      exact ⟨hu.1, fun _ => by rw [hu.2.1]; exact hu.1.pos⟩
    · refine Holds.pure ⟨⟨by rw [hlen]; omega, by rw [hlen]; exact hacc, by rw [hlen, ← Nat.add_assoc]; exact hu.1⟩, ?_⟩
      simp only [hlen]
      rw [if_neg (show ¬ acc.length = want by omega)]
      have := hn1.2.2
      split
      · omega
      · have := hu.2 (by omega)
        rw [if_neg (show ¬ u.cpos = u.size by omega)]
        by_cases hz : n = 0
        · rw [if_pos (by omega)]; omega
        · split <;> omega
  · simp only
    split
    · omega
    · split <;> simp
  · rintro ⟨acc, t⟩ ⟨⟨h1, h2, h3⟩, hc⟩
    have : acc.length = want := by simp at hc h1; omega
    simp only at h2 h3 ⊢
    rw [this] at h2 h3
    exact ⟨h2, h3⟩

theorem read_on {data : List UInt8} {s : S} {p size number : Nat} (junk : Nat → UInt8) (h : On data s p) (hr : s.cread = s.cpos) (hd : data.length < 2 ^ 31) (hw : size * number < 2 ^ 31) (hs : 0 < size)
    (hl : p + size * number ≤ data.length) :
    Holds (iReadFile junk s size number) (fun t => t.1 = (data.drop p).take (size * number) ∧ t.2.1 = number ∧ On data t.2.2 (p + size * number) ∧ t.2.2.cread = t.2.2.cpos) := by
  unfold iReadFile
  rw [if_neg (by simp [h.use])]
  simp only
  rw [u32_of_lt (by omega)]
  have hbig := h.big
  have hdiv : size * number / size = number := Nat.mul_div_cancel_left _ hs
  refine Holds.ite (fun hlt => ?_) (fun hge => ?_)
  · rw [copy_on h (by omega) hl, bind_ok]
    refine Holds.pure ⟨rfl, ?_, h.move (by omega) _, ?_⟩
    · simp only; rw [if_pos (by omega), hdiv]
    · simp only; rw [u32_of_lt (by omega), hr]
  · refine (loop_on junk h hd hw hl).bind (fun t ht => ?_)
    obtain ⟨b, t⟩ := t
    obtain ⟨h1, h2⟩ := ht
    simp only at h1 h2 ⊢
    refine Holds.pure ⟨h1, ?_, ?_, rfl⟩
    · simp only
      rw [if_pos (by omega), h1, List.length_take, List.length_drop, Nat.min_eq_left (by omega), hdiv]
    · exact ⟨h2.file, h2.start, h2.use, h2.at_, h2.le, h2.pos, h2.big, h2.len, h2.in_, h2.fpos, h2.same⟩

theorem un_on {data : List UInt8} {s : S} {p : Nat} (h : On data s p) (hr : s.cread = s.cpos) (hp : p ≤ data.length) (hd : data.length < 2 ^ 31) : Off data (iUnCache s) p := by
  unfold iUnCache
  rw [if_neg (by simp [h.use])]
  simp only [iSeekRFile, h.start]
  rw [hr, h.at_, u32_of_lt (by omega)]
  have : Lump.toInt p = (p : Int) := by unfold Lump.toInt; rw [if_pos (by omega)]
  simp only [this, if_true]
  rw [if_neg (by simp [SEEK_SET])]
  exact ⟨h.file, rfl, rfl, by simp⟩

end DevIL.Cache
