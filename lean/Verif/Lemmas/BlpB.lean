import Verif.Lemmas.Blp
/-! BLP2: whatever the bytes are. -/
set_option autoImplicit false
namespace DevIL.Blp
open DevIL.Games DevIL.Detect DevIL.Image DevIL.DetectSpec DevIL.BlpSpec
open DevIL.Lump (SEEK_SET SEEK_CUR)

variable {σ : Type} {o : Ops σ} {At : σ → List UInt8 → Nat → Prop}

/-- A level has this size and a block to match. -/
def Sized (w h : Nat) (m : Img) : Prop := m.width = w ∧ m.height = h ∧ m.data.length = m.size

theorem seek_any (L : Laws2 o At) {bs : List UInt8} {s : σ} {p off : Nat} (hA : At s bs p) (hoff : off < 2147483648) : Holds (o.seek s (Lump.toInt off) SEEK_SET) (fun r => ∃ q, At r.2 bs q) := by
  rw [show Lump.toInt off = (off : Int) by unfold Lump.toInt; rw [if_pos (by omega)]]
  exact L.seekPos off hA (by omega)

theorem level0_any (L : Laws2 o At) (junk : Nat → UInt8) {bs : List UInt8} {w h off len : Nat} (hw : 0 < w) (hh : 0 < h) (hfit : w * h * 4 < 4294967296) (hoff : off < 2147483648) {s : σ} (hA : ∃ q, At s bs q) :
    Holds (level0 o off len (mk junk 1 IL_COLOUR_INDEX w h) s) (fun r => Sized w h r.2.1 ∧ ∃ q, At r.2.2 bs q) := by
  obtain ⟨q, hA⟩ := hA
  obtain ⟨m1, m2, m3, m4, -⟩ := mk_fields junk w h 1 IL_COLOUR_INDEX hw hh (by decide) (by omega)
  unfold level0
  split
  · exact Holds.pure ⟨⟨m1, m2, by rw [m4, m3]⟩, _, hA⟩
  · refine (seek_any L hA hoff).bind (fun r A1 => ?_)
    obtain ⟨q1, A1⟩ := A1
    refine (into_spec L _ 1 (mk junk 1 IL_COLOUR_INDEX w h).size A1 (by decide) (by rw [m3]; omega) (by rw [m4, m3]; omega)).bind (fun r hr => ?_)
    obtain ⟨n, d, s2⟩ := r
    obtain ⟨-, h2, A2⟩ := hr
    simp only [] at h2 A2 ⊢
    refine Holds.pure ⟨⟨m1, m2, ?_⟩, _, A2⟩
    show d.length = (mk junk 1 IL_COLOUR_INDEX w h).size
    have := at_length bs q1 (1 * (mk junk 1 IL_COLOUR_INDEX w h).size)
    rw [h2, List.length_append, List.length_drop, m4, m3]
    rw [m3] at this
    omega

theorem level1_any (L : Laws2 o At) (junk : Nat → UInt8) {bs pal : List UInt8} (hp : pal.length = 1024) {w h off len : Nat} (hw : 0 < w) (hh : 0 < h) (hfit : w * h * 4 < 4294967296) (hoff : off < 2147483648) {s : σ} (hA : ∃ q, At s bs q) :
    Holds (level1 o junk pal off len (mk junk 4 IL_BGRA w h) s) (fun r => Sized w h r.2.1 ∧ ∃ q, At r.2.2 bs q) := by
  obtain ⟨q, hA⟩ := hA
  have hwh : 0 < w * h := Nat.mul_pos hw hh
  obtain ⟨m1, m2, m3, m4, m5⟩ := mk_fields junk w h 4 IL_BGRA hw hh (by decide) (by omega)
  unfold level1
  simp only []
  generalize hm : mk junk 4 IL_BGRA w h = m at *
  have un : u32 (m.width * m.height) = w * h := by rw [m1, m2, u32_of_lt (n := w * h) (by omega)]
  have ua : (if u32 (m.width * m.height) / 8 = 0 then 1 else u32 (m.width * m.height) / 8) = max 1 (w * h / 8) := by rw [un]; split <;> omega
  rw [ua, un]
  generalize ha : max 1 (w * h / 8) = a
  have a1 : 0 < a := by omega
  have a2 : a ≤ w * h := by omega
  split
  · exact Holds.pure ⟨⟨m1, m2, by rw [m4, m3]⟩, _, hA⟩
  · refine (seek_any L hA hoff).bind (fun r A1 => ?_)
    obtain ⟨q1, A1⟩ := A1
    refine (into_spec L _ (w * h) 1 A1 hwh (by omega) (by rw [alloc_length]; omega)).bind (fun r hr => ?_)
    obtain ⟨k, b, s2⟩ := r
    obtain ⟨-, h2, A2⟩ := hr
    simp only [] at h2 A2 ⊢
    have hb : b.length = w * h := by
      have := at_length bs q1 (w * h * 1)
      rw [h2, List.length_append, List.length_drop, alloc_length]
      omega
    split
    · exact Holds.pure ⟨⟨m1, m2, by rw [m4, m3]⟩, _, A2⟩
    · obtain ⟨d1, e1, l1, -⟩ := colours_spec (pal := pal) (b := b) (d := m.data) (n := w * h) hp (by omega) m4
      rw [e1, bind_ok]
      refine (into_spec L b a 1 A2 a1 (by omega) (by omega)).bind (fun r hr => ?_)
      obtain ⟨k3, b3, s3⟩ := r
      obtain ⟨-, h3, A3⟩ := hr
      simp only [] at h3 A3 ⊢
      split
      · exact Holds.pure ⟨⟨m1, m2, by show d1.length = m.size; rw [l1, m3]⟩, _, A3⟩
      · have hb3 : b3.length = w * h := by
          rw [h3, List.length_append, List.length_drop, hb, at_length]
          omega
        rw [m1, m2, m5]
        obtain ⟨d2, e2, l2, -⟩ := alphas_spec (b := b3) (d := d1) hw (h := h) (by rw [hb3]; omega) l1
        rw [e2, bind_ok]
        exact Holds.pure ⟨⟨rfl, rfl, by show d2.length = m.size; rw [l2, m3]⟩, _, A3⟩

theorem chain_any {bs : List UInt8} (hd : List (List UInt8)) (make : Nat → Nat → Img) (hmake : ∀ a b, make a b = make (max 1 a) (max 1 b)) (level : Nat → Nat → Img → σ → C (Bool × Img × σ)) (ho : ∀ i, i < 16 → off hd i < 2147483648)
    (hlev : ∀ w h off len, 0 < w → 0 < h → w * h * 4 < 4294967296 → off < 2147483648 → ∀ s, (∃ q, At s bs q) → Holds (level off len (make w h) s) (fun r => Sized w h r.2.1 ∧ ∃ q, At r.2.2 bs q)) :
    ∀ (k i w h : Nat) (last : Img) (s : σ), i + k = 16 → 0 < w → 0 < h → w * h * 4 < 4294967296 → Sized w h last → (∃ q, At s bs q) →
      Holds (chain make level hd k i last s) (fun r => (∀ m ∈ r.2.1, m.data.length = m.size) ∧ ∃ q, At r.2.2 bs q) := by
  intro k
  induction k with
  | zero => intro i w h last s _ _ _ _ _ hA; exact Holds.pure ⟨fun m hm => absurd hm List.not_mem_nil, hA⟩
  | succ k ih =>
    intro i w h last s hi hw hh hfit hs hA
    obtain ⟨s1, s2, -⟩ := hs
    rw [chain]
    split
    · exact Holds.pure ⟨fun m hm => absurd hm List.not_mem_nil, hA⟩
    · rw [s1, s2, hmake]
      have w0 : 0 < max 1 (w / 2) := by omega
      have h0 : 0 < max 1 (h / 2) := by omega
      have hf : max 1 (w / 2) * max 1 (h / 2) * 4 < 4294967296 := by
        have := Nat.mul_le_mul_right 4 (Nat.mul_le_mul (show max 1 (w / 2) ≤ w by omega) (show max 1 (h / 2) ≤ h by omega))
        omega
      refine (hlev _ _ _ _ w0 h0 hf (ho i (by omega)) s hA).bind (fun r hr => ?_)
      obtain ⟨ok, m, s3⟩ := r
      obtain ⟨r2, r3⟩ := hr
      simp only [] at r2 r3 ⊢
      split
      · exact Holds.pure ⟨fun m' hm => by rw [List.mem_singleton.1 hm]; exact r2.2.2, r3⟩
      · refine (ih (i + 1) _ _ m s3 (by omega) w0 h0 hf r2 r3).bind (fun r hr => ?_)
        obtain ⟨ok, ms, s4⟩ := r
        obtain ⟨q2, q3⟩ := hr
        simp only [] at q2 q3 ⊢
        refine Holds.pure ⟨fun m' hm => ?_, q3⟩
        rcases List.mem_cons.1 hm with rfl | hm
        · exact r2.2.2
        · exact q2 m' hm

theorem levels_any {bs : List UInt8} (hd : List (List UInt8)) (make : Nat → Nat → Img) (hmake : ∀ a b, make a b = make (max 1 a) (max 1 b)) (level : Nat → Nat → Img → σ → C (Bool × Img × σ)) (ho : ∀ i, i < 16 → off hd i < 2147483648)
    (hlev : ∀ w h off len, 0 < w → 0 < h → w * h * 4 < 4294967296 → off < 2147483648 → ∀ s, (∃ q, At s bs q) → Holds (level off len (make w h) s) (fun r => Sized w h r.2.1 ∧ ∃ q, At r.2.2 bs q))
    (hw : 0 < fle hd 6) (hh : 0 < fle hd 7) (hfit : fle hd 6 * fle hd 7 * 4 < 4294967296) {s : σ} (hA : ∃ q, At s bs q) :
    Holds (levels make level hd s) (fun r => (∀ m ∈ r.2.1, m.data.length = m.size) ∧ ∃ q, At r.2.2 bs q) := by
  unfold levels
  refine (hlev _ _ _ _ hw hh hfit (ho 0 (by decide)) s hA).bind (fun r hr => ?_)
  obtain ⟨ok, m, s3⟩ := r
  obtain ⟨r2, r3⟩ := hr
  simp only [] at r2 r3 ⊢
  split
  · exact Holds.pure ⟨fun m' hm => by rw [List.mem_singleton.1 hm]; exact r2.2.2, r3⟩
  · refine (chain_any hd make hmake level ho hlev 15 1 _ _ m s3 (by omega) hw hh hfit r2 r3).bind (fun r hr => ?_)
    obtain ⟨ok, ms, s4⟩ := r
    obtain ⟨q2, q3⟩ := hr
    simp only [] at q2 q3 ⊢
    refine Holds.pure ⟨fun m' hm => ?_, q3⟩
    rcases List.mem_cons.1 hm with rfl | hm
    · exact r2.2.2
    · exact q2 m' hm

theorem load_any (L : Laws2 o At) (junk : Nat → UInt8) (other : List (List UInt8) → σ → C (Bool × List Loaded × σ)) (cur : Loaded) {bs : List UInt8} (h148 : 148 ≤ bs.length) (hfit : leAt bs 12 4 * leAt bs 16 4 * 4 < 4294967296)
    (ho : ∀ i, i < 16 → place bs i < 2147483648) (hcur : cur.1.data.length = cur.1.size) (hoth : ∀ h s, (∃ q, At s bs q) → Holds (other h s) (fun r => (∀ m ∈ r.2.1, m.1.data.length = m.1.size) ∧ ∃ q, At r.2.2 bs q))
    {s : σ} (hA : At s bs 0) : Holds (iLoadBlpInternal o junk other cur s) (fun r => (∀ m ∈ r.2.1, m.1.data.length = m.1.size) ∧ ∃ q, At r.2.2 bs q) := by
  obtain ⟨hd, s1, e1, A1, h0, h1, h2, h3, h4, h5, h6, h7, hoo, hn⟩ := head_fields L junk hA h148
  have ho' : ∀ i, i < 16 → off hd i < 2147483648 := fun i hi => by rw [hoo i hi]; exact ho i hi
  have one : ∀ (m : Loaded) (s : σ), m.1.data.length = m.1.size → (∃ q, At s bs q) → Holds (pure (false, [m], s) : C (Bool × List Loaded × σ)) (fun r => (∀ m ∈ r.2.1, m.1.data.length = m.1.size) ∧ ∃ q, At r.2.2 bs q) :=
    fun m s hm hA => Holds.pure ⟨fun m' h => by rw [List.mem_singleton.1 h]; exact hm, hA⟩
  unfold iLoadBlpInternal
  rw [e1, bind_ok]
  simp only []
  by_cases hc : (!iCheckBlp2 hd) = true
  · rw [if_pos hc]; exact hoth hd s1 ⟨_, A1⟩
  rw [if_neg hc]
  have dims : 0 < fle hd 6 ∧ 0 < fle hd 7 := by
    unfold iCheckBlp2 at hc
    by_cases hz : (fle hd 6 == 0 || fle hd 7 == 0) = true
    · rw [if_pos hz] at hc
      repeat' split at hc
      all_goals exact absurd rfl hc
    · simp at hz
      omega
  rw [← h6, ← h7] at hfit
  split
  · exact one cur s1 hcur ⟨_, A1⟩
  split
  · exact hoth hd s1 ⟨_, A1⟩
  split
  · refine (into_spec L (alloc junk 1024) 1 1024 A1 (by decide) (by decide) (by rw [alloc_length])).bind (fun r hr => ?_)
    obtain ⟨k, p, s2⟩ := r
    obtain ⟨-, -, A2⟩ := hr
    simp only [] at A2 ⊢
    split
    · exact one _ s2 (tex_len _ _ _ _ _) ⟨_, A2⟩
    · refine (levels_any hd _ (mk_half junk 1 IL_COLOUR_INDEX) (level0 o) ho' (fun w h off len hw hh hf hof s hA => level0_any L junk hw hh hf hof hA) dims.1 dims.2 hfit ⟨_, A2⟩).bind (fun r hr => ?_)
      obtain ⟨ok, ms, s3⟩ := r
      obtain ⟨q1, q2⟩ := hr
      simp only [] at q1 q2 ⊢
      refine Holds.pure ⟨fun m hm => ?_, q2⟩
      obtain ⟨m', hm', rfl⟩ := List.mem_map.1 hm
      exact q1 m' hm'
  split
  · refine (into_spec L (alloc junk 1024) 1 1024 A1 (by decide) (by decide) (by rw [alloc_length])).bind (fun r hr => ?_)
    obtain ⟨k, p, s2⟩ := r
    obtain ⟨-, hp, A2⟩ := hr
    simp only [] at hp A2 ⊢
    have hpl : p.length = 1024 := by
      rw [hp, List.length_append, List.length_drop, alloc_length, at_length]
      omega
    split
    · exact one _ s2 (tex_len _ _ _ _ _) ⟨_, A2⟩
    · refine (levels_any hd _ (mk_half junk 4 IL_BGRA) (level1 o junk p) ho' (fun w h off len hw hh hf hof s hA => level1_any L junk hpl hw hh hf hof hA) dims.1 dims.2 hfit ⟨_, A2⟩).bind (fun r hr => ?_)
      obtain ⟨ok, ms, s3⟩ := r
      obtain ⟨q1, q2⟩ := hr
      simp only [] at q1 q2 ⊢
      refine Holds.pure ⟨fun m hm => ?_, q2⟩
      obtain ⟨m', hm', rfl⟩ := List.mem_map.1 hm
      exact q1 m' hm'
  · exact one cur s1 hcur ⟨_, A1⟩

/-- Reading from memory behind a seek to a place that is negative as a signed number. -/
theorem read_bad {bs : List UInt8} {l : Lump.R} {p off n : Nat} (hA : LumpAt l bs p) (h1 : 2147483648 ≤ off) (h2 : off < 4294967296) (hn : 0 < n) (hn' : n < 4294967296) (d : List UInt8) :
    ∃ l', lumpOps.seek l (Lump.toInt off) SEEK_SET = .ok (true, l') ∧ into lumpOps l' d 1 n = .error .oobRead := by
  obtain ⟨hg, rfl, rfl, hl⟩ := hA
  have hs := hg.size
  have hne := hg.ne
  have ht : Lump.toInt off = (off : Int) - 4294967296 := by unfold Lump.toInt; rw [if_neg (by omega)]
  have hts : Lump.toInt l.size = (l.size : Int) := by unfold Lump.toInt; rw [if_pos (by omega)]
  have ho : Lump.ofInt ((off : Int) - 4294967296) = off := by unfold Lump.ofInt; omega
  refine ⟨{ l with pos := off }, ?_, ?_⟩
  · show Lump.seek l _ _ = _
    unfold Lump.seek Lump.seekTo
    rw [ht, if_pos rfl, hts, if_neg (by omega), ho]
    rfl
  · unfold into
    show (Lump.read { l with pos := off } 1 n >>= _) >>= _ = _
    have hmin : ∃ k, min (u32 (1 * n)) (Lump.ofInt ((l.size : Int) - off)) = k + 1 := by
      rw [Nat.one_mul, u32_of_lt hn']
      have : 0 < Lump.ofInt ((l.size : Int) - off) := by unfold Lump.ofInt; omega
      exact ⟨min n (Lump.ofInt ((l.size : Int) - off)) - 1, by omega⟩
    obtain ⟨k, hk⟩ := hmin
    unfold Lump.read
    simp only []
    rw [hk, Lump.readLoop, rd_of_ge (by show l.data.length ≤ off + 0; omega)]
    rfl

end DevIL.Blp
