import Verif.Lemmas.Icns
/-! Apple icons: the entries. -/
set_option autoImplicit false
namespace DevIL.Icns
open DevIL.Games DevIL.Detect DevIL.Image DevIL.DetectSpec DevIL.IcnsSpec
open DevIL.Lump (SEEK_SET SEEK_CUR)
open DevIL.Psd (EofLaw)

/-- The images have square blocks of four bytes per pixel. -/
def Inv (imgs : List Img) : Prop := ∀ m ∈ imgs, m.data.length = m.width * m.width * 4 ∧ m.size = m.data.length

/-- The images with one of this width, and its place. -/
def slot (junk : Nat → UInt8) (w : Nat) (imgs : List Img) : List Img × Nat :=
  (if imgs.findIdx (fun m => m.width == w) < imgs.length then imgs else imgs ++ [blank junk w], imgs.findIdx (fun m => m.width == w))

theorem blank_fields (junk : Nat → UInt8) {w : Nat} (hw : 0 < w) (hw2 : w ≤ 128) : (blank junk w).width = w ∧ (blank junk w).data.length = w * w * 4 ∧ (blank junk w).size = w * w * 4 := by
  have h : w * w ≤ 128 * 128 := Nat.mul_le_mul hw2 hw2
  obtain ⟨h1, h2, h3, h4, h5, h6, h7, h8, h9⟩ := tex_fields junk w w 4 IL_RGBA hw hw (by decide) (by omega)
  exact ⟨h1, by show (tex junk w w 4 IL_RGBA).data.length = _; rw [tex_len, h9], h9⟩

theorem slot_spec (junk : Nat → UInt8) {w : Nat} {imgs : List Img} (hw : 0 < w) (hw2 : w ≤ 128) (hI : Inv imgs) :
    ∃ m, (slot junk w imgs).1[(slot junk w imgs).2]? = some m ∧ m.width = w ∧ Inv (slot junk w imgs).1 := by
  unfold slot
  obtain ⟨b1, b2, b3⟩ := blank_fields junk hw hw2
  by_cases h : imgs.findIdx (fun m => m.width == w) < imgs.length
  · simp only [if_pos h]
    refine ⟨_, List.getElem?_eq_getElem h, ?_, hI⟩
    have := List.findIdx_getElem (w := h)
    exact eq_of_beq this
  · simp only [if_neg h]
    have hl : imgs.findIdx (fun m => m.width == w) = imgs.length := Nat.le_antisymm List.findIdx_le_length (by omega)
    refine ⟨blank junk w, ?_, b1, fun m hm => ?_⟩
    · rw [hl, List.getElem?_append_right (Nat.le_refl _), Nat.sub_self]; rfl
    · rcases List.mem_append.1 hm with hm | hm
      · exact hI m hm
      · rw [List.mem_singleton.1 hm, b1, b2, b3]
        exact ⟨rfl, rfl⟩

variable {σ : Type} {o : Ops σ} {At : σ → List UInt8 → Nat → Prop}

theorem data_read (L : Laws2 o At) (junk : Nat → UInt8) {bs : List UInt8} {p n : Nat} {s : σ} (hA : At s bs p) (hn : n < 2147483648) :
    Holds (into o s (alloc junk n) n 1) (fun r => r.2.1.length = n ∧ (∃ q, At r.2.2 bs q) ∧ (p + n ≤ bs.length → r.2.1 = at_ bs p n ∧ At r.2.2 bs (p + n))) := by
  by_cases h0 : n = 0
  · subst h0
    unfold into
    refine (L.read0 1 hA).bind (fun r hr => ?_)
    obtain ⟨g, n, s1⟩ := r
    obtain ⟨h1, h2, h3⟩ := hr
    simp only [] at h1 h2 h3 ⊢
    subst h1 h2
    exact ⟨_, rfl, rfl, ⟨_, h3⟩, fun _ => ⟨by simp [at_, alloc], h3⟩⟩
  · refine (into_spec L (alloc junk n) n 1 hA (by omega) (by omega) (by rw [alloc_length]; omega)).mono (fun r hr => ?_)
    obtain ⟨-, h2, h3⟩ := hr
    rw [Nat.mul_one] at h2 h3
    have hl := at_length bs p n
    refine ⟨by rw [h2, List.length_append, List.length_drop, alloc_length]; omega, ⟨_, h3⟩, fun hp => ?_⟩
    have hl : (at_ bs p n).length = n := by omega
    rw [hl] at h2 h3
    rw [List.drop_of_length_le (by rw [alloc_length]), List.append_nil] at h2
    exact ⟨h2, h3⟩

/-- What is stored in an image. -/
def store (isAlpha : Bool) (w : Nat) (data : List UInt8) (m : Img) : C (Option Img) :=
  if isAlpha then
    if data.length ≠ w * w then pure none
    else do
      let d ← loopN (w * w) (fun i d => do
        let v ← rd data i
        wr d (i * 4 + 3) v) m.data
      pure (some { m with data := d })
  else do
    let d ← colours data w m.data
    pure (some { m with data := d })

theorem read_core (L : Laws2 o At) (junk : Nat → UInt8) {bs : List UInt8} {p n w : Nat} {s : σ} (hA : At s bs p) (hn : n < 2147483648) (isAlpha : Bool) (imgs : List Img) {m : Img}
    (hm : (slot junk w imgs).1[(slot junk w imgs).2]? = some m) :
    ∃ data s', data.length = n ∧ (∃ q, At s' bs q) ∧ (p + n ≤ bs.length → data = at_ bs p n ∧ At s' bs (p + n)) ∧
      iIcnsReadData o junk isAlpha w ((n : Int) + 8) imgs s = (do
        let r ← store isAlpha w data m
        match r with
        | none => pure (false, (slot junk w imgs).1, s')
        | some m => pure (true, (slot junk w imgs).1.set (slot junk w imgs).2 m, s')) := by
  obtain ⟨⟨k, data, s'⟩, e, h1, h2, h3⟩ := data_read L junk hA hn
  refine ⟨data, s', h1, h2, h3, ?_⟩
  unfold iIcnsReadData
  rw [if_neg (by omega), show ((n : Int) + 8 - 8).toNat = n by omega]
  have hm' := rd_of_some hm
  unfold slot at hm' ⊢
  simp only [] at hm' ⊢
  rw [hm', bind_ok, e, bind_ok]
  simp only []
  unfold store
  simp only [] at h1
  rw [h1]
  cases isAlpha with
  | true =>
    rw [if_pos rfl, if_pos rfl]
    by_cases hw : n ≠ w * w
    · rw [if_pos hw, if_pos hw]; rfl
    · rw [if_neg hw, if_neg hw]
      cases loopN (w * w) (fun i d => do
        let v ← rd data i
        wr d (i * 4 + 3) v) m.data <;> rfl
  | false =>
    rw [if_neg (show ¬ false = true by decide), if_neg (show ¬ false = true by decide)]
    cases colours data w m.data <;> rfl

/-- What is stored of a mask. -/
theorem store_mask {w : Nat} {data : List UInt8} {m : Img} (hd : data.length = w * w) (hm : m.data.length = w * w * 4) :
    ∃ d, store true w data m = .ok (some { m with data := d }) ∧ d.length = w * w * 4 ∧ (∀ i, i < w * w → d[i * 4 + 3]? = data[i]?) ∧
      ∀ i c, c < 3 → d[i * 4 + c]? = m.data[i * 4 + c]? := by
  obtain ⟨d, e, h1, h2, h3⟩ := fill_ok data (fun i => i) (fun i => i * 4 + 3) (w * w) m.data (fun i hi => by omega) (fun i hi => by omega) (fun i j _ _ h => by omega)
  refine ⟨d, ?_, by omega, h2, fun i c hc => h3 _ (fun j _ => by omega)⟩
  unfold store
  rw [if_pos rfl, if_neg (by omega), e]
  rfl

theorem store_any {w : Nat} (isAlpha : Bool) {data : List UInt8} {m : Img} (hm : m.data.length = w * w * 4) :
    store isAlpha w data m = .ok none ∨ (∃ d, store isAlpha w data m = .ok (some { m with data := d }) ∧ d.length = w * w * 4) ∨ store isAlpha w data m = .error .oobRead := by
  cases isAlpha with
  | true =>
    by_cases h : data.length = w * w
    · obtain ⟨d, e, h1, -⟩ := store_mask h hm
      exact .inr (.inl ⟨d, e, h1⟩)
    · left
      unfold store
      rw [if_pos rfl, if_pos h]
      rfl
  | false =>
    obtain ⟨c1, c2⟩ := colours_spec data w m.data hm
    right
    unfold store
    rw [if_neg (by decide)]
    by_cases h : Whole w data
    · obtain ⟨d, e, h1, -⟩ := c1 h
      rw [e]
      exact .inl ⟨d, rfl, by omega⟩
    · rw [c2 h]
      exact .inr rfl

theorem read_any (L : Laws2 o At) (junk : Nat → UInt8) {bs : List UInt8} {p w : Nat} {s : σ} (hA : At s bs p) (hw : 0 < w) (hw2 : w ≤ 128) (isAlpha : Bool) {imgs : List Img} (hI : Inv imgs) {size : Int}
    (hs : size < 2147483648) :
    (∃ r, iIcnsReadData o junk isAlpha w size imgs s = .ok r ∧ Inv r.2.1 ∧ ∃ q, At r.2.2 bs q) ∨ iIcnsReadData o junk isAlpha w size imgs s = .error .oobRead := by
  by_cases h8 : size - 8 < 0
  · unfold iIcnsReadData
    rw [if_pos h8]
    exact .inl ⟨_, rfl, hI, _, hA⟩
  obtain ⟨n, rfl⟩ : ∃ n : Nat, size = (n : Int) + 8 := ⟨(size - 8).toNat, by omega⟩
  obtain ⟨m, hm, hmw, hI'⟩ := slot_spec junk hw hw2 hI
  obtain ⟨data, s', -, h2, -, e⟩ := read_core L junk (n := n) hA (by omega) isAlpha imgs hm
  rw [e]
  have hmem := hI' m (List.mem_of_getElem? hm)
  rw [hmw] at hmem
  rcases store_any isAlpha (data := data) hmem.1 with e | ⟨d, e, hd⟩ | e
  · rw [e]
    exact .inl ⟨_, rfl, hI', h2⟩
  · rw [e, bind_ok]
    refine .inl ⟨_, rfl, fun m' hm' => ?_, h2⟩
    rcases List.mem_or_eq_of_mem_set hm' with h | h
    · exact hI' m' h
    · rw [h]
      show d.length = m.width * m.width * 4 ∧ m.size = d.length
      rw [hmw, hd, hmem.2, hmem.1]
      exact ⟨rfl, rfl⟩
  · rw [e]
    exact .inr rfl

theorem kind_width {id : List UInt8} {b : Bool} {w : Nat} (h : kindOf id = some (b, w)) : 0 < w ∧ w ≤ 128 := by
  unfold kindOf at h
  repeat' split at h
  all_goals first
    | cases h; decide
    | cases h

theorem one_field (L : Laws o At) (junk : Nat → UInt8) {bs : List UInt8} {p : Nat} {s : σ} (hA : At s bs p) : Holds (head o junk [u32f] s) (fun r => (fld r.1 0).length = 4) := by
  unfold head
  refine (L.read 4 1 hA (by decide) (by decide)).bind (fun r hr => ?_)
  obtain ⟨g, n, s1⟩ := r
  obtain ⟨h4, -, -⟩ := hr
  simp only [] at h4 ⊢
  refine Holds.pure ?_
  show (g ++ (alloc junk 4).drop g.length).length = 4
  have := at_length bs p (4 * 1)
  rw [← h4] at this
  rw [List.length_append, List.length_drop, alloc_length]; omega

/-- A field of four bytes is below 2^32. -/
theorem second_lt (L : Laws o At) (junk : Nat → UInt8) {bs : List UInt8} {p : Nat} {s : σ} (hA : At s bs p) : Holds (head o junk [u32f, u32f] s) (fun r => fbe r.1 1 < 4294967296) := by
  have e : head o junk [u32f, u32f] s = (do
    let (got, _, s) ← o.read s 4 1
    let (h, s) ← head o junk [u32f] s
    pure ((got ++ (alloc junk (4 * 1)).drop got.length) :: h, s)) := rfl
  rw [e]
  refine (L.read 4 1 hA (by decide) (by decide)).bind (fun r hr => ?_)
  obtain ⟨g, n, s1⟩ := r
  obtain ⟨-, -, h3⟩ := hr
  simp only [] at h3 ⊢
  refine (one_field L junk h3).bind (fun r hr => Holds.pure ?_)
  show be (fld r.1 0) < _
  have := le_lt (fld r.1 0).reverse
  rw [List.length_reverse, hr] at this
  exact this

theorem toInt_lt {n : Nat} (h : n < 4294967296) : Lump.toInt n < 2147483648 := by
  unfold Lump.toInt
  split <;> omega

/-- Asking for the end keeps the input. -/
def EofAny {σ : Type} (o : Ops σ) (At : σ → List UInt8 → Nat → Prop) : Prop := ∀ {s all p}, At s all p → ∃ q, At (o.eof s).2 all q

theorem fileEofAny : EofAny fileOps FileAt := by
  rintro s all p ⟨rfl, hst, rfl, hl⟩
  show ∃ q, FileAt (Cache.iEofFile s).2 _ q
  unfold Cache.iEofFile Cache.iTellRFile
  rw [seek_end]
  simp only []
  rw [seek_set _ _ (by exact hst)]
  split
  · exact ⟨_, rfl, hst, rfl, hl⟩
  · exact ⟨_, rfl, hst, rfl, hl⟩

theorem lumpEofAny : EofAny lumpOps LumpAt := fun h => ⟨_, h⟩

/-- Whatever the entries are, only reading outside the data and going on without an end can go wrong. -/
theorem entries_any (L : Laws2 o At) (E : EofAny o At) (junk : Nat → UInt8) {bs : List UInt8} (size : Int) : ∀ (f : Nat) (imgs : List Img) (s : σ), Inv imgs → (∃ q, At s bs q) →
    (∃ r, entries o junk size f imgs s = .ok r ∧ Inv r.2.1 ∧ ∃ q, At r.2.2 bs q) ∨ entries o junk size f imgs s = .error .oobRead ∨ entries o junk size f imgs s = .error .hang := by
  intro f
  induction f with
  | zero => intro imgs s _ _; exact .inr (.inr rfl)
  | succ f ih =>
    rintro imgs s hI ⟨q, hA⟩
    unfold entries
    by_cases ht : Lump.toInt (o.tell s) < size
    · rw [if_pos ht]
      have hE := E hA
      obtain ⟨q1, hA1⟩ := hE
      generalize o.eof s = es at hA1
      obtain ⟨e, s1⟩ := es
      simp only [] at hA1 ⊢
      cases e with
      | true => exact .inl ⟨_, rfl, hI, _, hA1⟩
      | false =>
        rw [if_neg (by decide)]
        obtain ⟨⟨h, s2⟩, e2, ⟨⟨q2, hA2⟩, -⟩, hlt⟩ := Rot.Holds.both (head_spec L.toLaws junk bs [u32f, u32f] s1 q1 hA1 (by decide)) (second_lt L.toLaws junk hA1)
        rw [e2, bind_ok]
        simp only [] at hlt hA2 ⊢
        cases hk : kindOf (fld h 0) with
        | some bw =>
          obtain ⟨b, w⟩ := bw
          obtain ⟨w1, w2⟩ := kind_width hk
          simp only []
          rcases read_any L junk hA2 w1 w2 b hI (toInt_lt hlt) with ⟨⟨ok, imgs', s3⟩, e3, hI', hA3⟩ | e3
          · rw [e3, bind_ok]
            simp only []
            cases ok with
            | true => rw [if_pos rfl]; exact ih imgs' s3 hI' hA3
            | false => exact .inl ⟨_, rfl, hI', hA3⟩
          · rw [e3]
            exact .inr (.inl rfl)
        | none =>
          simp only []
          obtain ⟨⟨b, s3⟩, e3, hA3, -⟩ := L.seekCur (Lump.toInt (fbe h 1) - 8) hA2
          rw [e3, bind_ok]
          exact ih imgs s3 hI hA3
    · rw [if_neg ht]
      exact .inl ⟨_, rfl, hI, _, hA⟩

/-- One turn of the loop over the entries. -/
theorem entry_step (L : Laws2 o At) (E : EofLaw o At) (junk : Nat → UInt8) {bs : List UInt8} {p : Nat} {size : Int} {s : σ} (hA : At s bs p) (hp : p + 8 ≤ bs.length) (hs : (p : Int) < size) :
    ∃ s', At s' bs (p + 8) ∧ ∀ f imgs, entries o junk size (f + 1) imgs s = (match kindOf (at_ bs p 4) with
        | some (isAlpha, w) => do
          let (ok, imgs, s) ← iIcnsReadData o junk isAlpha w (Lump.toInt (beAt bs (p + 4) 4)) imgs s'
          if ok then entries o junk size f imgs s else pure (false, imgs, s)
        | none => do
          let (_, s) ← o.seek s' (Lump.toInt (beAt bs (p + 4) 4) - 8) SEEK_CUR
          entries o junk size f imgs s) := by
  have hlen := L.len hA
  obtain ⟨h1, h2⟩ := E hA (by omega) (by omega)
  obtain ⟨⟨h, s2⟩, e2, -, p2, v2⟩ := head_spec L.toLaws junk bs [u32f, u32f] _ p h2 (by decide)
  have p2 : At s2 bs (p + 8) := p2 (by show p + 8 ≤ _; omega)
  have m0 : fld h 0 = at_ bs p 4 := v2 0 u32f rfl (by show p + 0 + 4 ≤ _; omega)
  have m1 : fbe h 1 = beAt bs (p + 4) 4 := by unfold fbe; rw [v2 1 u32f rfl (by show p + 4 + 4 ≤ _; omega)]; rfl
  refine ⟨s2, p2, fun f imgs => ?_⟩
  rw [entries, L.tellAt hA (by omega), if_pos (by unfold Lump.toInt; rw [if_pos (by omega)]; exact hs)]
  simp only []
  rw [h1, decide_eq_false (by omega), if_neg (by decide), e2, bind_ok]
  simp only [m0, m1]
  cases kindOf (at_ bs p 4) <;> rfl

theorem entries_end (L : Laws2 o At) (junk : Nat → UInt8) {bs : List UInt8} {f : Nat} {imgs : List Img} {s : σ} (hA : At s bs bs.length) :
    entries o junk (bs.length : Int) (f + 1) imgs s = .ok (true, imgs, s) := by
  have hlen := L.len hA
  rw [entries, L.tellAt hA (Nat.le_refl _), if_neg (by unfold Lump.toInt; rw [if_pos hlen]; omega)]
  rfl

end DevIL.Icns
