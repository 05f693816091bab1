import Verif.Model.Mp3
import Verif.Spec.Mp3
import Verif.Lemmas.Games
import Verif.Lemmas.PsdG
import Verif.Lemmas.IcnsB
/-! MP3: the frames. -/
set_option autoImplicit false
namespace DevIL.Mp3
open DevIL.Games DevIL.Detect DevIL.Image DevIL.DetectSpec DevIL.Mp3Spec
open DevIL.Lump (SEEK_SET SEEK_CUR)
open DevIL.Psd (EofLaw)

variable {σ : Type} {o : Ops σ} {At : σ → List UInt8 → Nat → Prop}

theorem cstr_spec (L : Laws2 o At) {bs : List UInt8} : ∀ (t : List UInt8) (n p : Nat) (acc : List UInt8) (s : σ), At s bs p → StringAt bs p t → t.length < n →
    ∃ s', cstr o n acc s = .ok (acc ++ t, s') ∧ At s' bs (p + (t.length + 1)) := by
  intro t
  induction t with
  | nil =>
    intro n p acc s hA hS hn
    obtain ⟨-, hz⟩ := hS
    obtain ⟨n, rfl⟩ : ∃ m, n = m + 1 := ⟨n - 1, by simp only [List.length_nil] at hn; omega⟩
    have hp : bs[p]? = some 0 := by
      have := congrArg (fun l => l[0]?) hz
      unfold at_ at this
      simpa [List.getElem?_take, List.getElem?_drop] using this
    have hlt : p < bs.length := (List.getElem?_eq_some_iff.1 hp).1
    obtain ⟨⟨c, s1⟩, e, -, g⟩ := L.getc hA
    obtain ⟨g1, g2⟩ := g hlt
    simp only [] at g1 g2
    rw [hp] at g1
    subst g1
    refine ⟨s1, ?_, g2⟩
    unfold cstr
    rw [e, bind_ok]
    simp only []
    rw [if_pos trivial, List.append_nil]
    rfl
  | cons a t ih =>
    intro n p acc s hA hS hn
    obtain ⟨hnz, hz⟩ := hS
    simp only [List.length_cons] at hn hz
    obtain ⟨n, rfl⟩ : ∃ m, n = m + 1 := ⟨n - 1, by omega⟩
    have hp : bs[p]? = some a := by
      have := congrArg (fun l => l[0]?) hz
      unfold at_ at this
      simpa [List.getElem?_take, List.getElem?_drop] using this
    have hlt : p < bs.length := (List.getElem?_eq_some_iff.1 hp).1
    obtain ⟨⟨c, s1⟩, e, -, g⟩ := L.getc hA
    obtain ⟨g1, g2⟩ := g hlt
    simp only [] at g1 g2
    rw [hp] at g1
    subst g1
    have hrest : StringAt bs (p + 1) t := by
      refine ⟨fun c hc => hnz c (List.mem_cons_of_mem _ hc), ?_⟩
      have := congrArg List.tail hz
      unfold at_ at this ⊢
      rw [List.cons_append, List.tail_cons] at this
      rw [← this, ← List.drop_one, List.drop_take, List.drop_drop]
      rfl
    obtain ⟨s', e', A'⟩ := ih n (p + 1) (acc ++ [a]) s1 g2 hrest (by omega)
    refine ⟨s', ?_, by rw [List.length_cons, show p + (t.length + 1 + 1) = p + 1 + (t.length + 1) by omega]; exact A'⟩
    unfold cstr
    rw [e, bind_ok]
    simp only []
    rw [if_neg (hnz a (by simp)), e', List.append_assoc]
    rfl

theorem at_in {bs : List UInt8} {p n : Nat} {l : List UInt8} (h : at_ bs p n = l) (hl : l.length = n) (h0 : 0 < n) : p + n ≤ bs.length := by
  have := at_length bs p n
  rw [h, hl] at this
  omega

/-- The frame with the picture. -/
theorem apic_spec (L : Laws2 o At) {bs : List UInt8} {q place : Nat} {mime desc : List UInt8} (hm : mime.length < 65) (P : PictureAt bs q mime desc place) {s : σ} (hA : At s bs (q + 10)) :
    ∃ s', apicFrame o s = .ok (if mime = jpeg then 1 else if mime = png then 2 else 0, s') ∧ At s' bs place := by
  have h1 := at_in P.mimeAt.2 (by rw [List.length_append]; rfl) (by omega)
  have h2 := at_in P.descAt.2 (by rw [List.length_append]; rfl) (by omega)
  obtain ⟨⟨c1, s1⟩, e1, -, g1⟩ := L.getc hA
  obtain ⟨-, A1⟩ := g1 (by omega)
  obtain ⟨s2, e2, A2⟩ := cstr_spec L mime 65 (q + 11) [] s1 A1 P.mimeAt hm
  obtain ⟨⟨c3, s3⟩, e3, -, g3⟩ := L.getc A2
  obtain ⟨-, A3⟩ := g3 (by omega)
  obtain ⟨s4, e4, A4⟩ := cstr_spec L desc 65 _ [] s3 A3 P.descAt P.short
  rw [List.nil_append] at e2 e4
  refine ⟨s4, ?_, by rw [P.at_]; exact A4⟩
  unfold apicFrame
  rw [e1, bind_ok]
  simp only []
  rw [e2, bind_ok]
  simp only []
  rw [e3, bind_ok]
  simp only []
  rw [e4, bind_ok]
  rfl

/-- The head of a frame. -/
theorem frame_head (L : Laws2 o At) (junk : Nat → UInt8) (length f : Nat) {bs : List UInt8} {p : Nat} {s : σ} (hA : At s bs p) (hp : p + 10 ≤ bs.length) :
    ∃ s', At s' bs (p + 10) ∧ iFindMp3Pic o junk 3 length (f + 1) s = (if at_ bs p 4 = apic then apicFrame o s'
      else do
        let (_, s) ← o.seek s' (Lump.toInt (beAt bs (p + 4) 4)) SEEK_CUR
        let (e, s) := o.eof s
        if !e && decide (o.tell s < length) then iFindMp3Pic o junk 3 length f s else pure (0, s)) := by
  obtain ⟨⟨k, id, s1⟩, e1, h1, h2, A1⟩ := into_spec L (alloc junk 4) 4 1 hA (by decide) (by decide) (by rw [alloc_length])
  simp only [] at h1 h2 A1
  have hl : (at_ bs p (4 * 1)).length = 4 := by rw [at_length]; omega
  rw [hl] at h1 h2 A1
  rw [List.drop_of_length_le (by rw [alloc_length]), List.append_nil] at h2
  obtain ⟨⟨h, s2⟩, e2, -, p2, v2⟩ := head_spec L.toLaws junk bs [u32f, u16] s1 (p + 4) A1 (by decide)
  have A2 : At s2 bs (p + 10) := p2 (by show p + 4 + 6 ≤ _; omega)
  have m0 : fbe h 0 = beAt bs (p + 4) 4 := by unfold fbe; rw [v2 0 u32f rfl (by show p + 4 + 0 + 4 ≤ _; omega)]; rfl
  refine ⟨s2, A2, ?_⟩
  rw [iFindMp3Pic, e1, bind_ok]
  simp only []
  rw [if_neg (by rw [h1]; decide), e2, bind_ok]
  simp only []
  rw [if_pos trivial, m0, h2]
  rfl

theorem find_frames (L : Laws2 o At) (E : EofLaw o At) (junk : Nat → UInt8) {bs : List UInt8} {k p q : Nat} (F : Frames bs k p q) : ∀ (f : Nat) (s : σ), At s bs p → p + 10 ≤ bs.length → q + 10 ≤ bs.length →
    ∃ s', At s' bs q ∧ iFindMp3Pic o junk 3 (tagLength bs) (f + k + 1) s = iFindMp3Pic o junk 3 (tagLength bs) (f + 1) s' := by
  induction F with
  | here p => intro f s hA _ _; exact ⟨s, hA, rfl⟩
  | skip k p q other small inFile inTag rest ih =>
    intro f s hA hp hq
    obtain ⟨s1, A1, e1⟩ := frame_head L junk (tagLength bs) (f + k + 1) hA hp
    rw [if_neg other] at e1
    generalize beAt bs (p + 4) 4 = n at *
    have h31 : (2 : Nat) ^ 31 = 2147483648 := by decide
    have ht : Lump.toInt n = (n : Int) := by unfold Lump.toInt; rw [if_pos (by omega)]
    obtain ⟨⟨u, s2⟩, e2, -, g2⟩ := L.seekCur (n : Int) A1
    have A2 : At s2 bs (p + 10 + n) := g2 (p + 10 + n) (by omega) (by omega)
    obtain ⟨e3, A3⟩ := E A2 (by omega) (by omega)
    rw [decide_eq_false (by omega)] at e3
    have hnext : p + 10 + n + 10 ≤ bs.length := by
      cases rest with
      | here => exact hq
      | skip k' _ _ o' s' i' => omega
    obtain ⟨s4, A4, e4⟩ := ih f (o.eof s2).2 A3 hnext hq
    refine ⟨s4, A4, ?_⟩
    rw [show f + (k + 1) + 1 = f + k + 1 + 1 by omega, e1, ht, e2, bind_ok]
    simp only []
    rw [e3, L.tellAt A3 (by omega), decide_eq_true inTag]
    exact e4

theorem synch_be {bs : List UInt8} {p : Nat} (hp : p + 4 ≤ bs.length) : synch (beAt bs p 4) = synchAt bs p := by
  have hl : (at_ bs p 4).length = 4 := by rw [at_length]; omega
  have g : ∀ i, i < 4 → at_ bs (p + i) 1 = ((at_ bs p 4).drop i).take 1 := by
    intro i hi
    unfold at_
    rw [List.drop_take, List.drop_drop, List.take_take, show min 1 (4 - i) = 1 by omega]
  unfold synch synchAt beAt
  rw [show at_ bs p 1 = at_ bs (p + 0) 1 by rfl, g 0 (by decide), g 1 (by decide), g 2 (by decide), g 3 (by decide)]
  match at_ bs p 4, hl with
  | [a, b, c, d], _ =>
    have := a.toNat_lt; have := b.toNat_lt; have := c.toNat_lt; have := d.toNat_lt
    simp only [be, le, List.reverse_cons, List.reverse_nil, List.nil_append, List.cons_append, List.drop_zero, List.drop_succ_cons, List.take_succ_cons, List.take_zero]
    omega

/-- A string without an end among its 65 bytes. -/
theorem cstr_long (L : Laws2 o At) {bs : List UInt8} : ∀ (n p : Nat) (acc : List UInt8) (s : σ), At s bs p → p + n ≤ bs.length → (∀ c ∈ at_ bs p n, c ≠ 0) → cstr o n acc s = .error .oobRead := by
  intro n
  induction n with
  | zero => intros; rfl
  | succ n ih =>
    intro p acc s hA hp hz
    obtain ⟨⟨c, s1⟩, e, -, g⟩ := L.getc hA
    obtain ⟨g1, g2⟩ := g (by omega)
    simp only [] at g1 g2
    have hc : at_ bs p (n + 1) = bs[p]'(by omega) :: at_ bs (p + 1) n := by
      unfold at_
      rw [List.drop_eq_getElem_cons (by omega), List.take_succ_cons]
    rw [List.getElem?_eq_getElem (by omega)] at g1
    subst g1
    rw [hc] at hz
    unfold cstr
    rw [e, bind_ok]
    simp only []
    rw [if_neg (hz _ (by simp))]
    exact ih (p + 1) _ s1 g2 (by omega) (fun c h => hz c (List.mem_cons_of_mem _ h))

theorem apic_long (L : Laws2 o At) {bs : List UInt8} {q : Nat} {s : σ} (hA : At s bs (q + 10)) (hq : q + 76 ≤ bs.length) (hz : ∀ c ∈ at_ bs (q + 11) 65, c ≠ 0) : apicFrame o s = .error .oobRead := by
  obtain ⟨⟨c1, s1⟩, e1, -, g1⟩ := L.getc hA
  obtain ⟨-, A1⟩ := g1 (by omega)
  unfold apicFrame
  rw [e1, bind_ok]
  simp only []
  rw [cstr_long L 65 (q + 11) [] s1 A1 (by omega) hz]
  rfl

/-- Whatever the bytes are, the only fault in a string is to read beyond its block. -/
theorem cstr_any (L : Laws2 o At) {bs : List UInt8} : ∀ (n : Nat) (acc : List UInt8) (s : σ), (∃ q, At s bs q) → (∃ r, cstr o n acc s = .ok r ∧ ∃ q, At r.2 bs q) ∨ cstr o n acc s = .error .oobRead := by
  intro n
  induction n with
  | zero => intros; exact .inr rfl
  | succ n ih =>
    rintro acc s ⟨q, hA⟩
    obtain ⟨⟨c, s1⟩, e, g, -⟩ := L.getc hA
    unfold cstr
    rw [e, bind_ok]
    simp only [] at g ⊢
    cases c with
    | none => exact ih _ s1 g
    | some c =>
      simp only []
      by_cases hd : c = 0
      · rw [if_pos hd]; exact .inl ⟨_, rfl, g⟩
      · rw [if_neg hd]; exact ih _ s1 g

theorem apic_any (L : Laws2 o At) {bs : List UInt8} {s : σ} (hA : ∃ q, At s bs q) : (∃ r, apicFrame o s = .ok r ∧ ∃ q, At r.2 bs q) ∨ apicFrame o s = .error .oobRead := by
  obtain ⟨q, hA⟩ := hA
  obtain ⟨⟨c1, s1⟩, e1, g1, -⟩ := L.getc hA
  unfold apicFrame
  rw [e1, bind_ok]
  simp only [] at g1 ⊢
  rcases cstr_any L 65 [] s1 g1 with ⟨⟨m, s2⟩, e2, q2, g2⟩ | e2
  · rw [e2, bind_ok]
    obtain ⟨⟨c3, s3⟩, e3, g3, -⟩ := L.getc g2
    simp only [] at g3 ⊢
    rw [e3, bind_ok]
    simp only []
    rcases cstr_any L 65 [] s3 g3 with ⟨⟨m4, s4⟩, e4, g4⟩ | e4
    · rw [e4, bind_ok]; exact .inl ⟨_, rfl, g4⟩
    · rw [e4]; exact .inr rfl
  · rw [e2]; exact .inr rfl

theorem find_any (L : Laws2 o At) (E : Icns.EofAny o At) (junk : Nat → UInt8) {bs : List UInt8} (major : UInt8) (length : Nat) : ∀ (f : Nat) (s : σ), (∃ q, At s bs q) →
    (∃ r, iFindMp3Pic o junk major length f s = .ok r ∧ ∃ q, At r.2 bs q) ∨ iFindMp3Pic o junk major length f s = .error .oobRead ∨ iFindMp3Pic o junk major length f s = .error .hang := by
  intro f
  induction f with
  | zero => intros; exact .inr (.inr rfl)
  | succ f ih =>
    rintro s ⟨q, hA⟩
    obtain ⟨⟨k, id, s1⟩, e1, -, -, A1⟩ := into_spec L (alloc junk 4) 4 1 hA (by decide) (by decide) (by rw [alloc_length])
    rw [iFindMp3Pic, e1, bind_ok]
    simp only [] at A1 ⊢
    by_cases hk : k ≠ 1
    · rw [if_pos hk]; exact .inl ⟨_, rfl, _, A1⟩
    rw [if_neg hk]
    obtain ⟨⟨h, s2⟩, e2, A2, -⟩ := head_spec L.toLaws junk bs [u32f, u16] s1 _ A1 (by decide)
    rw [e2, bind_ok]
    simp only [] at A2 ⊢
    generalize (if major = 3 then fbe h 0 else synch (fbe h 0)) = size
    by_cases hid : id = [65, 80, 73, 67]
    · rw [if_pos hid]
      rcases apic_any L A2 with h | h
      · exact .inl h
      · exact .inr (.inl h)
    · rw [if_neg hid]
      obtain ⟨q2, A2⟩ := A2
      obtain ⟨⟨u, s3⟩, e3, ⟨q3, A3⟩, -⟩ := L.seekCur (Lump.toInt size) A2
      rw [e3, bind_ok]
      simp only [] at A3 ⊢
      have A4 := E A3
      by_cases hc : (!(o.eof s3).1 && decide (o.tell (o.eof s3).2 < length)) = true
      · rw [if_pos hc]; exact ih _ A4
      · rw [if_neg hc]; exact .inl ⟨_, rfl, A4⟩

/-- A first frame that leads back to itself. -/
theorem find_hang (L : Laws2 o At) (E : EofLaw o At) (junk : Nat → UInt8) {bs : List UInt8} {p : Nat} (hp : p + 10 ≤ bs.length) (hid : at_ bs p 4 ≠ apic) (hn : beAt bs (p + 4) 4 = 4294967286) (hin : p < tagLength bs) :
    ∀ (f : Nat) (s : σ), At s bs p → iFindMp3Pic o junk 3 (tagLength bs) f s = .error .hang := by
  intro f
  induction f with
  | zero => intros; rfl
  | succ f ih =>
    intro s hA
    obtain ⟨s1, A1, e1⟩ := frame_head L junk (tagLength bs) f hA hp
    rw [if_neg hid, hn] at e1
    obtain ⟨⟨u, s2⟩, e2, -, g2⟩ := L.seekCur (-10) A1
    have A2 : At s2 bs p := g2 p (by omega) (by omega)
    obtain ⟨e3, A3⟩ := E A2 (by omega) (by omega)
    rw [decide_eq_false (by omega)] at e3
    rw [e1, show Lump.toInt 4294967286 = -10 by decide, e2, bind_ok]
    simp only []
    rw [e3, L.tellAt A3 (by omega), decide_eq_true hin]
    exact ih _ A3

/-- The head of the tag. -/
theorem load_head (L : Laws2 o At) (junk : Nat → UInt8) (jpg png : σ → C (Bool × List Img × σ)) (fuel : Nat) (cur : Img) {bs : List UInt8} {s : σ} (hA : At s bs 0) (hs : at_ bs 0 3 = [73, 68, 51]) (h10 : 10 ≤ bs.length) :
    ∃ s', At s' bs 10 ∧ iLoadMp3Internal o junk jpg png fuel cur s = (if at_ bs 3 1 ≠ [3] ∧ at_ bs 4 1 ≠ [4] then pure (false, [cur], s')
      else do
        let (type, s) ← iFindMp3Pic o junk ((at_ bs 3 1).headD 0) (tagLength bs) fuel s'
        if type = 1 then jpg s else if type = 2 then png s else pure (false, [cur], s)) := by
  obtain ⟨⟨k, id, s1⟩, e1, h1, h2, A1⟩ := into_spec L (alloc junk 3) 3 1 hA (by decide) (by decide) (by rw [alloc_length])
  simp only [] at h1 h2 A1
  have hl : (at_ bs 0 (3 * 1)).length = 3 := by rw [at_length]; omega
  rw [hl] at h1 h2 A1
  rw [List.drop_of_length_le (by rw [alloc_length]), List.append_nil] at h2
  rw [show 3 * 1 = 3 by rfl, hs] at h2
  obtain ⟨⟨h, s2⟩, e2, -, p2, v2⟩ := head_spec L.toLaws junk bs [.getc, .getc, .getc, u32f] s1 (0 + 3) A1 (by decide)
  have A2 : At s2 bs 10 := p2 (by show 0 + 3 + 7 ≤ _; omega)
  have m0 : fld h 0 = at_ bs 3 1 := v2 0 .getc rfl (by show 0 + 3 + 0 + 1 ≤ _; omega)
  have m1 : fld h 1 = at_ bs 4 1 := v2 1 .getc rfl (by show 0 + 3 + 1 + 1 ≤ _; omega)
  have m3 : fbe h 3 = beAt bs 6 4 := by unfold fbe; rw [v2 3 u32f rfl (by show 0 + 3 + 3 + 4 ≤ _; omega)]; rfl
  refine ⟨s2, A2, ?_⟩
  unfold iLoadMp3Internal
  rw [e1, bind_ok]
  simp only []
  rw [if_neg (by rw [h1]; decide), e2, bind_ok]
  simp only []
  rw [if_neg (by rw [h2]; simp), m0, m1, m3, synch_be (by omega)]
  rfl

theorem load_any (L : Laws2 o At) (E : Icns.EofAny o At) (junk : Nat → UInt8) (jpg png : σ → C (Bool × List Img × σ)) (fuel : Nat) (cur : Img) {bs : List UInt8} {s : σ} (hA : At s bs 0) (P : Bool → List Img → Prop) (h0 : P false [cur])
    (hj : ∀ s, (∃ q, At s bs q) → Holds (jpg s) (fun r => P r.1 r.2.1)) (hg : ∀ s, (∃ q, At s bs q) → Holds (png s) (fun r => P r.1 r.2.1)) :
    (∃ r, iLoadMp3Internal o junk jpg png fuel cur s = .ok r ∧ P r.1 r.2.1) ∨ iLoadMp3Internal o junk jpg png fuel cur s = .error .oobRead ∨ iLoadMp3Internal o junk jpg png fuel cur s = .error .hang := by
  obtain ⟨⟨k, id, s1⟩, e1, -, -, A1⟩ := into_spec L (alloc junk 3) 3 1 hA (by decide) (by decide) (by rw [alloc_length])
  unfold iLoadMp3Internal
  rw [e1, bind_ok]
  simp only [] at A1 ⊢
  by_cases hk : k ≠ 1
  · rw [if_pos hk]; exact .inl ⟨_, rfl, h0⟩
  rw [if_neg hk]
  obtain ⟨⟨h, s2⟩, e2, A2, -⟩ := head_spec L.toLaws junk bs [.getc, .getc, .getc, u32f] s1 _ A1 (by decide)
  rw [e2, bind_ok]
  simp only [] at A2 ⊢
  by_cases hid : id ≠ [73, 68, 51]
  · rw [if_pos hid]; exact .inl ⟨_, rfl, h0⟩
  rw [if_neg hid]
  by_cases hv : fld h 0 ≠ [3] ∧ fld h 1 ≠ [4]
  · rw [if_pos hv]; exact .inl ⟨_, rfl, h0⟩
  rw [if_neg hv]
  rcases find_any L E junk ((fld h 0).headD 0) (synch (fbe h 3)) fuel s2 A2 with ⟨⟨t, s3⟩, e3, A3⟩ | e3 | e3
  · rw [e3, bind_ok]
    simp only [] at A3 ⊢
    by_cases h1 : t = 1
    · rw [if_pos h1]; exact .inl (hj s3 A3)
    rw [if_neg h1]
    by_cases h2 : t = 2
    · rw [if_pos h2]; exact .inl (hg s3 A3)
    rw [if_neg h2]; exact .inl ⟨_, rfl, h0⟩
  · rw [e3]; exact .inr (.inl rfl)
  · rw [e3]; exact .inr (.inr rfl)

end DevIL.Mp3
