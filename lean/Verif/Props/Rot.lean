import Verif.Lemmas.Rot
import Verif.Props.Iwi
/-! Relic textures: C213 (complete files), C214 (files that are cut off), C215 (safety). -/
set_option autoImplicit false
namespace DevIL.Rot
open DevIL.Games DevIL.Detect DevIL.Image DevIL.DetectSpec DevIL.RotSpec DevIL.GamesSpec
open DevIL.Psd (EofLaw fileEof lumpEof)
open DevIL.Iwi (Both.mono)
open DevIL.Pic (bind_err)
open DevIL.Scitex (read_at)

/-- Loading from an open file and from memory. -/
def Loads (junk : Nat → UInt8) (fuel : Nat) (cur : Img) (bs : List UInt8) (P : Bool → List Img → Prop) : Prop :=
  Both (iLoadRotInternal fileOps junk fuel cur) (iLoadRotInternal lumpOps junk fuel cur) bs P

/-- Loading from an open file and from memory runs into this fault. -/
def Fails (junk : Nat → UInt8) (fuel : Nat) (cur : Img) (bs : List UInt8) (e : Fault) : Prop :=
  ilLoadF (iLoadRotInternal fileOps junk fuel cur) (opened bs 0) = .error e ∧ ilLoadL (iLoadRotInternal lumpOps junk fuel cur) bs bs.length = .error e

/-- A head that the loader accepts. -/
def Good (bs : List UInt8) : Prop :=
  (at_ bs 0 4 = FORM ∧ beAt bs 4 4 = 0x14 ∧ at_ bs 8 4 = HEAD) ∧ (leAt bs 20 4 = 1024 ∨ leAt bs 20 4 = 1028 ∨ leAt bs 20 4 = 1029 ∨ leAt bs 20 4 = 1030) ∧
    (0 < leAt bs 12 4 ∧ 0 < leAt bs 16 4) ∧ at_ bs 28 4 = FORM ∧ at_ bs 36 4 = MIPS

section
variable {σ : Type} {o : Ops σ} {At : σ → List UInt8 → Nat → Prop}

/-- The levels, and the result. -/
def rest (o : Ops σ) (junk : Nat → UInt8) (fuel : Nat) (cur : Img) (bs : List UInt8) (s : σ) : C (Bool × List Img × σ) := do
  let comp := if leAt bs 20 4 = 1029 ∨ leAt bs 20 4 = 1030 then some (compSize 16 (leAt bs 12 4) (leAt bs 16 4)) else none
  let (ok, ms, s) ← levels o junk (leAt bs 20 4) (leAt bs 12 4) (leAt bs 16 4) fuel ⟨FORM, MIPS, comp, [], s⟩
  pure (ok, if ms = [] then [cur] else ms, s)

theorem load_cases (L : Laws2 o At) (junk : Nat → UInt8) (fuel : Nat) (cur : Img) {bs : List UInt8} {s : σ} (hA : At s bs 0) (hl : 40 ≤ bs.length) :
    (Good bs ∧ ∃ s', At s' bs 40 ∧ iLoadRotInternal o junk fuel cur s = rest o junk fuel cur bs s') ∨
    (¬ Good bs ∧ ∃ s', (∃ q, At s' bs q) ∧ iLoadRotInternal o junk fuel cur s = .ok (false, [cur], s')) := by
  obtain ⟨⟨form, n, name, s1⟩, e1, h1, h2, h3, h4⟩ := tag_spec L junk hA (Nat.zero_le _) (alloc_length junk 4) (alloc_length junk 4)
  simp only [Nat.zero_add] at h1 h2 h3 h4
  rw [over_full (by omega) (alloc_length _ _)] at h1 h3
  have h2 := h2 (by omega)
  rw [Nat.min_eq_left (by omega)] at h4
  subst h1 h2 h3
  unfold iLoadRotInternal
  rw [e1, bind_ok]
  simp only []
  by_cases c1 : at_ bs 0 4 ≠ FORM ∨ beAt bs 4 4 ≠ 0x14 ∨ at_ bs 8 4 ≠ HEAD
  · rw [if_pos c1]
    exact .inr ⟨fun g => by rcases c1 with c | c | c; exacts [c g.1.1, c g.1.2.1, c g.1.2.2], s1, ⟨_, h4⟩, rfl⟩
  rw [if_neg c1]
  obtain ⟨⟨hd, s2⟩, e2, -, h5, h6⟩ := head_spec L.toLaws junk bs [u32f, u32f, u32f] s1 _ h4 (by decide)
  have h5 : At s2 bs 24 := h5 (by show 12 + 12 ≤ _; omega)
  have f0 : fle hd 0 = leAt bs 12 4 := by unfold fle; rw [h6 0 u32f rfl (by show 12 + 0 + 4 ≤ _; omega)]; rfl
  have f1 : fle hd 1 = leAt bs 16 4 := by unfold fle; rw [h6 1 u32f rfl (by show 12 + 4 + 4 ≤ _; omega)]; rfl
  have f2 : fle hd 2 = leAt bs 20 4 := by unfold fle; rw [h6 2 u32f rfl (by show 12 + 8 + 4 ≤ _; omega)]; rfl
  rw [e2, bind_ok]
  simp only [f0, f1, f2]
  by_cases c2 : leAt bs 20 4 ≠ 1024 ∧ leAt bs 20 4 ≠ 1028 ∧ leAt bs 20 4 ≠ 1029 ∧ leAt bs 20 4 ≠ 1030
  · rw [if_pos c2]
    exact .inr ⟨fun g => by have := g.2.1; omega, s2, ⟨_, h5⟩, rfl⟩
  rw [if_neg c2]
  by_cases c3 : leAt bs 12 4 = 0 ∨ leAt bs 16 4 = 0
  · rw [if_pos c3]
    exact .inr ⟨fun g => by have := g.2.2.1; omega, s2, ⟨_, h5⟩, rfl⟩
  rw [if_neg c3]
  obtain ⟨⟨hd', s3⟩, e3, -, h7, -⟩ := head_spec L.toLaws junk bs [u32f] s2 _ h5 (by decide)
  have h7 : At s3 bs 28 := h7 (by show 24 + 4 ≤ _; omega)
  rw [e3, bind_ok]
  simp only []
  have l4 : ∀ p, p + 4 ≤ 40 → (at_ bs p 4).length = 4 := fun p hp => by rw [at_length]; omega
  obtain ⟨⟨form', n', name', s4⟩, e4, h8, -, h9, h10⟩ := tag_spec L junk h7 (by omega) (l4 0 (by omega)) (l4 8 (by omega))
  simp only [Nat.reduceAdd] at h8 h9 h10
  rw [over_full (by omega) (l4 0 (by omega))] at h8
  rw [over_full (by omega) (l4 8 (by omega))] at h9
  rw [Nat.min_eq_left (by omega)] at h10
  subst h8 h9
  rw [e4, bind_ok]
  simp only []
  by_cases c4 : at_ bs 28 4 ≠ FORM ∨ at_ bs 36 4 ≠ MIPS
  · rw [if_pos c4]
    exact .inr ⟨fun g => by rcases c4 with c | c; exacts [c g.2.2.2.1, c g.2.2.2.2], s4, ⟨_, h10⟩, rfl⟩
  rw [if_neg c4]
  have g1 : at_ bs 28 4 = FORM := by by_contra h; exact c4 (.inl h)
  have g2 : at_ bs 36 4 = MIPS := by by_contra h; exact c4 (.inr h)
  have g3 : at_ bs 0 4 = FORM := by by_contra h; exact c1 (.inl h)
  have g4 : beAt bs 4 4 = 0x14 := by by_contra h; exact c1 (.inr (.inl h))
  have g5 : at_ bs 8 4 = HEAD := by by_contra h; exact c1 (.inr (.inr h))
  refine .inl ⟨⟨⟨g3, g4, g5⟩, by omega, by omega, g1, g2⟩, s4, h10, ?_⟩
  rw [g1, g2]
  rfl

theorem head_length {d : Doc} (h : d.Head) : d.head.length = 40 := by
  unfold Doc.head
  simp only [List.length_append, le4_length, h.channels, h.length]
  rfl

/-- The head of a document. -/
theorem head_fields {d : Doc} (H : d.Head) (hf : d.fmt < 4294967296) (x : List UInt8) :
    leAt (d.head ++ x) 12 4 = d.w ∧ leAt (d.head ++ x) 16 4 = d.h ∧ leAt (d.head ++ x) 20 4 = d.fmt ∧
      ((d.fmt = 1024 ∨ d.fmt = 1028 ∨ d.fmt = 1029 ∨ d.fmt = 1030) → Good (d.head ++ x)) := by
  have w1 := H.w1
  have h1 := H.h1
  have lf : FORM.length = 4 := rfl
  have lh : HEAD.length = 4 := rfl
  have lm : MIPS.length = 4 := rfl
  have l20 : ([0, 0, 0, 20] : List UInt8).length = 4 := rfl
  have a0 : at_ (d.head ++ x) 0 4 = FORM := rfl
  have a4 : at_ (d.head ++ x) 4 4 = [0, 0, 0, 20] := rfl
  have a8 : at_ (d.head ++ x) 8 4 = HEAD := rfl
  have a12 : at_ (d.head ++ x) 12 4 = le4 d.w := at_mid (a := FORM ++ [0, 0, 0, 20] ++ HEAD) (b := le4 d.w) (c := le4 d.h ++ le4 d.fmt ++ d.channels ++ (FORM ++ d.length ++ MIPS) ++ x) _
    (by unfold Doc.head; simp only [List.append_assoc]) rfl (le4_length _)
  have a16 : at_ (d.head ++ x) 16 4 = le4 d.h := at_mid (a := FORM ++ [0, 0, 0, 20] ++ HEAD ++ le4 d.w) (b := le4 d.h) (c := le4 d.fmt ++ d.channels ++ (FORM ++ d.length ++ MIPS) ++ x) _
    (by unfold Doc.head; simp only [List.append_assoc]) (by simp only [List.length_append, le4_length, lf, lh, l20]) (le4_length _)
  have a20 : at_ (d.head ++ x) 20 4 = le4 d.fmt := at_mid (a := FORM ++ [0, 0, 0, 20] ++ HEAD ++ le4 d.w ++ le4 d.h) (b := le4 d.fmt) (c := d.channels ++ (FORM ++ d.length ++ MIPS) ++ x) _
    (by unfold Doc.head; simp only [List.append_assoc]) (by simp only [List.length_append, le4_length, lf, lh, l20]) (le4_length _)
  have a28 : at_ (d.head ++ x) 28 4 = FORM := at_mid (a := FORM ++ [0, 0, 0, 20] ++ HEAD ++ le4 d.w ++ le4 d.h ++ le4 d.fmt ++ d.channels) (b := FORM) (c := d.length ++ MIPS ++ x) _
    (by unfold Doc.head; simp only [List.append_assoc]) (by simp only [List.length_append, le4_length, lf, lh, l20, H.channels]) rfl
  have a36 : at_ (d.head ++ x) 36 4 = MIPS := at_mid (a := FORM ++ [0, 0, 0, 20] ++ HEAD ++ le4 d.w ++ le4 d.h ++ le4 d.fmt ++ d.channels ++ FORM ++ d.length) (b := MIPS) (c := x) _
    (by unfold Doc.head; simp only [List.append_assoc]) (by simp only [List.length_append, le4_length, lf, lh, l20, H.channels, H.length]) rfl
  have e12 : leAt (d.head ++ x) 12 4 = d.w := by unfold leAt; rw [a12]; exact le_le4 w1
  have e16 : leAt (d.head ++ x) 16 4 = d.h := by unfold leAt; rw [a16]; exact le_le4 h1
  have e20 : leAt (d.head ++ x) 20 4 = d.fmt := by unfold leAt; rw [a20]; exact le_le4 hf
  refine ⟨e12, e16, e20, fun hfm => ⟨⟨a0, ?_, a8⟩, by rw [e20]; exact hfm, by rw [e12, e16]; exact ⟨H.w0, H.h0⟩, a28, a36⟩⟩
  unfold beAt
  rw [a4]
  decide

theorem load_levels (L : Laws2 o At) (junk : Nat → UInt8) (fuel : Nat) (cur : Img) {d : Doc} (H : d.Head) {dxt : Nat} (hc : Coded d.fmt dxt) (x : List UInt8) {s : σ} (hA : At s (d.head ++ x) 0) :
    ∃ s', At s' (d.head ++ x) d.head.length ∧ iLoadRotInternal o junk fuel cur s = (do
      let (ok, ms, s) ← levels o junk d.fmt d.w d.h fuel ⟨FORM, MIPS, some (compSize 16 d.w d.h), [], s'⟩
      pure (ok, if ms = [] then [cur] else ms, s)) := by
  have hfm : d.fmt = 1029 ∨ d.fmt = 1030 := by rcases hc with h | h <;> simp [h.1]
  obtain ⟨f1, f2, f3, f4⟩ := head_fields H (by omega) x
  rcases load_cases L junk fuel cur hA (by rw [List.length_append, head_length H]; omega) with ⟨-, s', h1, h2⟩ | ⟨h, -⟩
  · refine ⟨s', by rw [head_length H]; exact h1, ?_⟩
    rw [h2]
    unfold rest
    simp only [f1, f2, f3]
    rw [if_pos hfm]
  · exact absurd (f4 (by omega)) h

end

/-- The image shows what `ilDxtcDataToSurface` makes of the blocks of the level; its origin is the lower left. -/
def Is (junk : Nat → UInt8) (dxt : Nat) (l : Level) (m : Img) : Prop :=
  m.origin = IL_ORIGIN_LOWER_LEFT ∧ DdsSave.Made junk l.data dxt 0 l.w l.h { m with origin := IL_ORIGIN_UPPER_LEFT }

/-- The bytes of DXT3 and DXT5 blocks. -/
def blocks (w h : Nat) : Nat := DxtSpec.bytes 16 w h 1

/-! ### C213 -/

/-- **C213.** Every ROT file with DXT3 or DXT5 data and any number of levels, each at most as large as the one before, that is followed by nothing or by anything that is not a chunk, is
loaded from a file and from memory with all its levels, and each shows what `ilDxtcDataToSurface` makes of its own blocks; the origin of all is the lower left. -/
theorem C213_levels (junk : Nat → UInt8) (fuel : Nat) (cur : Img) (d : Doc) (H : d.Head) {dxt : Nat} (hc : Coded d.fmt dxt) (harea : d.w * d.h < 2 ^ 27) (hd : Descend blocks d.w d.h d.levels)
    (hne : d.levels ≠ []) (hr : Rest d.rest) (hl : d.bytes.length < 2147483648) (hf : d.levels.length < fuel) :
    Loads junk fuel cur d.bytes (fun ok ms => ok = true ∧ ms.length = d.levels.length ∧ ∀ (i : Nat) l m, d.levels[i]? = some l → ms[i]? = some m → Is junk dxt l m) := by
  have hdx : dxt = IL_DXT1 ∨ dxt = IL_DXT3 ∨ dxt = IL_DXT5 := by rcases hc with ⟨-, rfl⟩ | ⟨-, rfl⟩ <;> simp
  have main : ∀ {σ : Type} {o : Ops σ} {At : σ → List UInt8 → Nat → Prop}, Laws2 o At → EofLaw o At → ∀ s, At s d.bytes 0 →
      Holds (iLoadRotInternal o junk fuel cur s) (fun r => (r.1 = true ∧ r.2.1.length = d.levels.length ∧ ∀ (i : Nat) l m, d.levels[i]? = some l → r.2.1[i]? = some m → Is junk dxt l m) ∧
        ∃ q, At r.2.2 d.bytes q) := by
    intro σ o At L E s hA
    obtain ⟨s', hA', e⟩ := load_levels L junk fuel cur H hc ((d.levels.map Level.bytes).flatten ++ d.rest) hA
    rw [e]
    have S : Sides d.w d.h := ⟨H.w0, H.h0, harea⟩
    refine (levels_ok L E junk hc S d.levels fuel _ d.head d.rest _ d.w d.h ⟨FORM, MIPS, some (compSize 16 d.w d.h), [], s'⟩ hf rfl hA' rfl rfl rfl
      (by rw [(comp_eq H.w0 H.h0 harea).1]) (Nat.le_refl _) (Nat.le_refl _) hd hr (fun h => absurd h hne)).bind (fun r hr => Holds.pure ?_)
    obtain ⟨ok, ms, s2⟩ := r
    obtain ⟨h1, ⟨ms', h2, h3, h4⟩, h5⟩ := hr
    simp only [List.nil_append] at h1 h2 h5
    subst h1 h2
    have hne' : ms ≠ [] := by rintro rfl; exact hne (List.eq_nil_of_length_eq_zero h3.symm)
    refine ⟨⟨rfl, ?_⟩, h5⟩
    simp only []
    rw [if_neg hne']
    exact ⟨h3, fun i l m hi hm => ⟨(h4 i l m hi hm).1, DdsSave.made hdx (h4 i l m hi hm).2⟩⟩
  exact both (by unfold Doc.bytes; rw [List.length_append, head_length H]; omega) hl (fun s h => main fileLaws2 fileEof s h) (fun s h => main lumpLaws2 lumpEof s h)

/-- A file of 5 by 3 pixels with a mipmap of 2 by 1 pixels. -/
def doc (fmt : Nat) (p q : List UInt8) : Doc := ⟨5, 3, fmt, [4, 0, 0, 0], [0, 0, 0, 0], [⟨0, 5, 3, p⟩, ⟨1, 2, 1, q⟩], []⟩

theorem doc_head (fmt : Nat) (p q : List UInt8) : (doc fmt p q).Head := ⟨by show 0 < 5; decide, by show 0 < 3; decide, by show 5 < 2 ^ 32; decide, by show 3 < 2 ^ 32; decide, rfl, rfl⟩

theorem doc_length (fmt : Nat) (p q : List UInt8) : (doc fmt p q).bytes.length = 96 + p.length + q.length := by
  have : (doc fmt p q).bytes = (doc fmt p q).head ++ ((Level.bytes ⟨0, 5, 3, p⟩) ++ ((Level.bytes ⟨1, 2, 1, q⟩) ++ [])) := by unfold Doc.bytes doc; rw [flat_cons, flat_cons]; rfl
  rw [this, List.length_append, List.length_append, List.length_append, head_length (doc_head fmt p q), level_length, level_length]
  simp only [List.length_nil]
  omega

theorem doc_descend (p q : List UInt8) (hp : p.length = 32) (hq : q.length = 16) : Descend blocks 5 3 [⟨0, 5, 3, p⟩, ⟨1, 2, 1, q⟩] := by
  have b1 : blocks 5 3 = 32 := by decide
  have b2 : blocks 2 1 = 16 := by decide
  simp only [Descend]
  rw [b1, b2]
  exact ⟨by decide, by decide, by decide, by decide, hp, by decide, by decide, by decide, by decide, hq, trivial⟩

/-- The hypotheses are met. -/
example (junk : Nat → UInt8) (cur : Img) (p q : List UInt8) (hp : p.length = 32) (hq : q.length = 16) :
    Loads junk 3 cur (doc 1030 p q).bytes (fun ok ms => ok = true ∧ ∃ a b, ms = [a, b] ∧ Is junk IL_DXT5 ⟨0, 5, 3, p⟩ a ∧ Is junk IL_DXT5 ⟨1, 2, 1, q⟩ b) := by
  refine Both.mono (C213_levels junk 3 cur (doc 1030 p q) (doc_head 1030 p q) (.inr ⟨rfl, rfl⟩) (by show 5 * 3 < 2 ^ 27; decide)
    (doc_descend p q hp hq) (by unfold doc; simp) (.inl rfl)
    (by rw [doc_length]; omega) (by show 2 < 3; decide)) (fun ok ms hr => ?_)
  obtain ⟨h1, h2, h3⟩ := hr
  match ms, h2 with
  | [a, b], _ => exact ⟨h1, a, b, rfl, h3 0 _ a rfl rfl, h3 1 _ b rfl rfl⟩

/-! ### C214 -/

/-- **C214.** A ROT file with DXT3 or DXT5 data that ends within a level, in the numbers before its data or in the data, or that has no level at all, is not loaded: the loader reports
failure, from a file and from memory, wherever the file ends.  (`d.rest` is not looked at.) -/
theorem C214_cut (junk : Nat → UInt8) (fuel : Nat) (cur : Img) (d : Doc) (H : d.Head) {dxt : Nat} (hc : Coded d.fmt dxt) (harea : d.w * d.h < 2 ^ 27) (l : Level)
    (hd : Descend blocks d.w d.h (d.levels ++ [l])) (j : Nat) (hj : j < l.bytes.length) (hj0 : d.levels ≠ [] → 0 < j)
    (hl : (d.head ++ ((d.levels.map Level.bytes).flatten ++ l.bytes.take j)).length < 2147483648) (hf : d.levels.length < fuel) :
    Loads junk fuel cur (d.head ++ ((d.levels.map Level.bytes).flatten ++ l.bytes.take j)) (fun ok _ => ok = false) := by
  generalize hbs : d.head ++ ((d.levels.map Level.bytes).flatten ++ l.bytes.take j) = bs at *
  have main : ∀ {σ : Type} {o : Ops σ} {At : σ → List UInt8 → Nat → Prop}, Laws2 o At → EofLaw o At → ∀ s, At s bs 0 →
      Holds (iLoadRotInternal o junk fuel cur s) (fun r => r.1 = false ∧ ∃ q, At r.2.2 bs q) := by
    intro σ o At L E s hA
    rw [← hbs] at hA
    obtain ⟨s', hA', e⟩ := load_levels L junk fuel cur H hc _ hA
    rw [hbs] at hA'
    rw [e]
    have S : Sides d.w d.h := ⟨H.w0, H.h0, harea⟩
    refine (levels_cut L E junk hc S l j hj d.levels fuel _ d.head _ d.w d.h ⟨FORM, MIPS, some (compSize 16 d.w d.h), [], s'⟩ hf hbs.symm hA' rfl rfl rfl
      (by rw [(comp_eq H.w0 H.h0 harea).1]) (Nat.le_refl _) (Nat.le_refl _) hd hj0).bind (fun r hr => Holds.pure ?_)
    exact hr
  exact both (by rw [← hbs, List.length_append, head_length H]; omega) hl (fun s h => main fileLaws2 fileEof s h) (fun s h => main lumpLaws2 lumpEof s h)

/-- The hypotheses are met: a file that ends anywhere within the data of the mipmap above. -/
example (junk : Nat → UInt8) (cur : Img) (p q : List UInt8) (hp : p.length = 32) (hq : q.length = 16) (j : Nat) (h0 : 0 < j) (hj : j < 44) :
    Loads junk 2 cur ((doc 1029 p q).head ++ (Level.bytes ⟨0, 5, 3, p⟩ ++ (Level.bytes ⟨1, 2, 1, q⟩).take j)) (fun ok _ => ok = false) := by
  have := C214_cut junk 2 cur ⟨5, 3, 1029, [4, 0, 0, 0], [0, 0, 0, 0], [⟨0, 5, 3, p⟩], []⟩
    ⟨(doc_head 1029 p q).w0, (doc_head 1029 p q).h0, (doc_head 1029 p q).w1, (doc_head 1029 p q).h1, rfl, rfl⟩ (dxt := IL_DXT3) (.inl ⟨rfl, rfl⟩) (by show 5 * 3 < 2 ^ 27; decide) ⟨1, 2, 1, q⟩
    (doc_descend p q hp hq) j (by rw [level_length]; show j < 28 + q.length; omega) (fun _ => h0)
    (by
      have : (Level.bytes ⟨0, 5, 3, p⟩).length = 28 + p.length := level_length _
      have hh : (Doc.head ⟨5, 3, 1029, [4, 0, 0, 0], [0, 0, 0, 0], [⟨0, 5, 3, p⟩], []⟩).length = 40 := rfl
      simp only [List.map_cons, List.map_nil, List.flatten_cons, List.flatten_nil, List.length_append, List.length_take, List.length_nil, this, hh]
      omega) (by show 1 < 2; decide)
  simp only [List.map_cons, List.map_nil, List.flatten_cons, List.flatten_nil, List.append_nil] at this
  exact this

/-! ### C215 -/

/-- **C215 (part).** Whatever the bytes are, if there are 40 of them, the format is not one of those without compression or with DXT1, and the picture has fewer than 2^27 pixels, loading ends,
touches only memory it owns, uses nothing before it is set, and leaves images whose blocks have the sizes they report.  Missing: the other two formats, see the violation, and larger
pictures. -/
theorem C215_safe_partial (junk : Nat → UInt8) (fuel : Nat) (cur : Img) (hcur : cur.data.length = cur.size) (bs : List UInt8) (h40 : 40 ≤ bs.length) (hl : bs.length < 2147483648)
    (hfm : leAt bs 20 4 ≠ 1024 ∧ leAt bs 20 4 ≠ 1028) (harea : leAt bs 12 4 * leAt bs 16 4 < 2 ^ 27) (hf : bs.length < fuel) :
    Loads junk fuel cur bs (fun _ ms => ∀ m ∈ ms, m.data.length = m.size) := by
  have main : ∀ {σ : Type} {o : Ops σ} {At : σ → List UInt8 → Nat → Prop}, Laws2 o At → EofLaw o At → ∀ s, At s bs 0 →
      Holds (iLoadRotInternal o junk fuel cur s) (fun r => (∀ m ∈ r.2.1, m.data.length = m.size) ∧ ∃ q, At r.2.2 bs q) := by
    intro σ o At L E s hA
    have hcur' : ∀ m ∈ [cur], m.data.length = m.size := fun m hm => by rw [List.mem_singleton.mp hm]; exact hcur
    rcases load_cases L junk fuel cur hA h40 with ⟨g, s', h1, h2⟩ | ⟨-, s', h1, h2⟩
    · rw [h2]
      unfold rest
      simp only []
      obtain ⟨-, g2, g3, -⟩ := g
      have hc : ∃ dxt, Coded (leAt bs 20 4) dxt := by
        rcases g2 with h | h | h | h
        · exact absurd h hfm.1
        · exact absurd h hfm.2
        · exact ⟨_, .inl ⟨h, rfl⟩⟩
        · exact ⟨_, .inr ⟨h, rfl⟩⟩
      obtain ⟨dxt, hc⟩ := hc
      rw [if_pos (by omega)]
      refine (levels_any L E junk hc ⟨g3.1, g3.2, harea⟩ (by omega) fuel 40 _ ⟨FORM, MIPS, some (compSize 16 (leAt bs 12 4) (leAt bs 16 4)), [], s'⟩ h40 (by omega) h1 rfl rfl rfl
        (fun m hm => by cases hm)).bind (fun r hr => Holds.pure ⟨?_, hr.2⟩)
      intro m hm
      simp only [] at hm
      split at hm
      · exact hcur' m hm
      · exact hr.1 m hm
    · exact ⟨_, h2, hcur', h1⟩
  exact both (by omega) hl (fun s h => main fileLaws2 fileEof s h) (fun s h => main lumpLaws2 lumpEof s h)

/-- The hypotheses are met: a head and anything behind it. -/
example (junk : Nat → UInt8) (x : List UInt8) (hx : x.length < 1000) : Loads junk 2000 before.1 ((doc 1029 [] []).head ++ x) (fun _ ms => ∀ m ∈ ms, m.data.length = m.size) := by
  obtain ⟨f1, f2, f3, -⟩ := head_fields (doc_head 1029 [] []) (by decide) x
  refine C215_safe_partial junk 2000 before.1 rfl _ (by rw [List.length_append, head_length (doc_head _ _ _)]; omega) (by rw [List.length_append, head_length (doc_head _ _ _)]; omega) ?_ ?_
    (by rw [List.length_append, head_length (doc_head _ _ _)]; omega)
  · rw [f3]; decide
  · rw [f1, f2]; decide

/-- **C215 is violated: the other formats.** For every file without compression or with DXT1 data whose first level is not larger than the picture, the loader compares the size of the level
with a number that has not been set. -/
theorem C215_violated_unset (junk : Nat → UInt8) (fuel : Nat) (cur : Img) (d : Doc) (H : d.Head) (hfm : d.fmt = 1024 ∨ d.fmt = 1028) (l : Level) (ls : List Level) (hls : d.levels = l :: ls)
    (hw : l.w ≤ d.w) (hh : l.h ≤ d.h) (hl : d.bytes.length < 2147483648) (hf : 0 < fuel) : Fails junk fuel cur d.bytes .uninit := by
  have w1 := H.w1
  have h1 := H.h1
  have e : d.bytes = d.head ++ (l.bytes ++ ((ls.map Level.bytes).flatten ++ d.rest)) := by unfold Doc.bytes; rw [hls, flat_cons]
  have hlen : d.bytes.length = 40 + (28 + l.data.length + ((ls.map Level.bytes).flatten ++ d.rest).length) := by rw [e, List.length_append, head_length H, List.length_append, level_length]
  obtain ⟨f1, f2, f3, f4⟩ := head_fields H (by omega) (l.bytes ++ ((ls.map Level.bytes).flatten ++ d.rest))
  rw [← e] at f1 f2 f3 f4
  obtain ⟨a1, a2, a3, a4, -⟩ := level_at l d.bytes e (by omega) (by omega) (by omega)
  rw [head_length H] at a1 a2 a3 a4
  have main : ∀ {σ : Type} {o : Ops σ} {At : σ → List UInt8 → Nat → Prop}, Laws2 o At → ∀ s, At s d.bytes 0 → iLoadRotInternal o junk fuel cur s = .error .uninit := by
    intro σ o At L s hA
    rcases load_cases L junk fuel cur hA (by omega) with ⟨g, s', h1, h2⟩ | ⟨h, -⟩
    · rw [h2]
      unfold rest
      simp only [f1, f2, f3]
      rw [if_neg (by omega)]
      have : levels o junk d.fmt d.w d.h fuel ⟨FORM, MIPS, none, [], s'⟩ = .error .uninit := by
        obtain ⟨fuel, rfl⟩ : ∃ k, fuel = k + 1 := ⟨fuel - 1, by omega⟩
        have : one o junk d.fmt d.w d.h ⟨FORM, MIPS, none, [], s'⟩ = .error .uninit := by
          unfold one
          refine bind_err (tag_spec L junk h1 (by omega) rfl rfl) (fun r hr => ?_)
          obtain ⟨form, n, name, s1⟩ := r
          obtain ⟨h1, -, h2, h3⟩ := hr
          simp only [] at h1 h2 h3 ⊢
          rw [over_full (by omega) rfl, a1] at h1
          rw [over_full (by omega) rfl, a2] at h2
          rw [Nat.min_eq_left (by omega)] at h3
          subst h1 h2
          rw [if_neg (by simp), if_neg (by simp)]
          refine bind_err (nums_spec L junk h3 (by omega)) (fun r hr => ?_)
          obtain ⟨hd, s2⟩ := r
          obtain ⟨e1, e2, -⟩ := hr.2 (by omega)
          simp only [Nat.reduceAdd] at e1 e2 a3 a4 ⊢
          rw [e1, e2, a3, a4, if_neg (by omega)]
        unfold levels
        rw [this]
        rfl
      rw [this]
      rfl
    · exact absurd (f4 (by omega)) h
  refine ⟨?_, ?_⟩
  · have := main fileLaws2 _ (input_at (opened d.bytes 0) rfl hl)
    unfold ilLoadF
    simp only []
    rw [this]
    rfl
  · unfold ilLoadL
    rw [main lumpLaws2 _ (lump_at d.bytes hl (by omega))]
    rfl

/-- The hypotheses are met: the picture above without compression. -/
example (junk : Nat → UInt8) (cur : Img) (p q : List UInt8) (hp : p.length = 60) (hq : q.length = 8) : Fails junk 3 cur (doc 1024 p q).bytes .uninit :=
  C215_violated_unset junk 3 cur (doc 1024 p q) (doc_head 1024 p q) (.inl rfl) _ _ rfl (by show 5 ≤ 5; decide) (by show 3 ≤ 3; decide) (by rw [doc_length]; omega) (by decide)

end DevIL.Rot
