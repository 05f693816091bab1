import Verif.Model.Dcx
import Verif.Spec.Dcx
import Verif.Lemmas.Rot
import Verif.Props.Iwi
/-! DCX: C216. -/
set_option autoImplicit false
namespace DevIL.Dcx
open DevIL.Games DevIL.Detect DevIL.Image DevIL.DetectSpec DevIL.DcxSpec
open DevIL.Lump (SEEK_SET SEEK_CUR)
open DevIL.Iwi (Both.mono)
open DevIL.Pic (bind_err)

/-- Loading from an open file and from memory. -/
def Loads (junk : Nat → UInt8) (cur : Img) (bs : List UInt8) (P : Bool → List Img → Prop) : Prop :=
  Both (iLoadDcxInternal fileOps junk cur) (iLoadDcxInternal lumpOps junk cur) bs P

/-- Loading from an open file and from memory runs into this fault. -/
def Fails (junk : Nat → UInt8) (cur : Img) (bs : List UInt8) (e : Fault) : Prop :=
  ilLoadF (iLoadDcxInternal fileOps junk cur) (opened bs 0) = .error e ∧ ilLoadL (iLoadDcxInternal lumpOps junk cur) bs bs.length = .error e

section
variable {σ : Type} {o : Ops σ} {At : σ → List UInt8 → Nat → Prop}

theorem put_leAt {e g : List UInt8} {num : Nat} (hg : g.length = 4) (he : 4 * num + 4 ≤ e.length) :
    ∃ e', memcpy e (4 * num) g 0 g.length = .ok e' ∧ e'.length = e.length ∧ leAt e' (4 * num) 4 = le g ∧ (0 < num → leAt e' 0 4 = leAt e 0 4) := by
  refine ⟨_, by unfold memcpy; rw [if_pos (by omega), if_pos (by omega)], ?_, ?_, ?_⟩
  · simp only [List.length_append, List.length_take, List.length_drop]; omega
  · unfold leAt at_
    rw [List.drop_left' (by rw [List.length_take]; omega), List.take_left' (by rw [List.length_take, List.length_drop]; omega), List.drop_zero, List.take_of_length_le (by omega)]
  · intro h
    unfold leAt at_
    rw [List.drop_zero, List.drop_zero, List.take_append_of_le_length (by rw [List.length_take]; omega), List.take_take, Nat.min_eq_left (by omega)]
    rfl

/-- Reading the table up to a page. -/
theorem table_walk (L : Laws2 o At) {bs : List UInt8} {n : Nat} (hp : Pages bs n) (hn : n ≤ 1024) : ∀ (d fuel : Nat) (e : List UInt8) (num : Nat) (s : σ), n - num = d → num ≤ n → fuel = 1025 - num →
    At s bs (4 + 4 * num) → e.length = 4096 → (0 < num → leAt e 0 4 = entry bs 0) →
    ∃ e' s', table o fuel e num s = table o (1025 - n) e' n s' ∧ At s' bs (4 + 4 * n) ∧ e'.length = 4096 ∧ (0 < n → leAt e' 0 4 = entry bs 0) := by
  intro d
  induction d with
  | zero =>
    intro fuel e num s hd hm hf hA he h0
    have : num = n := by omega
    subst this
    subst hf
    exact ⟨e, s, rfl, hA, he, h0⟩
  | succ d ih =>
    intro fuel e num s hd hm hf hA he h0
    obtain ⟨f, rfl⟩ : ∃ f, fuel = f + 1 := ⟨fuel - 1, by omega⟩
    have hl := hp.1
    obtain ⟨⟨g, k, s1⟩, er, h1, h2, h3⟩ := Scitex.read_at L.toLaws (n := 4) hA (by decide) (by omega)
    simp only [] at h1 h2 h3
    have hg : g.length = 4 := by rw [h1, at_length]; omega
    obtain ⟨e', em, h4, h5, h6⟩ := put_leAt (e := e) hg (num := num) (by omega)
    have h5 : leAt e' (4 * num) 4 = entry bs num := by rw [h5, h1]; rfl
    have hne := hp.2 num (by omega)
    obtain ⟨e2, s2, i1, i2⟩ := ih f e' (num + 1) s1 (by omega) (by omega) (by omega) (by rw [show 4 + 4 * (num + 1) = 4 + 4 * num + 4 by omega]; exact h3) (by omega) (fun _ => by
      by_cases c : num = 0
      · subst c; exact h5
      · rw [h6 (by omega)]; exact h0 (by omega))
    refine ⟨e2, s2, ?_, i2⟩
    rw [← i1]
    conv_lhs => unfold table
    rw [er, bind_ok]
    simp only []
    rw [em, bind_ok, if_neg (by omega), if_pos (by rw [h5]; exact hne)]

theorem valid_spec (L : Laws2 o At) {bs : List UInt8} {s : σ} (hA : At s bs 0) :
    Holds (iIsValidDcx o s) (fun r => (∃ q, At r.2 bs q) ∧ (at_ bs 0 4 ≠ SIG → r.1 = false) ∧ (at_ bs 0 4 = SIG → r.1 = true ∧ At r.2 bs 0)) := by
  unfold iIsValidDcx
  refine (L.read 1 4 hA (by decide) (by decide)).bind (fun r hr => ?_)
  obtain ⟨g, k, s1⟩ := r
  obtain ⟨h1, h2, h3⟩ := hr
  simp only [Nat.one_mul, Nat.div_one, Nat.zero_add] at h1 h2 h3 ⊢
  by_cases c : k ≠ 4
  · rw [if_pos c]
    refine Holds.pure ⟨⟨_, h3⟩, fun _ => rfl, fun h => absurd ?_ c⟩
    rw [h2, h1, h]
    rfl
  · rw [if_neg c]
    refine (L.seekCur (-4) h3).bind (fun r hr => Holds.pure ⟨hr.1, ?_, ?_⟩)
    · intro h
      simp only [decide_eq_false_iff_not]
      intro h'
      apply h
      rw [← h1]
      have hl : g.length = 4 := by omega
      match g, hl with
      | [a, b, c, d], _ =>
        have ha := a.toNat_lt
        have hb := b.toNat_lt
        have hc := c.toNat_lt
        have hd := d.toNat_lt
        simp only [le] at h'
        have e1 : a = 0xB1 := by apply UInt8.toNat.inj; show a.toNat = 177; omega
        have e2 : b = 0x68 := by apply UInt8.toNat.inj; show b.toNat = 104; omega
        have e3 : c = 0xDE := by apply UInt8.toNat.inj; show c.toNat = 222; omega
        have e4 : d = 0x3A := by apply UInt8.toNat.inj; show d.toNat = 58; omega
        rw [e1, e2, e3, e4]
        rfl
    · intro h
      have hg : g = SIG := by rw [h1, h]
      refine ⟨?_, hr.2 0 (by rw [hg]; rfl) (Nat.zero_le _)⟩
      rw [hg]
      rfl

/-- Behind the signature, up to a page. -/
theorem load_walk (L : Laws2 o At) (junk : Nat → UInt8) (cur : Img) {bs : List UInt8} {s : σ} (hA : At s bs 0) (hs : at_ bs 0 4 = SIG) {n : Nat} (hp : Pages bs n) (hn : n ≤ 1024) :
    ∃ e' s', At s' bs (4 + 4 * n) ∧ e'.length = 4096 ∧ (0 < n → leAt e' 0 4 = entry bs 0) ∧ iLoadDcxInternal o junk cur s = (do
      let (num, e, s) ← table o (1025 - n) e' n s'
      match num with
      | none => pure (false, [cur], s)
      | some _ => do
        let (_, s) ← o.seek s (Lump.toInt (leAt e 0 4)) SEEK_SET
        let _ ← head o junk [u16, u16, u16, u16, u16, u16, u16, u16, u16, u16] s
        .error .uninit) := by
  obtain ⟨⟨ok, s1⟩, e1, -, -, h1⟩ := valid_spec L hA
  obtain ⟨h1, h2⟩ := h1 hs
  simp only [] at h1 h2
  subst h1
  have hl := hp.1
  obtain ⟨⟨g, k, s2⟩, e2, -, -, h3⟩ := Scitex.read_at L.toLaws (n := 4) h2 (by decide) (by omega)
  obtain ⟨e', s', h4, h5, h6, h7⟩ := table_walk L hp hn n 1025 (alloc junk 4096) 0 s2 (by omega) (Nat.zero_le _) rfl h3 (alloc_length _ _) (fun h => absurd h (by decide))
  refine ⟨e', s', h5, h6, h7, ?_⟩
  unfold iLoadDcxInternal
  rw [e1, bind_ok]
  simp only [Bool.not_true, Bool.false_eq_true, if_false]
  rw [e2, bind_ok]
  simp only []
  rw [h4]
  rfl

end

/-! ### C216 -/

/-- **C216 (part).** Bytes that do not begin with the signature of a DCX file, and files whose table of pages is cut off, with up to 1024 pages before the cut, are refused, from a file and
from memory, and the image is left as it is.  Missing: all other files, see the violations. -/
theorem C216_refused_partial (junk : Nat → UInt8) (cur : Img) (bs : List UInt8) (h0 : 0 < bs.length) (hl : bs.length < 2147483648)
    (h : at_ bs 0 4 ≠ SIG ∨ ∃ n, Pages bs n ∧ bs.length < 8 + 4 * n ∧ (n < 1024 ∨ n = 1024 ∧ bs.length = 4 + 4 * n)) : Loads junk cur bs (fun ok ms => ok = false ∧ ms = [cur]) := by
  have main : ∀ {σ : Type} {o : Ops σ} {At : σ → List UInt8 → Nat → Prop}, Laws2 o At → ∀ s, At s bs 0 →
      Holds (iLoadDcxInternal o junk cur s) (fun r => (r.1 = false ∧ r.2.1 = [cur]) ∧ ∃ q, At r.2.2 bs q) := by
    intro σ o At L s hA
    by_cases c : at_ bs 0 4 = SIG
    · obtain ⟨n, hp, h1, h2⟩ := h.resolve_left (fun h => h c)
      obtain ⟨e', s', i1, i2, -, i3⟩ := load_walk L junk cur hA c hp (by omega)
      have hlo := hp.1
      rw [i3]
      obtain ⟨f, hf⟩ : ∃ f, 1025 - n = f + 1 := ⟨1024 - n, by omega⟩
      rw [hf]
      have : Holds (table o (f + 1) e' n s') (fun r => r.1 = none ∧ ∃ q, At r.2.2 bs q) := by
        unfold table
        refine (L.read 1 4 i1 (by decide) (by decide)).bind (fun r hr => ?_)
        obtain ⟨g, k, s1⟩ := r
        obtain ⟨j1, j2, j3⟩ := hr
        simp only [Nat.one_mul, Nat.div_one] at j1 j2 j3 ⊢
        have hg : g.length = min 4 (bs.length - (4 + 4 * n)) := by rw [j1, at_length]
        unfold memcpy
        rw [if_pos (by omega), if_pos (by omega), bind_ok, if_pos (by omega)]
        exact Holds.pure ⟨rfl, _, j3⟩
      refine this.bind (fun r hr => ?_)
      obtain ⟨num, e, s1⟩ := r
      obtain ⟨j1, j2⟩ := hr
      simp only [] at j1 j2
      subst j1
      exact Holds.pure ⟨⟨rfl, rfl⟩, j2⟩
    · unfold iLoadDcxInternal
      refine (valid_spec L hA).bind (fun r hr => ?_)
      obtain ⟨ok, s1⟩ := r
      obtain ⟨j1, j2, -⟩ := hr
      simp only [] at j1 j2
      rw [j2 c]
      exact Holds.pure ⟨⟨rfl, rfl⟩, j1⟩
  exact both h0 hl (fun s h => main fileLaws2 s h) (fun s h => main lumpLaws2 s h)

theorem fails {junk : Nat → UInt8} {cur : Img} {bs : List UInt8} (h0 : 0 < bs.length) (hl : bs.length < 2147483648) {e : Fault}
    (main : ∀ {σ : Type} {o : Ops σ} {At : σ → List UInt8 → Nat → Prop}, Laws2 o At → ∀ s, At s bs 0 → iLoadDcxInternal o junk cur s = .error e) : Fails junk cur bs e := by
  refine ⟨?_, ?_⟩
  · have := main fileLaws2 _ (input_at (opened bs 0) rfl hl)
    unfold ilLoadF
    simp only []
    rw [this]
    rfl
  · unfold ilLoadL
    rw [main lumpLaws2 _ (lump_at bs hl h0)]
    rfl

/-- **C216 is violated: every file.** For every file with the signature and a table of up to 1023 pages, the first of them below 2^31, whatever the pages are, the loader decides by a number
that has never been set: it never reads the depth of the pixels. -/
theorem C216_violated_unset (junk : Nat → UInt8) (cur : Img) (bs : List UInt8) (hl : bs.length < 2147483648) (hs : at_ bs 0 4 = SIG) (n : Nat) (hn : n < 1024) (ht : Table bs n)
    (he : entry bs 0 < 2147483648) : Fails junk cur bs .uninit := by
  obtain ⟨hp, hlen, hz⟩ := ht
  refine fails (by omega) hl (fun {σ o At} L s hA => ?_)
  obtain ⟨e', s', i1, i2, i4, i3⟩ := load_walk L junk cur hA hs hp (by omega)
  rw [i3]
  obtain ⟨f, hf⟩ : ∃ f, 1025 - n = f + 1 := ⟨1024 - n, by omega⟩
  rw [hf]
  have : Holds (table o (f + 1) e' n s') (fun r => r.1 ≠ none ∧ leAt r.2.1 0 4 = entry bs 0 ∧ ∃ q, At r.2.2 bs q) := by
    unfold table
    refine (Scitex.read_at L.toLaws (n := 4) i1 (by decide) (by omega)).bind (fun r hr => ?_)
    obtain ⟨g, k, s1⟩ := r
    obtain ⟨j1, j2, j3⟩ := hr
    simp only [] at j1 j2 j3 ⊢
    have hg : g.length = 4 := by rw [j1, at_length]; omega
    obtain ⟨e2, em, h4, h5, h6⟩ := put_leAt (e := e') hg (num := n) (by omega)
    have h5 : leAt e2 (4 * n) 4 = entry bs n := by rw [h5, j1]; rfl
    rw [em, bind_ok, if_neg (by omega), if_neg (by rw [h5, hz]; simp)]
    refine Holds.pure ⟨by simp, ?_, _, j3⟩
    by_cases c : n = 0
    · subst c; exact h5
    · exact (h6 (by omega)).trans (i4 (by omega))
  refine bind_err this (fun r hr => ?_)
  obtain ⟨num, e, s1⟩ := r
  obtain ⟨j1, j2, q, j3⟩ := hr
  simp only [] at j1 j2 j3
  match num, j1 with
  | none, j1 => exact absurd rfl j1
  | some m, _ =>
    simp only []
    rw [j2]
    refine bind_err (L.seekPos _ j3 ?_) (fun r hr => ?_)
    · unfold Lump.toInt; split <;> omega
    · obtain ⟨q, hq⟩ := hr
      exact bind_err (head_spec L.toLaws junk bs _ r.2 q hq (by decide)) (fun _ _ => rfl)

/-- **C216 is violated: long tables.** For every file with the signature and more than 1024 places of pages, the loader writes behind its array. -/
theorem C216_violated_table (junk : Nat → UInt8) (cur : Img) (bs : List UInt8) (hl : bs.length < 2147483648) (hs : at_ bs 0 4 = SIG) (hp : Pages bs 1024) (hlen : 4 + 4 * 1024 < bs.length) :
    Fails junk cur bs .oobWrite := by
  refine fails (by omega) hl (fun {σ o At} L s hA => ?_)
  obtain ⟨e', s', i1, i2, -, i3⟩ := load_walk L junk cur hA hs hp (by omega)
  rw [i3]
  have : table o (1025 - 1024) e' 1024 s' = .error .oobWrite := by
    show table o (0 + 1) e' 1024 s' = .error .oobWrite
    unfold table
    refine bind_err (L.read 1 4 i1 (by decide) (by decide)) (fun r hr => ?_)
    obtain ⟨g, k, s1⟩ := r
    obtain ⟨j1, -⟩ := hr
    simp only [Nat.one_mul] at j1 ⊢
    have hg : g.length = min 4 (bs.length - (4 + 4 * 1024)) := by rw [j1, at_length]
    unfold memcpy
    rw [if_pos (by omega), if_neg (by omega)]
    rfl
  rw [this]
  rfl

/-- Two pages. -/
def two : List UInt8 := SIG ++ [12, 0, 0, 0, 200, 0, 0, 0, 0, 0, 0, 0] ++ List.replicate 20 7

/-- The hypotheses are met: by the two pages, by the first ten bytes of them, and by a table of 1025 pages. -/
example (junk : Nat → UInt8) (cur : Img) : Fails junk cur two .uninit :=
  C216_violated_unset junk cur two (by decide) rfl 2 (by decide) ⟨⟨by decide, fun k hk => by match k, hk with | 0, _ => decide | 1, _ => decide⟩, by decide, by decide⟩ (by decide)
example (junk : Nat → UInt8) (cur : Img) : Loads junk cur (two.take 10) (fun ok ms => ok = false ∧ ms = [cur]) :=
  C216_refused_partial junk cur _ (by decide) (by decide) (.inr ⟨1, ⟨by decide, fun k hk => by match k, hk with | 0, _ => decide⟩, by decide, .inl (by decide)⟩)
example (junk : Nat → UInt8) (cur : Img) : Fails junk cur (SIG ++ List.replicate 4100 1) .oobWrite := by
  have hl : (SIG ++ List.replicate 4100 (1 : UInt8)).length = 4104 := by rw [List.length_append, List.length_replicate]; rfl
  refine C216_violated_table junk cur _ (by omega) rfl ⟨by omega, fun k hk => ?_⟩ (by omega)
  have : at_ (SIG ++ List.replicate 4100 (1 : UInt8)) (4 + 4 * k) 4 = List.replicate 4 1 := by
    unfold at_
    rw [List.drop_append, List.drop_of_length_le (by show 4 ≤ _; omega), List.nil_append, List.drop_replicate, List.take_replicate, show SIG.length = 4 from rfl, Nat.min_eq_left (by omega)]
  unfold entry leAt
  rw [this]
  decide

end DevIL.Dcx
