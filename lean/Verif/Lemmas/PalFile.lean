import Verif.Model.PalFile
import Verif.Lemmas.PnmText
import Verif.Spec.PalFile
import Verif.Hoare
/-! Lemmas on palette files: reading words and numbers. -/
set_option autoImplicit false
namespace DevIL.PalFile
open DevIL.PnmSpec (IsNumber number)

/-- A character of a word: it prints and is no space. -/
def Plain (c : UInt8) : Prop := 33 ≤ c ∧ c ≤ 126

theorem loopFrom_const {σ : Type} (g : σ → C σ) (n : Nat) : ∀ (i j : Nat) (s : σ), loopFrom (fun _ => g) i n s = loopFrom (fun _ => g) j n s := by
  induction n with
  | zero => intro i j s; rfl
  | succ n ih =>
    intro i j s
    rw [loopFrom_succ, loopFrom_succ]
    congr 1
    funext t
    exact ih _ _ _

theorem loopN_front {σ : Type} (g : σ → C σ) (n : Nat) (s : σ) : loopN (n + 1) (fun _ => g) s = (g s >>= loopN n (fun _ => g)) := by
  unfold loopN
  rw [loopFrom_succ]
  congr 1
  funext t
  exact loopFrom_const g n _ _ t

theorem loop_out (d : List UInt8) (n : Nat) (s : W) (h : s.out = true) : loopN n (fun _ s => if s.out then pure s else wordStep d s) s = .ok s := by
  induction n with
  | zero => rfl
  | succ n ih => rw [loopN_succ, ih, bind_ok, if_pos h]; rfl

theorem fgetc_of {d r : List UInt8} {p : Nat} {c : UInt8} (h : d.drop p = c :: r) : fgetc d p = (some c, p + 1) := by
  have : d[p]? = some c := by rw [← List.head?_drop, h]; rfl
  unfold fgetc
  rw [this]

theorem drop_next {d r : List UInt8} {p : Nat} {c : UInt8} (h : d.drop p = c :: r) : d.drop (p + 1) = r := by
  rw [← List.drop_drop, h]; rfl

theorem step_plain {d r : List UInt8} {p : Nat} {c : UInt8} {acc : List UInt8} (h : d.drop p = c :: r) (hc : Plain c) : wordStep d ⟨acc, p, false⟩ = .ok ⟨acc ++ [c], p + 1, false⟩ := by
  unfold wordStep
  simp only [fgetc_of h]
  have h1 : c ≠ 10 := fun e => by subst e; exact absurd hc.1 (by decide)
  have h2 : c ≠ 0 := fun e => by subst e; exact absurd hc.1 (by decide)
  have h3 : c ≠ 32 := fun e => by subst e; exact absurd hc.1 (by decide)
  have h4 : isprint (some c) = true := by
    have a : 32 ≤ c := UInt8.le_trans (by decide) hc.1
    simp only [isprint, Bool.and_eq_true, decide_eq_true_eq]
    exact ⟨a, hc.2⟩
  rw [if_neg (by simp [h1, h2]), if_neg (by simp [h3]), if_neg (by simp [h4])]
  rfl

theorem collect {d : List UInt8} : ∀ (w : List UInt8) {r acc : List UInt8} {p n : Nat}, d.drop p = w ++ r → (∀ c ∈ w, Plain c) →
    loopN (w.length + n) (fun _ s => if s.out then pure s else wordStep d s) ⟨acc, p, false⟩ =
      loopN n (fun _ s => if s.out then pure s else wordStep d s) ⟨acc ++ w, p + w.length, false⟩ ∧ d.drop (p + w.length) = r := by
  intro w
  induction w with
  | nil => intro r acc p n h _; simp at h ⊢; exact h
  | cons c w ih =>
    intro r acc p n h hw
    have hc := hw c (by simp)
    have hd : d.drop p = c :: (w ++ r) := h
    obtain ⟨e, f⟩ := ih (acc := acc ++ [c]) (p := p + 1) (n := n) (drop_next hd) (fun x hx => hw x (by simp [hx]))
    refine ⟨?_, by rw [← f]; congr 1; simp; omega⟩
    rw [show (c :: w).length + n = (w.length + n) + 1 by simp; omega, loopN_front]
    simp only [Bool.false_eq_true, if_false]
    rw [step_plain hd hc, bind_ok, e]
    simp only [List.append_assoc, List.singleton_append, List.length_cons]
    rw [show p + 1 + w.length = p + (w.length + 1) by omega]

/-- A word that a line feed ends. -/
theorem getw_lf {d w r : List UInt8} {p : Nat} (h : d.drop p = w ++ 10 :: r) (hw : ∀ c ∈ w, Plain c) (hl : w.length < 255) :
    iFgetw d p = .ok (w, p + w.length + 1) ∧ d.drop (p + w.length + 1) = r := by
  obtain ⟨n, hn⟩ : ∃ n, 255 = w.length + (n + 1) := ⟨254 - w.length, by omega⟩
  obtain ⟨e, f⟩ := collect w (acc := []) (n := n + 1) h hw
  refine ⟨?_, drop_next f⟩
  unfold iFgetw
  rw [hn, e, loopN_front]
  simp only [Bool.false_eq_true, if_false]
  have : wordStep d ⟨[] ++ w, p + w.length, false⟩ = .ok ⟨[] ++ w, p + w.length + 1, true⟩ := by
    unfold wordStep
    simp only [fgetc_of f]
    simp
  rw [this, bind_ok, loop_out _ _ _ rfl, bind_ok]
  rfl

/-- A word that a single space ends. -/
theorem getw_sp {d w r : List UInt8} {p : Nat} {c : UInt8} (h : d.drop p = w ++ 32 :: c :: r) (hc : c ≠ 32) (hw : ∀ c ∈ w, Plain c) (hl : w.length < 255) :
    iFgetw d p = .ok (w, p + w.length + 1) ∧ d.drop (p + w.length + 1) = c :: r := by
  obtain ⟨n, hn⟩ : ∃ n, 255 = w.length + (n + 1) := ⟨254 - w.length, by omega⟩
  obtain ⟨e, f⟩ := collect w (acc := []) (n := n + 1) h hw
  refine ⟨?_, drop_next f⟩
  unfold iFgetw
  rw [hn, e, loopN_front]
  simp only [Bool.false_eq_true, if_false]
  have : wordStep d ⟨[] ++ w, p + w.length, false⟩ = .ok ⟨[] ++ w, p + w.length + 1, true⟩ := by
    unfold wordStep
    simp only [fgetc_of f]
    rw [if_neg (by decide), if_pos True.intro]
    rw [show d.length + 2 = (d.length + 1) + 1 from rfl]
    simp only [whileF]
    simp [fgetc_of (drop_next f), hc]
  rw [this, bind_ok, loop_out _ _ _ rfl, bind_ok]
  rfl

theorem digit_plain {c : UInt8} (h : 48 ≤ c ∧ c ≤ 57) : Plain c := ⟨UInt8.le_trans (by decide) h.1, UInt8.le_trans h.2 (by decide)⟩

theorem atoi_number {ds : List UInt8} (h : IsNumber ds) (hn : number ds < 2147483648) : atoi ds = .ok (number ds : Int) := by
  have h1 : ds.takeWhile Pnm.isdigit = ds := by
    have : ∀ (l : List UInt8), (∀ c ∈ l, 48 ≤ c ∧ c ≤ 57) → l.takeWhile Pnm.isdigit = l := by
      intro l
      induction l with
      | nil => intro _; rfl
      | cons c l ih =>
        intro hl
        have hc := hl c (by simp)
        rw [List.takeWhile_cons_of_pos (by simp only [Pnm.isdigit, Bool.and_eq_true, decide_eq_true_eq]; exact hc), ih (fun x hx => hl x (by simp [hx]))]
    exact this ds h.2
  have h2 : Pnm.val ds = number ds := by
    unfold Pnm.val
    rw [Pnm.val_eq]
    simp
  obtain ⟨c, t, rfl⟩ : ∃ c t, ds = c :: t := by
    cases ds with
    | nil => exact absurd rfl h.1
    | cons c t => exact ⟨c, t, rfl⟩
  have hc := h.2 c (by simp)
  have n1 : c ≠ 45 := fun e => by subst e; exact absurd hc.1 (by decide)
  have n2 : c ≠ 43 := fun e => by subst e; exact absurd hc.1 (by decide)
  unfold atoi
  simp only [List.head?_cons, Option.some_beq_some, beq_iff_eq, n1, Option.some.injEq, n2, or_self, if_false, h1, h2]
  rw [if_neg (by omega)]
  simp

/-! ### Files without surprises -/

theorem fgetc_cases (d : List UInt8) (p : Nat) (hp : p ≤ d.length) : (fgetc d p = (none, p) ∧ p = d.length) ∨ ∃ h : p < d.length, fgetc d p = (some d[p], p + 1) := by
  unfold fgetc
  rcases Nat.lt_or_ge p d.length with h | h
  · exact .inr ⟨h, by rw [List.getElem?_eq_getElem h]⟩
  · exact .inl ⟨by rw [List.getElem?_eq_none h], by omega⟩

/-- What `iFgetw` knows while it collects a word. -/
def Word (d : List UInt8) (s : W) : Prop := s.pos ≤ d.length ∧ ∃ a b, d = a ++ s.word ++ b ∧ (s.out = false → a.length + s.word.length = s.pos)

theorem wordStep_holds {d : List UInt8} (ht : ∀ c ∈ d, c = 10 ∨ c = 0 ∨ (32 ≤ c ∧ c ≤ 126)) (s : W) (h : Word d s) (ho : s.out = false) : Holds (wordStep d s) (Word d) := by
  obtain ⟨hp, a, b, hd, hpos⟩ := h
  have hpos := hpos ho
  unfold wordStep
  rcases fgetc_cases d s.pos hp with ⟨e, e'⟩ | ⟨hlt, e⟩
  · rw [e]
    simp only
    rw [if_pos (by simp)]
    exact Holds.pure ⟨hp, a, b, hd, fun h => by cases h⟩
  · rw [e]
    simp only
    refine Holds.ite (fun _ => Holds.pure ⟨hlt, a, b, hd, fun h => by cases h⟩) (fun h1 => ?_)
    refine Holds.ite (fun h2 => ?_) (fun h2 => ?_)
    · refine Holds.bind (Holds.while (fun t : Option UInt8 × Nat => t.2 ≤ d.length) (fun t => (d.length - t.2) + (if t.1 = none then 0 else 1)) ?_ _ _ hlt (by simp; omega)) (fun t ht => ?_)
      · intro t htl hc
        have h3 : t.1 = some 32 := by simpa using hc
        rcases fgetc_cases d t.2 htl with ⟨e, e'⟩ | ⟨hl, e⟩
        · rw [e]; refine Holds.pure ⟨htl, ?_⟩; simp [h3]
        · rw [e]; refine Holds.pure ⟨hl, ?_⟩; simp [h3]; omega
      · obtain ⟨t1, t2⟩ := t
        exact Holds.pure ⟨by have := ht.1; simp at this ⊢; omega, a, b, hd, fun h => by cases h⟩
    · have hpr : isprint (some d[s.pos]) = true := by
        rcases ht d[s.pos] (List.getElem_mem hlt) with h | h | h
        · exact absurd (.inl (by rw [h])) h1
        · exact absurd (.inr (.inl (by rw [h]))) h1
        · simpa [isprint] using h
      rw [if_neg (by simp [hpr])]
      refine Holds.pure ⟨hlt, a, b.drop 1, ?_, fun _ => ?_⟩
      · have hb : b = d[s.pos] :: b.drop 1 := by
          have : d.drop s.pos = b := by rw [← hpos, ← List.length_append]; conv_lhs => rw [hd]
                                        simp
          rw [← this, List.drop_drop, ← List.drop_eq_getElem_cons hlt]
        conv_lhs => rw [hd, hb]
        simp
      · simp; omega

theorem iFgetw_holds {d : List UInt8} (ht : ∀ c ∈ d, c = 10 ∨ c = 0 ∨ (32 ≤ c ∧ c ≤ 126)) {p : Nat} (hp : p ≤ d.length) : Holds (iFgetw d p) (fun r => r.1 <:+: d ∧ r.2 ≤ d.length) := by
  unfold iFgetw
  refine Holds.bind (Holds.loop (fun _ s => Word d s) ⟨hp, d.take p, d.drop p, by simp, fun _ => by simp; omega⟩ ?_) (fun s hs => ?_)
  · intro k s _ h
    refine Holds.ite (fun _ => Holds.pure h) (fun ho => wordStep_holds ht s h (by simpa using ho))
  · obtain ⟨h1, a, b, e, -⟩ := hs
    exact Holds.pure ⟨⟨a, b, e.symm⟩, h1⟩

theorem number_lt (ds : List UInt8) (h : ∀ c ∈ ds, 48 ≤ c ∧ c ≤ 57) : number ds < 10 ^ ds.length := by
  induction ds with
  | nil => simp [number]
  | cons c ds ih =>
    have := ih (fun x hx => h x (by simp [hx]))
    have hc : c.toNat - 48 ≤ 9 := by
      have := (h c (by simp)).2
      rw [UInt8.le_iff_toNat_le] at this
      simp at this
      omega
    simp only [number, List.length_cons, Nat.pow_succ]
    have := Nat.mul_le_mul_right (10 ^ ds.length) hc
    omega

theorem atoi_holds {d w : List UInt8} (ht : PalFileSpec.Tame d) (hw : w <:+: d) : Holds (atoi w) (fun v => 0 ≤ v ∧ v < 1000000000) := by
  unfold atoi
  simp only
  obtain ⟨t, hteq⟩ : ∃ t, t = (if (w.head? == some 45) = true ∨ w.head? = some 43 then w.drop 1 else w) := ⟨_, rfl⟩
  rw [← hteq]
  have htw : t <:+: w := by
    rw [hteq]
    split
    · exact (List.drop_suffix 1 w).isInfix
    · exact List.infix_refl w
  have hdig : ∀ c ∈ t.takeWhile Pnm.isdigit, 48 ≤ c ∧ c ≤ 57 := by
    intro c hc
    simpa [Pnm.isdigit] using (List.all_eq_true.mp (List.all_takeWhile (p := Pnm.isdigit) (l := t)) c hc)
  have hlen := ht.short _ (((List.takeWhile_prefix Pnm.isdigit).isInfix.trans htw).trans hw) hdig
  have hval : Pnm.val (t.takeWhile Pnm.isdigit) = number (t.takeWhile Pnm.isdigit) := by
    unfold Pnm.val
    rw [Pnm.val_eq]
    simp
  have hlt := number_lt _ hdig
  have hpow : 10 ^ (t.takeWhile Pnm.isdigit).length ≤ 10 ^ 9 := Nat.pow_le_pow_right (by decide) (by omega)
  rw [hval, if_neg (by omega)]
  by_cases hneg : (w.head? == some 45) = true
  · have : t.takeWhile Pnm.isdigit = [] := by
      cases w with
      | nil => simp at hneg
      | cons x w =>
        have hx : x = 45 := by simpa using hneg
        subst hx
        rw [if_pos (.inl hneg)] at hteq
        rw [hteq]
        show ((w : List UInt8)).takeWhile Pnm.isdigit = []
        cases w with
        | nil => rfl
        | cons y w =>
          refine List.takeWhile_cons_of_neg ?_
          intro hy
          exact ht.minus y (List.IsInfix.trans (l₂ := 45 :: y :: w) ⟨[], w, rfl⟩ hw) (by simpa [Pnm.isdigit] using hy)
    rw [this]
    exact Holds.pure (by simp [hneg, number])
  · rw [if_neg hneg]
    exact Holds.pure ⟨by omega, by omega⟩

end DevIL.PalFile
