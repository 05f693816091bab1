import Verif.Buf
/-! A small toolkit for "does not fault, and the result satisfies P". -/
set_option autoImplicit false
namespace DevIL

variable {α β σ : Type}

/-- The computation does not fault and its result satisfies `P`. -/
def Holds (c : C α) (P : α → Prop) : Prop := ∃ a, c = .ok a ∧ P a

theorem Holds.intro {c : C α} {P : α → Prop} (a : α) (h : c = .ok a) (p : P a) : Holds c P := ⟨a, h, p⟩

theorem Holds.pure {P : α → Prop} {a : α} (h : P a) : Holds (Pure.pure a : C α) P := ⟨a, rfl, h⟩

theorem Holds.ok {P : α → Prop} {a : α} (h : P a) : Holds (.ok a : C α) P := ⟨a, rfl, h⟩

theorem Holds.bind {c : C α} {f : α → C β} {P : α → Prop} {Q : β → Prop} (h : Holds c P) (hf : ∀ a, P a → Holds (f a) Q) :
    Holds (c >>= f) Q := by
  obtain ⟨a, e, p⟩ := h
  rw [e, bind_ok]
  exact hf a p

theorem Holds.mono {c : C α} {P Q : α → Prop} (h : Holds c P) (hq : ∀ a, P a → Q a) : Holds c Q := by
  obtain ⟨a, e, p⟩ := h
  exact ⟨a, e, hq a p⟩

theorem Holds.ite {p : Prop} [Decidable p] {c d : C α} {P : α → Prop} (h1 : p → Holds c P) (h2 : ¬ p → Holds d P) :
    Holds (if p then c else d) P := by
  by_cases h : p
  · rw [if_pos h]; exact h1 h
  · rw [if_neg h]; exact h2 h

theorem Holds.rd {b : List β} {i : Nat} (h : i < b.length) : Holds (DevIL.rd b i) (fun v => b[i]? = some v) :=
  ⟨b[i], rd_of_lt h, List.getElem?_eq_getElem h⟩

theorem Holds.wr {b : List β} {i : Nat} {v : β} (h : i < b.length) :
    Holds (DevIL.wr b i v) (fun b' => b'.length = b.length ∧ b' = b.set i v) :=
  ⟨_, wr_of_lt h, by simp, rfl⟩

theorem Holds.loop {f : Nat → σ → C σ} (I : Nat → σ → Prop) {n : Nat} {s : σ} (h0 : I 0 s)
    (hs : ∀ k t, k < n → I k t → Holds (f k t) (I (k + 1))) : Holds (loopN n f s) (I n) := by
  obtain ⟨t, e, h⟩ := loopN_inv (f := f) I h0 hs
  exact ⟨t, e, h⟩

theorem Holds.while {c : σ → Bool} {f : σ → C σ} (I : σ → Prop) (μ : σ → Nat)
    (hs : ∀ s, I s → c s = true → Holds (f s) (fun t => I t ∧ μ t < μ s)) :
    ∀ (fuel : Nat) (s : σ), I s → μ s < fuel → Holds (whileF c f fuel s) (fun t => I t ∧ c t = false) := by
  intro fuel
  induction fuel with
  | zero => intro s _ h; omega
  | succ fuel ih =>
    intro s hi hf
    unfold whileF
    refine Holds.ite (fun hc => ?_) (fun hc => ?_)
    · exact (hs s hi hc).bind (fun t ht => ih t ht.1 (by omega))
    · exact Holds.ok ⟨hi, by simpa using hc⟩

end DevIL
