import Verif.Hoare
/-! A small toolkit for "if it does not fault, the result satisfies P". -/
set_option autoImplicit false
namespace DevIL

variable {α β σ : Type}

/-- If the computation does not fault, its result satisfies `P`. -/
def Post (c : C α) (P : α → Prop) : Prop := ∀ a, c = .ok a → P a

theorem Post.any (c : C α) : Post c (fun _ => True) := fun _ _ => trivial

theorem Post.pure {P : α → Prop} {a : α} (h : P a) : Post (Pure.pure a : C α) P := fun _ e => (Except.ok.inj e) ▸ h

theorem Post.ok {P : α → Prop} {a : α} (h : P a) : Post (.ok a : C α) P := fun _ e => (Except.ok.inj e) ▸ h

theorem Post.error {P : α → Prop} (e : Fault) : Post (.error e : C α) P := fun _ h => nomatch h

theorem Post.of_holds {c : C α} {P : α → Prop} (h : Holds c P) : Post c P := by
  intro a e
  obtain ⟨b, e', p⟩ := h
  rw [e] at e'
  exact Except.ok.inj e' ▸ p

theorem Post.bind {c : C α} {f : α → C β} {P : α → Prop} {Q : β → Prop} (h : Post c P) (hf : ∀ a, P a → Post (f a) Q) :
    Post (c >>= f) Q := by
  intro b e
  cases hc : c with
  | error x => rw [hc] at e; cases e
  | ok a => rw [hc, bind_ok] at e; exact hf a (h a hc) b e

theorem Post.bind' {c : C α} {f : α → C β} {Q : β → Prop} (hf : ∀ a, Post (f a) Q) : Post (c >>= f) Q :=
  (Post.any c).bind fun a _ => hf a

theorem Post.mono {c : C α} {P Q : α → Prop} (h : Post c P) (hq : ∀ a, P a → Q a) : Post c Q := fun a e => hq a (h a e)

theorem Post.ite {p : Prop} [Decidable p] {c d : C α} {P : α → Prop} (h1 : p → Post c P) (h2 : ¬ p → Post d P) :
    Post (if p then c else d) P := by
  by_cases h : p
  · rw [if_pos h]; exact h1 h
  · rw [if_neg h]; exact h2 h

theorem Post.loop {f : Nat → σ → C σ} (I : Nat → σ → Prop) {n : Nat} {s : σ} (h0 : I 0 s)
    (hs : ∀ k t, k < n → I k t → Post (f k t) (I (k + 1))) : Post (loopN n f s) (I n) := by
  induction n with
  | zero => exact Post.ok h0
  | succ n ih =>
    rw [loopN_succ]
    exact (ih fun k t hk => hs k t (by omega)).bind fun t ht => hs n t (by omega) ht

theorem Post.while {c : σ → Bool} {f : σ → C σ} (I : σ → Prop) (hs : ∀ s, I s → c s = true → Post (f s) I) :
    ∀ (fuel : Nat) (s : σ), I s → Post (whileF c f fuel s) (fun t => I t ∧ c t = false) := by
  intro fuel
  induction fuel with
  | zero => intro s _; exact Post.error _
  | succ fuel ih =>
    intro s hi
    unfold whileF
    refine Post.ite (fun hc => ?_) (fun hc => ?_)
    · exact (hs s hi hc).bind (fun t ht => ih t ht)
    · exact Post.ok ⟨hi, by simpa using hc⟩

end DevIL
