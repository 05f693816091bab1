import Verif.Lemmas.StackSub
/-! Lemmas for C65 (new sub-image chains) and C66 (shutdown). -/
set_option autoImplicit false
namespace DevIL.Stack

theorem bind_eq_ok {α β : Type} {x : C α} {f : α → C β} {b : β} (h : (x >>= f) = .ok b) :
    ∃ a, x = .ok a ∧ f a = .ok b := by
  cases x with
  | error e => cases h
  | ok a => exact ⟨a, rfl, h⟩

theorem load_ok {h : Heap} {p : Nat} {n : Node} (e : load h p = .ok n) : h[p]? = some (Cell.live n) := by
  unfold load at e
  split at e
  · rename_i m hm; cases e; exact hm
  · cases e
  · cases e

theorem store_ok {h h' : Heap} {p : Nat} {n : Node} (e : store h p n = .ok h') : h' = h.set p (.live n) := by
  unfold store at e
  split at e
  · cases e; rfl
  · cases e
  · cases e

theorem free_ok {h h' : Heap} {p : Nat} (e : free h p = .ok h') : h' = h.set p .freed := by
  unfold free at e
  split at e
  · cases e; rfl
  · cases e
  · cases e

theorem closeField_length {rec : Heap → Nat → C Heap} {p : Nat} {get : Node → Option Nat} {clr : Node → Node}
    {h h' : Heap} (hr : ∀ (h h' : Heap) (q : Nat), rec h q = .ok h' → h'.length = h.length)
    (e : closeField rec p get clr h = .ok h') : h'.length = h.length := by
  unfold closeField at e
  obtain ⟨n, _, e⟩ := bind_eq_ok e
  cases hg : get n with
  | none => rw [hg] at e; cases e; rfl
  | some q =>
    rw [hg] at e
    obtain ⟨h1, e1, e⟩ := bind_eq_ok e
    obtain ⟨m, _, e⟩ := bind_eq_ok e
    rw [store_ok e, List.length_set]; exact hr _ _ _ e1

theorem close_length : ∀ (fuel : Nat) (h h' : Heap) (q : Nat), close fuel h q = .ok h' → h'.length = h.length := by
  intro fuel
  induction fuel with
  | zero => intro h h' q e; cases e
  | succ fuel ih =>
    intro h h' q e
    unfold close at e
    obtain ⟨h1, e1, e⟩ := bind_eq_ok e
    obtain ⟨h2, e2, e⟩ := bind_eq_ok e
    obtain ⟨h3, e3, e⟩ := bind_eq_ok e
    obtain ⟨h4, e4, e⟩ := bind_eq_ok e
    rw [free_ok e, List.length_set, closeField_length ih e4, closeField_length ih e3, closeField_length ih e2,
      closeField_length ih e1]

theorem closeOpt_length {h h' : Heap} {q : Option Nat} (e : closeOpt h q = .ok h') : h'.length = h.length := by
  cases q with
  | none => cases e; rfl
  | some q => exact close_length _ _ _ _ e

/-- The new images: `sub` and `k` more behind it, linked through `next`; their other links are empty. -/
theorem chainNext_chain : ∀ (k : Nat) (h : Heap) (sub : Nat), h[sub]? = some (Cell.live fresh) →
    ∃ h' ch, chainNext k h sub = .ok h' ∧ Chain .next h' sub ch ∧ ch.length = k + 1 ∧
      (∀ i, i < h.length → i ≠ sub → h'[i]? = h[i]?) ∧
      (∃ n, h'[sub]? = some (Cell.live n) ∧ n.faces = none ∧ n.mips = none ∧ n.layers = none) := by
  intro k
  induction k with
  | zero =>
    intro h sub hs
    exact ⟨h, [sub], rfl, .last hs rfl, rfl, fun _ _ _ => rfl, fresh, hs, rfl, rfl, rfl⟩
  | succ k ih =>
    intro h sub hs
    have hlt := (List.getElem?_eq_some_iff.mp hs).1
    obtain ⟨e1, e2⟩ := attach_eq (l := .next) hs
    have e2' : store (h ++ [Cell.live fresh]) sub { fresh with next := some h.length } =
      .ok (attach .next h sub fresh) := e2
    have hlen := attach_length (l := .next) (h := h) (c := sub) (n := fresh)
    obtain ⟨h', ch, e, c, hl, un, _⟩ := ih (attach .next h sub fresh) h.length (attach_get_new hs)
    have hsub : h'[sub]? = some (Cell.live (Link.next.set fresh (some h.length))) := by
      rw [un sub (by omega) (by omega)]; exact attach_get_c hs
    refine ⟨h', sub :: ch, ?_, .cons hsub rfl c, by simp [hl], ?_, _, hsub, rfl, rfl, rfl⟩
    · simp only [chainNext, newImage, e1, bind_ok, e2', e]
    · intro i hi hne
      rw [un i (by omega) (by omega), attach_get_ne hne hi]

/-- What `ilCreateSubImage` builds. -/
theorem createSub_chain {s s' : Sys} {c type num r : Nat} {l : Link} (hc : s.cur = some c) (hl : subLink type = some l)
    (hn : 0 < num) (e : ilCreateSubImage s type num = .ok (r, s')) :
    r = num ∧ s'.cur = some c ∧ s'.errs = s.errs ∧ ∃ q n ch, s'.heap[c]? = some (Cell.live n) ∧ l.get n = some q ∧
      Chain .next s'.heap q ch ∧ ch.length = num ∧
      (∃ m, s'.heap[q]? = some (Cell.live m) ∧ m.faces = none ∧ m.mips = none ∧ m.layers = none) := by
  unfold ilCreateSubImage at e
  split at e
  · rename_i e'; rw [hc] at e'; cases e'
  rename_i c' hc'
  have ecc : c = c' := Option.some.inj (hc.symm.trans hc')
  subst ecc
  rw [if_neg (by omega), hl] at e
  simp only at e
  obtain ⟨n, e1, e⟩ := bind_eq_ok e
  obtain ⟨h1, e2, e⟩ := bind_eq_ok e
  have hlt := (List.getElem?_eq_some_iff.mp (load_ok e1)).1
  have hlen := closeOpt_length e2
  simp only [newImage] at e
  obtain ⟨n', e3, e⟩ := bind_eq_ok e
  obtain ⟨h2, e4, e⟩ := bind_eq_ok e
  obtain ⟨h3, e5, e⟩ := bind_eq_ok e
  cases e
  have hq : h2[h1.length]? = some (Cell.live fresh) := by
    rw [store_ok e4, List.getElem?_set_ne (by omega)]; simp
  have hcc : h2[c]? = some (Cell.live (l.set n' (some h1.length))) := by
    rw [store_ok e4]
    exact List.getElem?_set_self (by simp; omega)
  obtain ⟨h', ch, e', ck, hl', un, hm⟩ := chainNext_chain (num - 1) h2 h1.length hq
  rw [e5] at e'; cases e'
  have hl2 : h2.length = h1.length + 1 := by rw [store_ok e4]; simp
  refine ⟨rfl, hc, rfl, h1.length, l.set n' (some h1.length), ch, ?_, by cases l <;> rfl, ck, by omega, hm⟩
  rw [un c (by omega) (by omega)]; exact hcc

/-! ### Shutdown -/

theorem roots_cons_none (st : List (Option Nat)) (L : List Nat) : roots (none :: st) L = roots st L := by
  funext t; simp [roots]

theorem roots_cons_some (p : Nat) (st : List (Option Nat)) (L : List Nat) :
    roots (some p :: st) L = add p (roots st L) := by
  funext t
  simp only [roots, add, List.count_cons, beq_iff_eq, Option.some.injEq]
  by_cases e : p = t
  · subst e; simp; omega
  · simp [e, Ne.symm e]

theorem closeAll_spec : ∀ (st : List (Option Nat)) (h : Heap) (L : List Nat), WF h [] (roots st L) →
    ∃ h', closeAll st h = .ok h' ∧ WF h' [] (roots [] L) ∧ h'.length = h.length ∧
      (NoFaces h → NoLeak h [] [] (roots st L) → NoFaces h' ∧ NoLeak h' [] [] (roots [] L)) := by
  intro st
  induction st with
  | nil => intro h L w; exact ⟨h, rfl, w, rfl, fun f n => ⟨f, n⟩⟩
  | cons p st ih =>
    intro h L w
    cases p with
    | none =>
      rw [roots_cons_none] at w ⊢
      exact ih h L w
    | some p =>
      rw [roots_cons_some] at w ⊢
      obtain ⟨h1, e1, w1, s1, n1⟩ := close_spec (h.length + 1) h p (by omega) [] _ w (by simp)
      obtain ⟨h2, e2, w2, l2, n2⟩ := ih h1 L w1
      refine ⟨h2, by simp only [closeAll, e1, bind_ok, e2], w2, by rw [l2, s1.len], fun f nl => ?_⟩
      exact n2 (s1.noFaces f) (n1 f [] (by simp) nl)

/-- Without roots nothing is alive. -/
theorem nothing_live {h : Heap} (w : WF h [] (roots [] [])) (nl : NoLeak h [] [] (roots [] [])) (x : Nat) :
    ¬ Live h x := by
  have key : ∀ b x, x < b → ¬ Live h x := by
    intro b
    induction b with
    | zero => intro x hb; omega
    | succ b ih =>
      intro x hb hx
      have hc := nl x hx (by simp)
      unfold cnt at hc
      obtain ⟨i, _, hi⟩ := sumTo_pos (n := h.length)
        (f := fun i => if i ∈ ([] : List Nat) then 0 else (kids h i).count x) (by simpa [roots] using hc)
      simp only [List.not_mem_nil, if_false] at hi
      have hk := List.count_pos_iff.mp hi
      have hup := w.up i (by simp) x hk
      refine ih i (by omega) ?_
      unfold kids at hk
      unfold Live
      cases hg : h[i]? with
      | none => rw [hg] at hk; cases hk
      | some c =>
        cases c with
        | freed => rw [hg] at hk; cases hk
        | live n => exact ⟨n, rfl⟩
  exact key (x + 1) x (by omega)

end DevIL.Stack
