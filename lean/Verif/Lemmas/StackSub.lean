import Verif.Lemmas.StackInv
/-! Sub-image chains: creation and selection. -/
set_option autoImplicit false
namespace DevIL.Stack

theorem Link.kids_count (l : Link) (n : Node) (t : Nat) :
    n.kids.count t = (l.get n).toList.count t + (l.set n none).kids.count t := by
  cases l <;> simp [Link.get, Link.set, Node.kids, List.count_append] <;> omega

theorem Link.kids_set (l : Link) (n : Node) (p t : Nat) :
    (l.set n (some p)).kids.count t = (if t = p then 1 else 0) + (l.set n none).kids.count t := by
  have h := l.kids_count (l.set n (some p)) t
  have e1 : l.get (l.set n (some p)) = some p := by cases l <;> rfl
  have e2 : l.set (l.set n (some p)) none = l.set n none := by cases l <;> rfl
  rw [e1, e2] at h
  rw [h]
  by_cases e : t = p
  · subst e; simp
  · have : p ≠ t := fun h => e h.symm
    simp [e, this]

theorem Link.mem_kids {l : Link} {n : Node} {q : Nat} (h : l.get n = some q) : q ∈ n.kids := by
  rw [← List.count_pos_iff, l.kids_count, h]
  simp; omega

theorem Link.set_none {l : Link} {n : Node} (h : l.get n = none) : l.set n none = n := by
  cases l <;> cases n <;> simp_all [Link.get, Link.set]

theorem cnt_open' {h : Heap} {X : List Nat} {r : Nat → Nat} {p : Nat} {n : Node}
    (hp : h[p]? = some (Cell.live n)) (hx : p ∉ X) (t : Nat) :
    cnt h (p :: X) (fun t => n.kids.count t + r t) t = cnt h X r t := by
  rw [← cnt_open hp hx]
  simp only [cnt, addO_apply, Node.kids, List.count_append]
  omega

theorem WF.open' {h : Heap} {r : Nat → Nat} {p : Nat} {n : Node} (w : WF h [] r)
    (hp : h[p]? = some (Cell.live n)) : WF h [p] (fun t => n.kids.count t + r t) :=
  ⟨fun t ht => w.live t (by rwa [cnt_open' hp (by simp)] at ht),
   fun t => by rw [cnt_open' hp (by simp)]; exact w.uniq t, fun i _ => w.up i (by simp)⟩

theorem WF.shut {h : Heap} {r : Nat → Nat} {p : Nat} {n : Node} (hp : h[p]? = some (Cell.live n))
    (w : WF h [p] (fun t => n.kids.count t + r t)) (hk : ∀ t ∈ n.kids, p < t) : WF h [] r := by
  refine ⟨fun t ht => w.live t (by rwa [cnt_open' hp (by simp)]),
   fun t => by rw [← cnt_open' hp (by simp)]; exact w.uniq t, fun i _ t ht => ?_⟩
  by_cases e : i = p
  · rw [e, kids, hp] at ht
    rw [e]; exact hk t ht
  · exact w.up i (by simp [e]) t ht

/-- The heap after `c->link = ilNewImage(...)`. -/
def attach (l : Link) (h : Heap) (c : Nat) (n : Node) : Heap :=
  (h ++ [Cell.live fresh]).set c (.live (l.set n (some h.length)))

theorem attach_eq {l : Link} {h : Heap} {c : Nat} {n : Node} (hc : h[c]? = some (Cell.live n)) :
    load (h ++ [Cell.live fresh]) c = .ok n ∧
      store (h ++ [Cell.live fresh]) c (l.set n (some h.length)) = .ok (attach l h c n) := by
  have hlt := (List.getElem?_eq_some_iff.mp hc).1
  have : (h ++ [Cell.live fresh])[c]? = some (Cell.live n) := by rw [List.getElem?_append_left hlt]; exact hc
  simp only [load, store, this, attach, and_self]

theorem attach_get_c {l : Link} {h : Heap} {c : Nat} {n : Node} (hc : h[c]? = some (Cell.live n)) :
    (attach l h c n)[c]? = some (Cell.live (l.set n (some h.length))) := by
  have hlt := (List.getElem?_eq_some_iff.mp hc).1
  exact List.getElem?_set_self (by simp; omega)

theorem attach_get_ne {l : Link} {h : Heap} {c i : Nat} {n : Node} (hi : i ≠ c) (hlt : i < h.length) :
    (attach l h c n)[i]? = h[i]? := by
  unfold attach
  rw [List.getElem?_set_ne (Ne.symm hi), List.getElem?_append_left hlt]

theorem attach_get_new {l : Link} {h : Heap} {c : Nat} {n : Node} (hc : h[c]? = some (Cell.live n)) :
    (attach l h c n)[h.length]? = some (Cell.live fresh) := by
  have hlt := (List.getElem?_eq_some_iff.mp hc).1
  unfold attach
  rw [List.getElem?_set_ne (by omega)]
  simp

theorem attach_length {l : Link} {h : Heap} {c : Nat} {n : Node} : (attach l h c n).length = h.length + 1 := by
  simp [attach]

theorem attach_wf {l : Link} {h : Heap} {c : Nat} {n : Node} {r : Nat → Nat} (hc : h[c]? = some (Cell.live n))
    (w : WF h [c] (fun t => (l.set n none).kids.count t + r t)) (hk : ∀ t ∈ (l.set n none).kids, c < t) :
    WF (attach l h c n) [] r := by
  have hlt := (List.getElem?_eq_some_iff.mp hc).1
  refine WF.shut (attach_get_c hc) ?_ ?_
  · have w1 := w.alloc
    have e : (fun t => (l.set n (some h.length)).kids.count t + r t) =
        add h.length (fun t => (l.set n none).kids.count t + r t) := by
      funext t
      rw [l.kids_set]
      simp only [add]; omega
    rw [e]
    refine w1.congr (by simp [attach]) (fun i hi => ?_) (fun i hi _ => ?_)
    · exact List.getElem?_set_ne (fun e => hi (by simp [e]))
    · have : i = c := by simpa using hi
      rw [this]; exact ⟨_, attach_get_c hc⟩
  · intro t ht
    rw [← List.count_pos_iff, l.kids_set] at ht
    by_cases e : t = h.length
    · omega
    · simp only [e, if_false] at ht
      exact hk t (List.count_pos_iff.mp (by omega))

theorem attach_noLeak {l : Link} {h : Heap} {c : Nat} {n : Node} {r : Nat → Nat} (hc : h[c]? = some (Cell.live n))
    (w : NoLeak h [c] [] (fun t => (l.set n none).kids.count t + r t)) :
    NoLeak (attach l h c n) [] [] r := by
  have hlt := (List.getElem?_eq_some_iff.mp hc).1
  intro t ht _
  rw [← cnt_open' (attach_get_c hc) (by simp)]
  have e : (fun t => (l.set n (some h.length)).kids.count t + r t) =
      add h.length (fun t => (l.set n none).kids.count t + r t) := by
    funext t
    rw [l.kids_set]
    simp only [add]; omega
  rw [e, cnt_congr (h := h ++ [Cell.live fresh]) (h' := attach l h c n) (by simp [attach])
    (fun i hi => List.getElem?_set_ne (fun e => hi (by simp [e])))]
  refine w.alloc t ?_ (by simp)
  by_cases e : t = c
  · rw [e]; exact live_append ⟨n, hc⟩
  · obtain ⟨m, hm⟩ := ht
    unfold attach at hm
    rw [List.getElem?_set_ne (Ne.symm e)] at hm
    exact ⟨m, hm⟩

theorem attach_noFaces {l : Link} {h : Heap} {c : Nat} {n : Node} (hc : h[c]? = some (Cell.live n))
    (hl : l ≠ .face) (f : NoFaces h) : NoFaces (attach l h c n) := by
  intro i m hm
  by_cases e : i = c
  · rw [e, attach_get_c hc] at hm
    have := f c n hc
    cases hm
    cases l <;> first | exact this | exact absurd rfl hl
  · unfold attach at hm
    rw [List.getElem?_set_ne (Ne.symm e)] at hm
    exact f.alloc i m hm

/-- What the `for` loop of `ilCreateSubImage` does. -/
theorem chainNext_spec : ∀ (k : Nat) (h : Heap) (sub : Nat) (m : Node) (r : Nat → Nat), WF h [] r → NoFaces h →
    h[sub]? = some (Cell.live m) → m.next = none →
    ∃ h', chainNext k h sub = .ok h' ∧ WF h' [] r ∧ NoFaces h' ∧ h.length ≤ h'.length ∧
      (∀ i, i < h.length → i ≠ sub → h'[i]? = h[i]?) ∧ Live h' sub ∧ (NoLeak h [] [] r → NoLeak h' [] [] r) := by
  intro k
  induction k with
  | zero =>
    intro h sub m r w f hs _
    exact ⟨h, rfl, w, f, Nat.le_refl _, fun _ _ _ => rfl, ⟨m, hs⟩, id⟩
  | succ k ih =>
    intro h sub m r w f hs hm
    have hlt := (List.getElem?_eq_some_iff.mp hs).1
    have hset : Link.next.set m none = m := Link.set_none hm
    obtain ⟨e1, e2⟩ := attach_eq (l := .next) hs
    have hk : ∀ t ∈ (Link.next.set m none).kids, sub < t := by
      rw [hset]; intro t ht; exact w.kid_lt hs (by simp) ht
    have w1 : WF (attach .next h sub m) [] r := attach_wf hs (by rw [hset]; exact w.open' hs) hk
    have f1 := attach_noFaces (l := .next) hs (by simp) f
    obtain ⟨h', e, w', f', le, un, lv, nl⟩ := ih (attach .next h sub m) h.length fresh r w1 f1
      (attach_get_new hs) rfl
    have hlen := attach_length (l := .next) (h := h) (c := sub) (n := m)
    refine ⟨h', ?_, w', f', by omega, ?_, ?_, ?_⟩
    · simp only [chainNext, newImage, e1, bind_ok]
      have e2' : store (h ++ [Cell.live fresh]) sub { m with next := some h.length } = .ok (attach .next h sub m) := e2
      rw [e2']; simp only [bind_ok]; exact e
    · intro i hi hne
      rw [un i (by omega) (by omega), attach_get_ne hne hi]
    · unfold Live
      rw [un sub (by omega) (by omega)]
      exact ⟨_, attach_get_c hs⟩
    · intro hn
      refine nl (attach_noLeak hs ?_)
      rw [hset]
      intro t ht hY
      rw [cnt_open' hs (by simp)]
      exact hn t ht hY

theorem Reach.under {h h' : Heap} {r : Nat → Nat} (w : WF h [] r) {q x c : Nat} (he : ∀ i, i < c → h'[i]? = h[i]?)
    (hr : Reach h q x) (hx : x ≤ c) : Reach h' q x := by
  induction hr with
  | refl => exact .refl
  | step _ ht ih =>
    have := w.up _ (by simp) _ ht
    refine .step (ih (by omega)) ?_
    rw [kids, he _ (by omega)]; exact ht

theorem two_le_sumTo {n i j : Nat} {f : Nat → Nat} (hi : i < n) (hj : j < n) (hij : i ≠ j) (h1 : 0 < f i)
    (h2 : 0 < f j) : 2 ≤ sumTo n f := by
  have h := sumTo_update (n := n) (i := i) (f := f) (g := fun k => if k = i then 0 else f k) hi
    (fun k _ hk => by simp [hk])
  have h' := le_sumTo (n := n) (fun k => if k = i then 0 else f k) hj
  simp only [if_true] at h
  simp only [Ne.symm hij, if_false] at h'
  omega

theorem kid_index_lt {h : Heap} {i t : Nat} (ht : t ∈ kids h i) : i < h.length := by
  apply Decidable.byContradiction
  intro hn
  rw [kids, List.getElem?_eq_none (by omega)] at ht
  cases ht

/-- The trees of different roots are disjoint. -/
theorem Reach.unique {h : Heap} {r : Nat → Nat} (w : WF h [] r) {q q' x : Nat} (hq : 0 < r q) (hq' : 0 < r q')
    (h1 : Reach h q x) (h2 : Reach h q' x) : q = q' := by
  have root : ∀ {q i : Nat}, 0 < r q → q ∈ kids h i → False := by
    intro q i hr hk
    have hlt := kid_index_lt hk
    have h1 := le_sumTo (n := h.length) (fun i => if i ∈ ([] : List Nat) then 0 else (kids h i).count q) hlt
    have h2 := List.count_pos_iff.mpr hk
    have h3 := w.uniq q
    simp only [cnt, List.not_mem_nil, if_false] at h1 h3
    omega
  induction h1 with
  | refl =>
    cases h2 with
    | refl => rfl
    | step _ hk => exact (root hq hk).elim
  | step hr hk ih =>
    rename_i i t
    cases h2 with
    | refl => exact (root hq' hk).elim
    | step hr' hk' =>
      rename_i i'
      have hii : i = i' := by
        apply Decidable.byContradiction
        intro hne
        have := two_le_sumTo (f := fun i => if i ∈ ([] : List Nat) then 0 else (kids h i).count t)
          (kid_index_lt hk) (kid_index_lt hk') hne
          (by simpa using hk) (by simpa using hk')
        have h3 := w.uniq t
        simp only [cnt] at h3
        omega
      subst hii
      exact ih hr'

theorem Reach.keep' {h h' : Heap} {r : Nat → Nat} (w : WF h [] r) (w' : WF h' [] r) {c q x : Nat}
    (hs : ∀ (i : Nat) (n : Node), i ≠ c → i < h.length → h'[i]? = some (Cell.live n) → h[i]? = some (Cell.live n))
    (hq : 0 < r q) (hc : ¬ Reach h q c) (hr : Reach h q x) : h'[x]? = h[x]? ∧ Reach h' q x := by
  have key : ∀ x, Reach h q x → Reach h' q x → h'[x]? = h[x]? := by
    intro x h1 h2
    obtain ⟨n, hn⟩ := h2.live w' hq
    rw [hn, hs x n (fun e => hc (e ▸ h1)) (h1.live w hq).lt hn]
  induction hr with
  | refl => exact ⟨key q .refl .refl, .refl⟩
  | step hr ht ih =>
    have : Reach h' q _ := .step ih.2 (by rw [kids, ih.1]; exact ht)
    exact ⟨key _ (.step hr ht) this, this⟩

/-- Bookkeeping shared by the operations that only touch the heap below the bound image. -/
theorem heap_inv {s : Sys} {L : List Nat} (I : Inv s L) {c : Nat} (hcur : s.cur = some c) {h' : Heap}
    (w' : WF h' [] (roots s.stack L)) (f' : NoFaces h') (hb : ∀ i, i < c → h'[i]? = s.heap[i]?)
    (hs : ∀ (i : Nat) (n : Node), i ≠ c → i < s.heap.length → h'[i]? = some (Cell.live n) → s.heap[i]? = some (Cell.live n)) :
    Inv { s with heap := h' } L ∧ ∀ m, m ≠ s.curName → Same s { s with heap := h' } m := by
  obtain ⟨c', q, h1, h2, h3⟩ := I.cur
  have hcc : c' = c := Option.some.inj (h1.symm.trans hcur)
  subst hcc
  have hq : 0 < roots s.stack L q := by
    rcases h3 with h3 | h3
    · exact root_pos h3
    · have := List.count_pos_iff.mpr h3
      simp only [roots]; omega
  refine ⟨⟨w', f', I.zero, I.used, I.le, I.free, c', q, h1, h2.under I.wf hb (Nat.le_refl _), h3⟩, ?_⟩
  intro m hm q' hq'
  refine ⟨hq', fun x hx => ?_⟩
  refine hx.keep' I.wf w' hs (root_pos hq') (fun hc => ?_)
  have e := Reach.unique I.wf hq (root_pos hq') h2 hc
  subst e
  have hu := I.wf.uniq q
  have hge : 2 ≤ roots s.stack L q := by
    rcases h3 with h3 | h3
    · have ha : 2 ≤ s.stack.count (some q) := by
        have := count_set s.stack m (some q) none q hq'
        simp only [if_true, reduceCtorEq, if_false] at this
        have h4 : (s.stack.set m none)[s.curName]? = some (some q) := by
          rw [List.getElem?_set_ne hm]; exact h3
        have := List.count_pos_iff.mpr (List.mem_of_getElem? h4)
        omega
      simp only [roots]; omega
    · have h4 := List.count_pos_iff.mpr h3
      have h5 := List.count_pos_iff.mpr (List.mem_of_getElem? hq')
      simp only [roots]; omega
  simp only [cnt] at hu
  omega

theorem Tidy.heap {s : Sys} {L : List Nat} (T : Tidy s L) {h' : Heap}
    (hn : NoLeak h' [] [] (roots s.stack L)) : Tidy { s with heap := h' } L :=
  ⟨T.nil, hn, T.nodup, T.free⟩

theorem createSub_spec {s : Sys} {L : List Nat} (I : Inv s L) (type num : Nat) :
    ∃ k s', ilCreateSubImage s type num = .ok (k, s') ∧ Inv s' L ∧ s'.stack = s.stack ∧ s'.free = s.free ∧
      s'.cur = s.cur ∧ s'.curName = s.curName ∧
      (Tidy s L → Tidy s' L) ∧ (∀ m, m ≠ s.curName → Same s s' m) := by
  obtain ⟨c, q, h1, h2, h3⟩ := I.cur
  have hq : 0 < roots s.stack L q := by
    rcases h3 with h3 | h3
    · exact root_pos h3
    · have := List.count_pos_iff.mpr h3
      simp only [roots]; omega
  obtain ⟨n, hn⟩ := h2.live I.wf hq
  unfold ilCreateSubImage
  split
  · rename_i e; rw [h1] at e; cases e
  rename_i c' hc'
  have ecc : c = c' := Option.some.inj (h1.symm.trans hc')
  subst ecc
  have errI : ∀ e, Inv { s with errs := e } L ∧ (Tidy s L → Tidy { s with errs := e } L) ∧
      ∀ m, Same s { s with errs := e } m := fun e =>
    ⟨⟨I.wf, I.nf, I.zero, I.used, I.le, I.free, I.cur⟩, fun T => ⟨T.nil, T.noLeak, T.nodup, T.free⟩,
      fun m q hq => ⟨hq, fun _ hx => ⟨rfl, hx⟩⟩⟩
  by_cases hnum : num = 0
  · rw [if_pos hnum]
    exact ⟨0, s, rfl, I, rfl, rfl, rfl, rfl, id, fun m _ => Same.refl s m⟩
  rw [if_neg hnum]
  cases hl : subLink type with
  | none =>
    simp only
    obtain ⟨a, b, d⟩ := errI (IL_INVALID_ENUM :: s.errs)
    exact ⟨0, _, rfl, a, rfl, rfl, rfl, rfl, b, fun m _ => d m⟩
  | some l =>
    simp only
    have hlf : l ≠ .face := by
      intro e; subst e
      unfold subLink at hl
      repeat' split at hl
      all_goals cases hl
    have hlt := (List.getElem?_eq_some_iff.mp hn).1
    have hload : load s.heap c = .ok n := by simp [load, hn]
    rw [hload]
    simp only [bind_ok]
    have hkids : ∀ t ∈ n.kids, c < t := fun t ht => I.wf.kid_lt hn (by simp) ht
    have hkids' : ∀ t ∈ (l.set n none).kids, c < t := by
      intro t ht
      refine hkids t ?_
      have := List.count_pos_iff.mpr ht
      rw [← List.count_pos_iff, l.kids_count]; omega
    -- after closing the old chain
    obtain ⟨h1', e1, w1, hlen1, hb1, hs1, f1, hc1, nl1⟩ : ∃ h1' : Heap,
        closeOpt s.heap (l.get n) = .ok h1' ∧
        WF h1' [c] (fun t => (l.set n none).kids.count t + roots s.stack L t) ∧ h1'.length = s.heap.length ∧
        (∀ i, i < c → h1'[i]? = s.heap[i]?) ∧
        (∀ (i : Nat) (m : Node), h1'[i]? = some (Cell.live m) → s.heap[i]? = some (Cell.live m)) ∧
        NoFaces h1' ∧ h1'[c]? = some (Cell.live n) ∧
        (NoLeak s.heap [] [] (roots s.stack L) →
          NoLeak h1' [c] [] (fun t => (l.set n none).kids.count t + roots s.stack L t)) := by
      have wo := I.wf.open' hn
      have no : NoLeak s.heap [] [] (roots s.stack L) → NoLeak s.heap [c] [] (fun t => n.kids.count t + roots s.stack L t) := by
        intro h t ht hY
        rw [cnt_open' hn (by simp)]
        exact h t ht hY
      cases hg : l.get n with
      | none =>
        have hset := Link.set_none hg
        refine ⟨s.heap, rfl, by rw [hset]; exact wo, rfl, fun _ _ => rfl, fun _ _ h => h, I.nf, hn, ?_⟩
        rw [hset]; exact no
      | some q0 =>
        have hq0 : c < q0 := hkids q0 (Link.mem_kids hg)
        have er : (fun t => n.kids.count t + roots s.stack L t) =
            add q0 (fun t => (l.set n none).kids.count t + roots s.stack L t) := by
          funext t
          rw [l.kids_count, hg]
          simp only [add]
          by_cases e : t = q0
          · subst e; simp; omega
          · have : q0 ≠ t := fun h => e h.symm
            simp [e, this]
        rw [er] at wo no
        obtain ⟨h', e', w', sh, nl⟩ := close_spec (s.heap.length + 1) s.heap q0 (by omega) [c] _ wo (by simpa using hq0)
        refine ⟨h', e', w', sh.len, fun i hi => sh.below i (by omega), fun i m hm => sh.live hm, sh.noFaces I.nf, ?_, ?_⟩
        · rw [sh.below c hq0]; exact hn
        · intro h
          exact nl I.nf [] (by simp) (no h)
    rw [e1]
    simp only [bind_ok, newImage]
    obtain ⟨a1, a2⟩ := attach_eq (l := l) hc1
    rw [a1]; simp only [bind_ok]
    rw [a2]; simp only [bind_ok]
    have w2 : WF (attach l h1' c n) [] (roots s.stack L) := attach_wf hc1 w1 hkids'
    have f2 := attach_noFaces hc1 hlf f1
    have hlen2 := attach_length (l := l) (h := h1') (c := c) (n := n)
    obtain ⟨h3', e3, w3, f3, le3, un3, lv3, nl3⟩ := chainNext_spec (num - 1) (attach l h1' c n) h1'.length fresh _ w2 f2
      (attach_get_new hc1) rfl
    rw [e3]
    simp only [bind_ok]
    have hb : ∀ i, i < c → h3'[i]? = s.heap[i]? := by
      intro i hi
      rw [un3 i (by omega) (by omega), attach_get_ne (by omega) (by omega), hb1 i hi]
    have hs : ∀ (i : Nat) (m : Node), i ≠ c → i < s.heap.length → h3'[i]? = some (Cell.live m) →
        s.heap[i]? = some (Cell.live m) := by
      intro i m hi hil hm
      rw [un3 i (by omega) (by omega), attach_get_ne hi (by omega)] at hm
      exact hs1 i m hm
    obtain ⟨I', S'⟩ := heap_inv I h1 w3 f3 hb hs
    refine ⟨num, _, rfl, I', rfl, rfl, rfl, rfl, fun T => ?_, S'⟩
    exact T.heap (nl3 (attach_noLeak hc1 (nl1 T.noLeak)))

/-! #### Rewriting the contents of the bound image -/

theorem write_spec {s : Sys} {L : List Nat} (I : Inv s L) (v : Nat) :
    ∃ c n, s.cur = some c ∧ s.heap[c]? = some (Cell.live n) ∧
      writeCur s v = .ok { s with heap := s.heap.set c (.live { n with payload := v }) } ∧
      Inv { s with heap := s.heap.set c (.live { n with payload := v }) } L ∧
      (Tidy s L → Tidy { s with heap := s.heap.set c (.live { n with payload := v }) } L) ∧
      (∀ m, m ≠ s.curName → Same s { s with heap := s.heap.set c (.live { n with payload := v }) } m) := by
  obtain ⟨c, q, h1, h2, h3⟩ := I.cur
  have hq : 0 < roots s.stack L q := by
    rcases h3 with h3 | h3
    · exact root_pos h3
    · have := List.count_pos_iff.mpr h3
      simp only [roots]; omega
  obtain ⟨n, hn⟩ := h2.live I.wf hq
  have hlt := (List.getElem?_eq_some_iff.mp hn).1
  have hself : (s.heap.set c (.live { n with payload := v }))[c]? = some (Cell.live { n with payload := v }) :=
    List.getElem?_set_self hlt
  have hkids : ∀ i, kids (s.heap.set c (.live { n with payload := v })) i = kids s.heap i := by
    intro i
    by_cases e : i = c
    · rw [e, kids, kids, hself, hn]; rfl
    · rw [kids, kids, List.getElem?_set_ne (Ne.symm e)]
  have hcnt : ∀ t, cnt (s.heap.set c (.live { n with payload := v })) [] (roots s.stack L) t =
      cnt s.heap [] (roots s.stack L) t := by
    intro t; unfold cnt; rw [List.length_set]; simp only [hkids]
  have hlive : ∀ t, Live (s.heap.set c (.live { n with payload := v })) t ↔ Live s.heap t := by
    intro t
    by_cases e : t = c
    · rw [e]; exact ⟨fun _ => ⟨n, hn⟩, fun _ => ⟨_, hself⟩⟩
    · unfold Live; rw [List.getElem?_set_ne (Ne.symm e)]
  have w' : WF (s.heap.set c (.live { n with payload := v })) [] (roots s.stack L) :=
    ⟨fun t ht => (hlive t).mpr (I.wf.live t (by rwa [hcnt] at ht)), fun t => by rw [hcnt]; exact I.wf.uniq t,
     fun i hi t ht => I.wf.up i hi t (by rwa [hkids] at ht)⟩
  have f' : NoFaces (s.heap.set c (.live { n with payload := v })) := by
    intro i m hm
    by_cases e : i = c
    · rw [e, hself] at hm; cases hm; exact I.nf c n hn
    · rw [List.getElem?_set_ne (Ne.symm e)] at hm; exact I.nf i m hm
  obtain ⟨I', S'⟩ := heap_inv I h1 w' f' (fun i hi => List.getElem?_set_ne (by omega))
    (fun i m hi _ hm => by rwa [List.getElem?_set_ne (Ne.symm hi)] at hm)
  refine ⟨c, n, h1, hn, ?_, I', fun T => T.heap ?_, S'⟩
  · simp only [writeCur, h1, load, store, hn, bind_ok, pure_eq_ok]
  · intro t ht hY
    rw [hcnt]; exact T.noLeak t ((hlive t).mp ht) hY

/-! #### Selecting sub-images -/

/-- The elements met along a link, from `p` to the end. -/
inductive Chain (l : Link) (h : Heap) : Nat → List Nat → Prop where
  | last {p : Nat} {n : Node} : h[p]? = some (Cell.live n) → l.get n = none → Chain l h p [p]
  | cons {p q : Nat} {n : Node} {rest : List Nat} : h[p]? = some (Cell.live n) → l.get n = some q →
      Chain l h q rest → Chain l h p (p :: rest)

theorem Chain.head {l : Link} {h : Heap} {p : Nat} {ch : List Nat} (c : Chain l h p ch) : ch[0]? = some p := by
  cases c <;> rfl

theorem Chain.exists {l : Link} {h : Heap} {r : Nat → Nat} (w : WF h [] r) :
    ∀ (fuel p : Nat), h.length < fuel + p → Live h p → ∃ ch, Chain l h p ch := by
  intro fuel
  induction fuel with
  | zero => intro p hf hp; have := hp.lt; omega
  | succ fuel ih =>
    intro p hf ⟨n, hn⟩
    cases hg : l.get n with
    | none => exact ⟨[p], .last hn hg⟩
    | some q =>
      have hk : q ∈ kids h p := by rw [kids, hn]; exact Link.mem_kids hg
      have hlt := w.up p (by simp) q hk
      obtain ⟨ch, hc⟩ := ih q (by omega) (w.live q (cnt_kid (by simp) hk))
      exact ⟨p :: ch, .cons hn hg hc⟩

theorem Chain.reach {l : Link} {h : Heap} {p q x : Nat} {ch : List Nat} (c : Chain l h p ch) (hr : Reach h q p)
    (hx : x ∈ ch) : Reach h q x := by
  induction c with
  | last hn _ => simp at hx; rw [hx]; exact hr
  | cons hn hg _ ih =>
    rcases List.mem_cons.mp hx with e | e
    · rw [e]; exact hr
    · exact ih (.step hr (by rw [kids, hn]; exact Link.mem_kids hg)) e

theorem walk_spec {l : Link} {h : Heap} : ∀ (k p : Nat) (ch : List Nat), Chain l h p ch → walk l h k p = .ok ch[k]? := by
  intro k
  induction k with
  | zero => intro p ch c; rw [c.head]; rfl
  | succ k ih =>
    intro p ch c
    cases c with
    | last hn hg => simp [walk, load, hn, hg]
    | cons hn hg hc =>
      simp only [walk, load, hn, bind_ok, hg, ih _ _ hc, List.getElem?_cons_succ]

/-- `ilActive*` in terms of the chain that starts at the bound image. -/
theorem active_spec {l : Link} {s : Sys} {c : Nat} {ch : List Nat} (hc : s.cur = some c) (hch : Chain l s.heap c ch) (k : Nat) :
    ilActive l s k = .ok (match ch[k]? with
      | some d => (true, { s with cur := some d })
      | none => (false, { s with errs := IL_ILLEGAL_OPERATION :: s.errs })) := by
  unfold ilActive
  rw [hc]
  simp only
  by_cases hk : k = 0
  · subst hk
    rw [if_pos rfl, hch.head]
    simp only [pure_eq_ok]
    rw [← hc]
  · rw [if_neg hk]
    obtain ⟨j, rfl⟩ : ∃ j, k = j + 1 := ⟨k - 1, by omega⟩
    cases hch with
    | last hn hg => simp [load, hn, hg]
    | cons hn hg hr =>
      rename_i q' n' rest
      simp only [load, hn, bind_ok, hg, Nat.add_sub_cancel, walk_spec _ _ _ hr, List.getElem?_cons_succ]
      cases rest[j]? <;> rfl

theorem active_inv {l : Link} {s : Sys} {L : List Nat} (I : Inv s L) (k : Nat) :
    ∃ b s', ilActive l s k = .ok (b, s') ∧ Inv s' L ∧ s'.stack = s.stack ∧ s'.free = s.free ∧ s'.heap = s.heap ∧
      s'.curName = s.curName ∧ (Tidy s L → Tidy s' L) := by
  obtain ⟨c, q, h1, h2, h3⟩ := I.cur
  have hq : 0 < roots s.stack L q := by
    rcases h3 with h3 | h3
    · exact root_pos h3
    · have := List.count_pos_iff.mpr h3
      simp only [roots]; omega
  obtain ⟨ch, hch⟩ := Chain.exists (l := l) I.wf (s.heap.length + 1) c (by omega) (h2.live I.wf hq)
  rw [active_spec h1 hch]
  cases hk : ch[k]? with
  | none =>
    exact ⟨_, _, rfl, ⟨I.wf, I.nf, I.zero, I.used, I.le, I.free, I.cur⟩, rfl, rfl, rfl, rfl,
      fun T => ⟨T.nil, T.noLeak, T.nodup, T.free⟩⟩
  | some d =>
    exact ⟨_, _, rfl, ⟨I.wf, I.nf, I.zero, I.used, I.le, I.free, d, q, rfl, hch.reach h2 (List.mem_of_getElem? hk), h3⟩,
      rfl, rfl, rfl, rfl, fun T => ⟨T.nil, T.noLeak, T.nodup, T.free⟩⟩

end DevIL.Stack
