import Verif.Lemmas.Stack
/-! Invariant of the image table over histories of calls. -/
set_option autoImplicit false
namespace DevIL.Stack

/-- `x` is the object `q` or one of its direct or indirect sub-images. -/
inductive Reach (h : Heap) (q : Nat) : Nat → Prop where
  | refl : Reach h q q
  | step {i t : Nat} : Reach h q i → t ∈ kids h i → Reach h q t

/-- Name `n` has an image. -/
def SlotLive (s : Sys) (n : Nat) : Prop := ∃ q, s.stack[n]? = some (some q)

def roots (stack : List (Option Nat)) (L : List Nat) : Nat → Nat :=
  fun t => stack.count (some t) + L.count t

structure Inv (s : Sys) (L : List Nat) : Prop where
  wf : WF s.heap [] (roots s.stack L)
  nf : NoFaces s.heap
  zero : SlotLive s 0
  used : ∀ i, s.lastUsed ≤ i → ¬ SlotLive s i
  le : s.lastUsed ≤ s.stack.length
  free : ∀ n ∈ s.free, 0 < n ∧ n < s.lastUsed
  cur : ∃ c q, s.cur = some c ∧ Reach s.heap q c ∧ (s.stack[s.curName]? = some (some q) ∨ q ∈ L)

/-- What holds as long as no deleted name is bound again. -/
structure Tidy (s : Sys) (L : List Nat) : Prop where
  nil : L = []
  noLeak : NoLeak s.heap [] [] (roots s.stack L)
  nodup : s.free.Nodup
  free : ∀ n ∈ s.free, ¬ SlotLive s n

/-- Name `m` and everything below its image is as before. -/
def Same (s s' : Sys) (m : Nat) : Prop :=
  ∀ q, s.stack[m]? = some (some q) →
    s'.stack[m]? = some (some q) ∧ ∀ x, Reach s.heap q x → s'.heap[x]? = s.heap[x]? ∧ Reach s'.heap q x

theorem Same.refl (s : Sys) (m : Nat) : Same s s m := fun _ h => ⟨h, fun _ hx => ⟨rfl, hx⟩⟩

theorem Same.trans {s s' s'' : Sys} {m : Nat} (h1 : Same s s' m) (h2 : Same s' s'' m) : Same s s'' m := by
  intro q hq
  obtain ⟨a, b⟩ := h1 q hq
  obtain ⟨c, d⟩ := h2 q a
  refine ⟨c, fun x hx => ?_⟩
  obtain ⟨e, f⟩ := b x hx
  obtain ⟨g, i⟩ := d x f
  exact ⟨g.trans e, i⟩

theorem Inv.pos {s : Sys} {L : List Nat} (I : Inv s L) : 0 < s.lastUsed := by
  apply Decidable.byContradiction
  intro h
  exact I.used 0 (by omega) I.zero

theorem Inv.ne_nil {s : Sys} {L : List Nat} (I : Inv s L) : s.stack ≠ [] := by
  intro h
  obtain ⟨q, hq⟩ := I.zero
  rw [h] at hq; cases hq

theorem SlotLive.lt {s : Sys} {n : Nat} (h : SlotLive s n) : n < s.stack.length := by
  obtain ⟨q, hq⟩ := h
  exact (List.getElem?_eq_some_iff.mp hq).1

/-! #### Counting roots -/

theorem count_set (l : List (Option Nat)) (n : Nat) (v w : Option Nat) (t : Nat) (hv : l[n]? = some v) :
    (l.set n w).count (some t) + (if v = some t then 1 else 0) = l.count (some t) + (if w = some t then 1 else 0) := by
  induction l generalizing n with
  | nil => cases hv
  | cons a l ih =>
    cases n with
    | zero =>
      simp only [List.getElem?_cons_zero, Option.some.injEq] at hv
      subst hv
      simp only [List.set_cons_zero, List.count_cons, beq_iff_eq]
      omega
    | succ n =>
      simp only [List.getElem?_cons_succ] at hv
      have := ih n hv
      simp only [List.set_cons_succ, List.count_cons]
      omega

theorem count_replicate_none (k t : Nat) : (List.replicate k (none : Option Nat)).count (some t) = 0 := by
  rw [List.count_eq_zero]
  intro h
  have := List.eq_of_mem_replicate h
  cases this

theorem root_pos {s : Sys} {L : List Nat} {n q : Nat} (h : s.stack[n]? = some (some q)) :
    0 < roots s.stack L q := by
  have : some q ∈ s.stack := List.mem_of_getElem? h
  have := List.count_pos_iff.mpr this
  unfold roots; omega

/-! #### Reachability -/

theorem cnt_kid {h : Heap} {X : List Nat} {r : Nat → Nat} {i t : Nat} (hi : i ∉ X) (ht : t ∈ kids h i) :
    0 < cnt h X r t := by
  have hlt : i < h.length := by
    apply Decidable.byContradiction
    intro hn
    rw [kids, List.getElem?_eq_none (by omega)] at ht
    cases ht
  have h1 := le_sumTo (n := h.length) (fun i => if i ∈ X then 0 else (kids h i).count t) hlt
  have h2 := List.count_pos_iff.mpr ht
  simp only [hi, if_false] at h1
  unfold cnt; omega

theorem Reach.cnt_pos {h : Heap} {r : Nat → Nat} {q x : Nat} (hr : Reach h q x) (hq : 0 < r q) :
    0 < cnt h [] r x := by
  cases hr with
  | refl => unfold cnt; omega
  | step _ ht => exact cnt_kid (by simp) ht

theorem Reach.live {h : Heap} {r : Nat → Nat} {q x : Nat} (w : WF h [] r) (hr : Reach h q x) (hq : 0 < r q) :
    Live h x := w.live x (hr.cnt_pos hq)

theorem Reach.le {h : Heap} {r : Nat → Nat} {q x : Nat} (w : WF h [] r) (hr : Reach h q x) : q ≤ x := by
  induction hr with
  | refl => exact Nat.le_refl _
  | step _ ht ih => have := w.up _ (by simp) _ ht; omega

/-- Everything below a remaining root survives. -/
theorem Reach.keep {h h' : Heap} {r' : Nat → Nat} {p q x : Nat} (hs : Shrink h h' p) (w' : WF h' [] r')
    (hq : 0 < r' q) (hr : Reach h q x) : h'[x]? = h[x]? ∧ Reach h' q x := by
  have key : ∀ x, Reach h' q x → h'[x]? = h[x]? := by
    intro x hx
    obtain ⟨n, hn⟩ := hx.live w' hq
    rw [hn, hs.live hn]
  induction hr with
  | refl => exact ⟨key q .refl, .refl⟩
  | step _ ht ih =>
    have : Reach h' q _ := .step ih.2 (by rw [kids, ih.1]; exact ht)
    exact ⟨key _ this, this⟩

theorem Reach.append {h : Heap} {c : Cell} {q x : Nat} (hr : Reach h q x) : Reach (h ++ [c]) q x := by
  induction hr with
  | refl => exact .refl
  | step _ ht ih =>
    refine .step ih ?_
    rename_i i t _
    have hlt : i < h.length := by
      apply Decidable.byContradiction
      intro hn
      rw [kids, List.getElem?_eq_none (by omega)] at ht
      cases ht
    rw [kids, List.getElem?_append_left hlt]
    exact ht

/-! #### Allocation -/

theorem fresh_kids : fresh.kids = [] := rfl

theorem cnt_alloc (h : Heap) (X : List Nat) (r : Nat → Nat) (t : Nat) :
    cnt (h ++ [Cell.live fresh]) X r t = cnt h X r t := by
  unfold cnt
  rw [List.length_append]
  show r t + sumTo (h.length + 1) _ = _
  rw [sumTo]
  have h1 : (if h.length ∈ X then 0 else (kids (h ++ [Cell.live fresh]) h.length).count t) = 0 := by
    split
    · rfl
    · simp [kids, fresh_kids]
  have h2 := sumTo_congr (n := h.length)
    (f := fun i => if i ∈ X then 0 else (kids (h ++ [Cell.live fresh]) i).count t)
    (g := fun i => if i ∈ X then 0 else (kids h i).count t)
    (fun i hi => by simp only [kids, List.getElem?_append_left hi])
  simp only [h1, h2, Nat.add_zero]

theorem live_append {h : Heap} {c : Cell} {t : Nat} (hl : Live h t) : Live (h ++ [c]) t := by
  obtain ⟨n, hn⟩ := hl
  exact ⟨n, by rw [List.getElem?_append_left (List.getElem?_eq_some_iff.mp hn).1]; exact hn⟩

theorem live_alloc (h : Heap) : Live (h ++ [Cell.live fresh]) h.length := ⟨fresh, by simp⟩

theorem WF.fresh_cnt {h : Heap} {X : List Nat} {r : Nat → Nat} (w : WF h X r) : cnt h X r h.length = 0 := by
  apply Decidable.byContradiction
  intro hn
  have := (w.live h.length (by omega)).lt
  omega

theorem WF.alloc {h : Heap} {X : List Nat} {r : Nat → Nat} (w : WF h X r) :
    WF (h ++ [Cell.live fresh]) X (add h.length r) := by
  have hc : ∀ t, cnt (h ++ [Cell.live fresh]) X (add h.length r) t = (if t = h.length then 1 else 0) + cnt h X r t := by
    intro t
    rw [cnt_alloc]
    simp only [cnt, add]; omega
  constructor
  · intro t ht
    rw [hc] at ht
    by_cases e : t = h.length
    · rw [e]; exact live_alloc h
    · simp only [e, if_false] at ht
      exact live_append (w.live t (by omega))
  · intro t
    rw [hc]
    by_cases e : t = h.length
    · subst e; simp [w.fresh_cnt]
    · simp only [e, if_false]; have := w.uniq t; omega
  · intro i hi t ht
    by_cases hlt : i < h.length
    · rw [kids, List.getElem?_append_left hlt] at ht
      exact w.up i hi t ht
    · by_cases e : i = h.length
      · subst e; simp [kids, fresh_kids] at ht
      · rw [kids, List.getElem?_eq_none (by simp; omega)] at ht
        cases ht

theorem NoLeak.alloc {h : Heap} {X Y : List Nat} {r : Nat → Nat} (hn : NoLeak h X Y r) :
    NoLeak (h ++ [Cell.live fresh]) X Y (add h.length r) := by
  intro t ht hY
  rw [cnt_alloc]
  by_cases e : t = h.length
  · simp [cnt, add, e]; omega
  · obtain ⟨n, hm⟩ := ht
    have hlt : t < h.length := by
      have := (List.getElem?_eq_some_iff.mp hm).1
      simp at this; omega
    rw [List.getElem?_append_left hlt] at hm
    have := hn t ⟨n, hm⟩ hY
    simp only [cnt, add] at this ⊢; omega

theorem NoFaces.alloc {h : Heap} (f : NoFaces h) : NoFaces (h ++ [Cell.live fresh]) := by
  intro i n hn
  by_cases hlt : i < h.length
  · rw [List.getElem?_append_left hlt] at hn; exact f i n hn
  · have := (List.getElem?_eq_some_iff.mp hn).1
    have e : i = h.length := by simp at this; omega
    subst e
    simp only [List.getElem?_concat_length, Option.some.injEq, Cell.live.injEq] at hn
    rw [← hn]; rfl

/-! #### Enlarging the table -/

theorem enlarge_slot (s : Sys) (n q : Nat) :
    (enlarge s).stack[n]? = some (some q) ↔ s.stack[n]? = some (some q) := by
  unfold enlarge
  simp only
  by_cases h : n < s.stack.length
  · rw [List.getElem?_append_left h]
  · rw [List.getElem?_append_right (by omega), List.getElem?_eq_none (l := s.stack) (by omega)]
    constructor
    · intro e
      have := List.mem_of_getElem? e
      have := List.eq_of_mem_replicate this
      cases this
    · intro e; cases e

theorem enlarge_live (s : Sys) (n : Nat) : SlotLive (enlarge s) n ↔ SlotLive s n := by
  unfold SlotLive
  simp only [enlarge_slot]

theorem enlarge_roots (s : Sys) (L : List Nat) : roots (enlarge s).stack L = roots s.stack L := by
  funext t
  simp [roots, enlarge, List.count_append, count_replicate_none]

theorem enlarge_length (s : Sys) : (enlarge s).stack.length = s.stack.length + 1024 := by
  show (s.stack ++ List.replicate increment none).length = _
  rw [List.length_append, List.length_replicate]; rfl

theorem Inv.enlarge {s : Sys} {L : List Nat} (I : Inv s L) : Inv (enlarge s) L := by
  refine ⟨?_, I.nf, (enlarge_live s 0).mpr I.zero, fun i hi => ?_, ?_, I.free, ?_⟩
  · rw [enlarge_roots]; exact I.wf
  · rw [enlarge_live]; exact I.used i hi
  · have := I.le; rw [enlarge_length]; show s.lastUsed ≤ _; omega
  · obtain ⟨c, q, h1, h2, h3⟩ := I.cur
    refine ⟨c, q, h1, h2, ?_⟩
    rcases h3 with h3 | h3
    · exact Or.inl ((enlarge_slot s _ q).mpr h3)
    · exact Or.inr h3

theorem Tidy.enlarge {s : Sys} {L : List Nat} (T : Tidy s L) : Tidy (enlarge s) L := by
  refine ⟨T.nil, ?_, T.nodup, fun n hn => ?_⟩
  · rw [enlarge_roots]; exact T.noLeak
  · rw [enlarge_live]; exact T.free n hn

theorem Same.enlarge (s : Sys) (m : Nat) : Same s (enlarge s) m :=
  fun q hq => ⟨(enlarge_slot s m q).mpr hq, fun _ hx => ⟨rfl, hx⟩⟩

/-! #### A new image in a slot -/

/-- The state after `ImageStack[n] = ilNewImage(...)`. -/
def place (s : Sys) (n : Nat) : Sys :=
  { s with heap := s.heap ++ [Cell.live fresh], stack := s.stack.set n (some s.heap.length) }

theorem place_slot_ne {s : Sys} {n m : Nat} (h : m ≠ n) : (place s n).stack[m]? = s.stack[m]? :=
  List.getElem?_set_ne (Ne.symm h)

theorem place_slot_self {s : Sys} {n : Nat} (h : n < s.stack.length) :
    (place s n).stack[n]? = some (some s.heap.length) := List.getElem?_set_self h

theorem place_live {s : Sys} {n m : Nat} (h : n < s.stack.length) :
    SlotLive (place s n) m ↔ m = n ∨ SlotLive s m := by
  by_cases e : m = n
  · subst e; simp only [true_or, iff_true]; exact ⟨_, place_slot_self h⟩
  · unfold SlotLive; rw [place_slot_ne e]; simp [e]

theorem place_same {s : Sys} {L : List Nat} (I : Inv s L) {n m : Nat} (h : m ≠ n) : Same s (place s n) m := by
  intro q hq
  refine ⟨by rw [place_slot_ne h]; exact hq, fun x hx => ⟨?_, hx.append⟩⟩
  exact List.getElem?_append_left (hx.live I.wf (root_pos hq)).lt

theorem place_roots {s : Sys} {L : List Nat} {n : Nat} {v : Option Nat} (hv : s.stack[n]? = some v) :
    roots (place s n).stack (v.toList ++ L) = add s.heap.length (roots s.stack L) := by
  funext t
  have := count_set s.stack n v (some s.heap.length) t hv
  have hL : (v.toList ++ L).count t = (if v = some t then 1 else 0) + L.count t := by
    cases v with
    | none => simp
    | some q =>
      by_cases e : q = t
      · subst e; simp; omega
      · simp [e]
  simp only [roots, place, add, hL]
  by_cases e : t = s.heap.length
  · subst e; simp only [if_true] at this ⊢; omega
  · have e' : ¬ s.heap.length = t := fun h => e h.symm
    simp only [Option.some.injEq, e, e', if_false] at this ⊢; omega

theorem place_inv {s : Sys} {L : List Nat} (I : Inv s L) {n : Nat} {v : Option Nat}
    (hv : s.stack[n]? = some v) (hn : n < s.lastUsed) : Inv (place s n) (v.toList ++ L) := by
  have hlt : n < s.stack.length := by have := I.le; omega
  refine ⟨?_, I.nf.alloc, (place_live hlt).mpr (Or.inr I.zero), fun i hi => ?_, ?_, I.free, ?_⟩
  · rw [place_roots hv]; exact I.wf.alloc
  · rw [place_live hlt]
    intro h
    rcases h with h | h
    · have : s.lastUsed ≤ i := hi
      omega
    · exact I.used i hi h
  · show s.lastUsed ≤ (s.stack.set n _).length
    rw [List.length_set]; exact I.le
  · obtain ⟨c, q, h1, h2, h3⟩ := I.cur
    refine ⟨c, q, h1, h2.append, ?_⟩
    rcases h3 with h3 | h3
    · by_cases e : s.curName = n
      · rw [e, hv] at h3
        cases h3
        exact Or.inr (by simp)
      · exact Or.inl (by show (place s n).stack[s.curName]? = _; rw [place_slot_ne e]; exact h3)
    · exact Or.inr (by simp [h3])

theorem place_noLeak {s : Sys} {L : List Nat} {n : Nat} {v : Option Nat} (hv : s.stack[n]? = some v)
    (h : NoLeak s.heap [] [] (roots s.stack L)) :
    NoLeak (place s n).heap [] [] (roots (place s n).stack (v.toList ++ L)) := by
  rw [place_roots hv]; exact h.alloc

/-! #### ilGenImages -/

theorem bump_inv {s : Sys} {L : List Nat} (I : Inv s L) {k : Nat} (h1 : s.lastUsed ≤ k) (h2 : k ≤ s.stack.length) :
    Inv { s with lastUsed := k } L :=
  ⟨I.wf, I.nf, I.zero, fun i hi => I.used i (Nat.le_trans h1 hi), h2,
   fun n hn => ⟨(I.free n hn).1, Nat.lt_of_lt_of_le (I.free n hn).2 h1⟩, I.cur⟩

theorem slot_none {s : Sys} {n : Nat} (hlt : n < s.stack.length) (h : ¬ SlotLive s n) : s.stack[n]? = some none := by
  rw [List.getElem?_eq_getElem hlt]
  cases hc : s.stack[n] with
  | none => rfl
  | some q => exact absurd ⟨q, by rw [List.getElem?_eq_getElem hlt, hc]⟩ h

theorem gen1_spec {s : Sys} {L : List Nat} (I : Inv s L) :
    ∃ n s' L', gen1 s = .ok (n, s') ∧ Inv s' L' ∧ 0 < n ∧ (∀ m, SlotLive s' m ↔ m = n ∨ SlotLive s m) ∧
      s'.free = s.free.tail ∧ (∀ m ∈ s.free, m = n ∨ m ∈ s'.free) ∧ (Tidy s L → Tidy s' L' ∧ ¬ SlotLive s n ∧ n ∉ s'.free) ∧
      (∀ m, m ≠ n → Same s s' m) ∧ s'.cur = s.cur ∧ s'.curName = s.curName := by
  unfold gen1
  cases hf : s.free with
  | cons n rest =>
    have hn := I.free n (by simp [hf])
    have hlt : n < s.stack.length := by have := I.le; omega
    have hv := List.getElem?_eq_getElem hlt
    refine ⟨n, { place s n with free := rest }, s.stack[n].toList ++ L, ?_, ?_, hn.1, fun m => place_live hlt, rfl,
      ?_, ?_, fun m hm => place_same I hm, rfl, rfl⟩
    · simp only [newImage, wr_of_lt hlt, bind_ok, pure_eq_ok, place]
    · have I' := place_inv I hv hn.2
      exact ⟨I'.wf, I'.nf, I'.zero, I'.used, I'.le, fun m hm => I.free m (by rw [hf]; exact List.mem_cons_of_mem _ hm),
        I'.cur⟩
    · intro m hm
      rcases List.mem_cons.mp hm with e | e
      · exact Or.inl e
      · exact Or.inr e
    · intro T
      have hd := T.nodup
      rw [hf] at hd
      obtain ⟨hd1, hd2⟩ := List.nodup_cons.mp hd
      have hns := T.free n (by simp [hf])
      have hnone := slot_none hlt hns
      have hv' : s.stack[n] = none := by rw [hv] at hnone; exact Option.some.inj hnone
      refine ⟨⟨by simp [hv', T.nil], place_noLeak hv T.noLeak, hd2, fun m hm => ?_⟩, hns, hd1⟩
      show ¬ SlotLive (place s n) m
      rw [place_live hlt]
      intro h
      rcases h with h | h
      · subst h; exact hd1 hm
      · exact T.free m (by rw [hf]; exact List.mem_cons_of_mem _ hm) h
  | nil =>
    obtain ⟨s1, hs1, I1, T1, S1, hlt, hu, hl, hfr, hcu, hcn⟩ : ∃ s1 : Sys, (if s.lastUsed ≥ s.stack.length then enlarge s else s) = s1 ∧
        Inv s1 L ∧ (Tidy s L → Tidy s1 L) ∧ (∀ m, Same s s1 m) ∧ s1.lastUsed < s1.stack.length ∧ s1.lastUsed = s.lastUsed ∧
        (∀ m, SlotLive s1 m ↔ SlotLive s m) ∧ s1.free = s.free ∧ s1.cur = s.cur ∧ s1.curName = s.curName := by
      by_cases h : s.lastUsed ≥ s.stack.length
      · refine ⟨_, if_pos h, I.enlarge, Tidy.enlarge, Same.enlarge s, ?_, rfl, enlarge_live s, rfl, rfl, rfl⟩
        rw [enlarge_length]; have := I.le; show s.lastUsed < _; omega
      · exact ⟨s, if_neg h, I, id, Same.refl s, by omega, rfl, fun _ => Iff.rfl, rfl, rfl, rfl⟩
    simp only [hs1]
    have hns : ¬ SlotLive s1 s1.lastUsed := I1.used _ (Nat.le_refl _)
    have hnone := slot_none hlt hns
    have Ib := bump_inv I1 (k := s1.lastUsed + 1) (by omega) (by omega)
    have Ip := place_inv Ib (n := s1.lastUsed) (v := none) hnone (Nat.lt_succ_self _)
    refine ⟨s1.lastUsed, place { s1 with lastUsed := s1.lastUsed + 1 } s1.lastUsed, L, ?_, by simpa using Ip, I1.pos, ?_, ?_,
      by simp, ?_, ?_, hcu, hcn⟩
    · simp only [newImage, wr_of_lt hlt, bind_ok, pure_eq_ok, place]
    · intro m
      rw [place_live (s := { s1 with lastUsed := s1.lastUsed + 1 }) hlt]
      show m = _ ∨ SlotLive s1 m ↔ _
      rw [hl]
    · show s1.free = _
      rw [hfr, hf]; rfl
    · intro T
      have T1 := T1 T
      have hfn : (place { s1 with lastUsed := s1.lastUsed + 1 } s1.lastUsed).free = [] := by
        show s1.free = []; rw [hfr, hf]
      refine ⟨⟨T.nil, ?_, by rw [hfn]; exact List.nodup_nil, by rw [hfn]; intro n hn; cases hn⟩, ?_, by rw [hfn]; simp⟩
      · have := place_noLeak (s := { s1 with lastUsed := s1.lastUsed + 1 }) (L := L) (n := s1.lastUsed) hnone T1.noLeak
        simpa using this
      · rw [← hl]; exact hns
    · intro m hm
      exact (S1 m).trans (place_same (s := { s1 with lastUsed := s1.lastUsed + 1 }) Ib hm)

theorem genLoop_spec : ∀ (k : Nat) (s : Sys) (L : List Nat), Inv s L →
    ∃ ns s' L', genLoop k s = .ok (ns, s') ∧ ns.length = k ∧ Inv s' L' ∧ (∀ n ∈ ns, 0 < n) ∧
      (∀ m, SlotLive s' m ↔ m ∈ ns ∨ SlotLive s m) ∧ (∀ m ∈ s'.free, m ∈ s.free) ∧ (∀ m ∈ s.free, m ∈ ns ∨ m ∈ s'.free) ∧
      (Tidy s L → Tidy s' L' ∧ (∀ n ∈ ns, ¬ SlotLive s n ∧ n ∉ s'.free) ∧ ns.Nodup) ∧
      (∀ m, m ∉ ns → Same s s' m) ∧ s'.cur = s.cur ∧ s'.curName = s.curName := by
  intro k
  induction k with
  | zero =>
    intro s L I
    exact ⟨[], s, L, rfl, rfl, I, by simp, by simp, fun _ h => h, fun _ h => Or.inr h, fun T => ⟨T, by simp, List.nodup_nil⟩,
      fun m _ => Same.refl s m, rfl, rfl⟩
  | succ k ih =>
    intro s L I
    obtain ⟨n, s1, L1, e1, I1, p1, l1, f1, g1, t1, m1, c1, d1⟩ := gen1_spec I
    obtain ⟨ns, s2, L2, e2, len2, I2, p2, l2, f2, g2, t2, m2, c2, d2⟩ := ih s1 L1 I1
    refine ⟨n :: ns, s2, L2, ?_, by simp [len2], I2, ?_, ?_, ?_, ?_, ?_, ?_, by rw [c2, c1], by rw [d2, d1]⟩
    · simp only [genLoop, e1, e2, bind_ok, pure_eq_ok]
    · intro m hm
      rcases List.mem_cons.mp hm with e | e
      · rw [e]; exact p1
      · exact p2 m e
    · intro m
      rw [l2, l1, List.mem_cons]
      constructor
      · rintro (h | h | h)
        · exact Or.inl (Or.inr h)
        · exact Or.inl (Or.inl h)
        · exact Or.inr h
      · rintro ((h | h) | h)
        · exact Or.inr (Or.inl h)
        · exact Or.inl h
        · exact Or.inr (Or.inr h)
    · intro m hm
      have := f2 m hm
      rw [f1] at this
      exact List.mem_of_mem_tail this
    · intro m hm
      rcases g1 m hm with h | h
      · exact Or.inl (by simp [h])
      · rcases g2 m h with h | h
        · exact Or.inl (List.mem_cons_of_mem _ h)
        · exact Or.inr h
    · intro T
      obtain ⟨T1, hn1, hf1⟩ := t1 T
      obtain ⟨T2, hn2, nd⟩ := t2 T1
      refine ⟨T2, ?_, ?_⟩
      · intro m hm
        rcases List.mem_cons.mp hm with e | e
        · rw [e]; exact ⟨hn1, fun h => hf1 (f2 n h)⟩
        · exact ⟨fun h => (hn2 m e).1 ((l1 m).mpr (Or.inr h)), (hn2 m e).2⟩
      · refine List.nodup_cons.mpr ⟨fun h => ?_, nd⟩
        exact (hn2 n h).1 ((l1 n).mpr (Or.inl rfl))
    · intro m hm
      rw [List.mem_cons, not_or] at hm
      exact (m1 m hm.1).trans (m2 m hm.2)

/-! #### ilBindImage -/

theorem enlargeTo_spec (image : Nat) : ∀ (fuel : Nat) (s : Sys) (L : List Nat), Inv s L →
    image < s.stack.length + fuel * 1024 → 0 < fuel → image < s.stack.length + (fuel - 1) * 1024 →
    ∃ s', enlargeTo image fuel s = .ok s' ∧ Inv s' L ∧ image < s'.stack.length ∧ (Tidy s L → Tidy s' L) ∧
      (∀ m, Same s s' m) ∧ (∀ m q : Nat, s'.stack[m]? = some (some q) ↔ s.stack[m]? = some (some q)) ∧ s'.free = s.free ∧
      s'.lastUsed = s.lastUsed ∧ s'.heap = s.heap := by
  intro fuel
  induction fuel with
  | zero => intro s L _ _ h; omega
  | succ fuel ih =>
    intro s L I h1 _ h2
    unfold enlargeTo
    by_cases hc : image ≥ s.stack.length
    · rw [if_pos hc]
      have hl := enlarge_length s
      have hf : 0 < fuel := by
        rcases Nat.eq_zero_or_pos fuel with h | h
        · subst h; omega
        · exact h
      obtain ⟨f, rfl⟩ : ∃ f, fuel = f + 1 := ⟨fuel - 1, by omega⟩
      obtain ⟨s', e, I', lt, T', S', sl, fr, lu, hp⟩ := ih (enlarge s) L I.enlarge (by rw [hl]; omega) hf
        (by rw [hl]; simp only [Nat.add_sub_cancel] at h2 ⊢; omega)
      refine ⟨s', e, I', lt, fun T => T' T.enlarge, fun m => (Same.enlarge s m).trans (S' m), ?_, fr, lu, hp⟩
      intro m q; rw [sl, enlarge_slot]
    · rw [if_neg hc]
      exact ⟨s, rfl, I, by omega, id, Same.refl s, fun _ _ => Iff.rfl, rfl, rfl, rfl⟩

theorem bind_spec {s : Sys} {L : List Nat} (I : Inv s L) (n : Nat) :
    ∃ s', ilBindImage s n = .ok s' ∧ Inv s' L ∧ (∀ m, SlotLive s' m ↔ m = n ∨ SlotLive s m) ∧ s'.free = s.free ∧
      (Tidy s L → n ∉ s.free → Tidy s' L) ∧ (∀ m, Same s s' m) ∧ s'.curName = n ∧ s'.stack[n]? = some s'.cur := by
  unfold ilBindImage
  rw [if_neg I.ne_nil]
  obtain ⟨s1, e1, I1, lt1, T1, S1, sl1, f1, u1, h1⟩ := enlargeTo_spec n (n + 1) s L I (by omega) (by omega)
    (by have : 0 < s.stack.length := List.length_pos_iff.mpr I.ne_nil; omega)
  simp only [e1, bind_ok]
  have live1 : ∀ m, SlotLive s1 m ↔ SlotLive s m := fun m => by simp only [SlotLive, sl1]
  rw [rd_of_lt lt1]
  simp only [bind_ok]
  have hv := List.getElem?_eq_getElem lt1
  cases hc : s1.stack[n] with
  | some p =>
    rw [hc] at hv
    refine ⟨_, rfl, ?_, ?_, f1, ?_, S1, rfl, hv⟩
    · exact ⟨I1.wf, I1.nf, I1.zero, I1.used, I1.le, I1.free, p, p, rfl, .refl, Or.inl hv⟩
    · intro m
      show SlotLive s1 m ↔ _
      rw [live1]
      constructor
      · exact Or.inr
      · rintro (h | h)
        · subst h; exact (live1 m).mp ⟨p, hv⟩
        · exact h
    · intro T _
      have T1 := T1 T
      exact ⟨T1.nil, T1.noLeak, T1.nodup, T1.free⟩
  | none =>
    rw [hc] at hv
    simp only [newImage, wr_of_lt lt1, bind_ok]
    obtain ⟨k, hk, hk1, hk2, hk3⟩ : ∃ k, (if n ≥ s1.lastUsed then n + 1 else s1.lastUsed) = k ∧ s1.lastUsed ≤ k ∧
        k ≤ s1.stack.length ∧ n < k := by
      have := I1.le
      by_cases h : n ≥ s1.lastUsed
      · exact ⟨_, if_pos h, by omega, by omega, by omega⟩
      · exact ⟨_, if_neg h, by omega, by omega, by omega⟩
    rw [hk]
    have Ib := bump_inv I1 hk1 hk2
    have Ip := place_inv Ib (n := n) (v := none) hv hk3
    have hself : (place { s1 with lastUsed := k } n).stack[n]? = some (some s1.heap.length) :=
      place_slot_self (s := { s1 with lastUsed := k }) lt1
    refine ⟨_, rfl, ?_, ?_, f1, ?_, ?_, rfl, hself⟩
    · exact ⟨Ip.wf, Ip.nf, Ip.zero, Ip.used, Ip.le, Ip.free, _, _, rfl, .refl, Or.inl hself⟩
    · intro m
      show SlotLive (place { s1 with lastUsed := k } n) m ↔ _
      rw [place_live (s := { s1 with lastUsed := k }) lt1]
      show m = n ∨ SlotLive s1 m ↔ _
      rw [live1]
    · intro T hn
      have T1 := T1 T
      refine ⟨T1.nil, ?_, T1.nodup, fun m hm => ?_⟩
      · exact place_noLeak (s := { s1 with lastUsed := k }) (L := L) (n := n) hv T1.noLeak
      · show ¬ SlotLive (place { s1 with lastUsed := k } n) m
        rw [place_live (s := { s1 with lastUsed := k }) lt1]
        rintro (h | h)
        · subst h
          exact hn (f1 ▸ hm)
        · exact T1.free m hm h
    · intro m
      by_cases e : m = n
      · subst e
        intro q hq
        have := (sl1 m q).mpr hq
        rw [hv] at this; cases this
      · exact (S1 m).trans (place_same (s := { s1 with lastUsed := k }) Ib e)

/-! #### ilDeleteImages -/

theorem delete1_spec {s : Sys} {L : List Nat} (I : Inv s L) (n : Nat) :
    ∃ s', delete1 s n = .ok s' ∧ Inv s' L ∧ (∀ m, SlotLive s' m ↔ SlotLive s m ∧ (m ≠ n ∨ n = 0)) ∧
      (∀ m, m ∈ s'.free ↔ m ∈ s.free ∨ (m = n ∧ n ≠ 0 ∧ SlotLive s n)) ∧ (Tidy s L → Tidy s' L) ∧
      (∀ m, m ≠ n ∨ n = 0 → Same s s' m) ∧
      (s.curName = n → n ≠ 0 → SlotLive s n → s'.curName = 0 ∧ s'.stack[0]? = some s'.cur) ∧
      (s.curName ≠ n ∨ n = 0 → s'.curName = s.curName ∧ s'.cur = s.cur) := by
  unfold delete1
  by_cases hc : n > 0 ∧ n < s.lastUsed
  rotate_left
  · rw [if_neg hc]
    have hnl : n ≠ 0 → ¬ SlotLive s n := fun h => I.used n (by omega)
    refine ⟨s, rfl, I, fun m => ⟨fun h => ⟨h, ?_⟩, fun h => h.1⟩, fun m => ⟨Or.inl, ?_⟩, id, fun m _ => Same.refl s m,
      fun _ h2 h3 => absurd h3 (hnl h2), fun _ => ⟨rfl, rfl⟩⟩
    · by_cases h0 : n = 0
      · exact Or.inr h0
      · exact Or.inl (fun e => hnl h0 (e ▸ h))
    · rintro (h | ⟨_, h2, h3⟩)
      · exact h
      · exact absurd h3 (hnl h2)
  rw [if_pos hc]
  have hlt : n < s.stack.length := by have := I.le; omega
  rw [rd_of_lt hlt]
  simp only [bind_ok]
  have hv := List.getElem?_eq_getElem hlt
  have hn0 : n ≠ 0 := by omega
  cases hcs : s.stack[n] with
  | none =>
    rw [hcs] at hv
    have hnl : ¬ SlotLive s n := by rintro ⟨q, hq⟩; rw [hv] at hq; cases hq
    refine ⟨s, rfl, I, fun m => ⟨fun h => ⟨h, Or.inl (fun e => hnl (e ▸ h))⟩, fun h => h.1⟩, fun m => ⟨Or.inl, ?_⟩, id,
      fun m _ => Same.refl s m, fun _ _ h3 => absurd h3 hnl, fun _ => ⟨rfl, rfl⟩⟩
    rintro (h | ⟨_, _, h3⟩)
    · exact h
    · exact absurd h3 hnl
  | some p =>
    rw [hcs] at hv
    obtain ⟨z, hz⟩ := I.zero
    rw [rd_of_some hz]
    simp only [bind_ok]
    -- the roots left when slot n is cleared
    have hroots : roots s.stack L = add p (roots (s.stack.set n none) L) := by
      funext t
      have := count_set s.stack n (some p) none t hv
      by_cases e : t = p
      · subst e; simp [roots, add] at this ⊢; omega
      · have e' : ¬ p = t := fun h => e h.symm
        simp [roots, add, e, e'] at this ⊢; omega
    have w := I.wf
    rw [hroots] at w
    obtain ⟨h', ec, w', sh, nl⟩ := close_spec (s.heap.length + 1) s.heap p (by omega) [] _ w (by simp)
    obtain ⟨s1, hs1, hh, hst, hfr, hlu, hcur⟩ : ∃ s1 : Sys, (if n = s.curName ∨ n = 0 then { s with cur := some z, curName := 0 } else s) = s1 ∧
        s1.heap = s.heap ∧ s1.stack = s.stack ∧ s1.free = s.free ∧ s1.lastUsed = s.lastUsed ∧
        ((n = s.curName ∧ s1.cur = some z ∧ s1.curName = 0) ∨ (n ≠ s.curName ∧ s1.cur = s.cur ∧ s1.curName = s.curName)) := by
      by_cases h : n = s.curName
      · exact ⟨_, if_pos (Or.inl h), rfl, rfl, rfl, rfl, Or.inl ⟨h, rfl, rfl⟩⟩
      · exact ⟨_, if_neg (fun h' => h'.elim h hn0), rfl, rfl, rfl, rfl, Or.inr ⟨h, rfl, rfl⟩⟩
    rw [hs1]
    simp only [hh, hst, ec, bind_ok, wr_of_lt hlt, hfr]
    have hslot : ∀ m, m ≠ n → (s.stack.set n none)[m]? = s.stack[m]? := fun m hm => List.getElem?_set_ne (Ne.symm hm)
    have hslotn : (s.stack.set n none)[n]? = some none := List.getElem?_set_self hlt
    have hz' : (s.stack.set n none)[0]? = some (some z) := by rw [hslot 0 (by omega)]; exact hz
    have live' : ∀ m, (∃ q, (s.stack.set n none)[m]? = some (some q)) ↔ SlotLive s m ∧ m ≠ n := by
      intro m
      by_cases e : m = n
      · rw [e, hslotn]; simp
      · rw [hslot m e]; exact ⟨fun h => ⟨h, e⟩, fun h => h.1⟩
    have keep : ∀ (q : Nat), 0 < roots (s.stack.set n none) L q → ∀ x, Reach s.heap q x → h'[x]? = s.heap[x]? ∧ Reach h' q x :=
      fun q hq x hx => hx.keep sh w' hq
    refine ⟨_, rfl, ⟨w', sh.noFaces I.nf, ⟨z, hz'⟩, ?_, ?_, ?_, ?_⟩, ?_, ?_, ?_, ?_, ?_, ?_⟩
    · intro i hi h
      have := (live' i).mp h
      rw [hlu] at hi
      exact I.used i hi this.1
    · show s1.lastUsed ≤ (s.stack.set n none).length
      rw [List.length_set, hlu]; exact I.le
    · intro m hm
      rw [hlu]
      rcases List.mem_cons.mp hm with e | e
      · rw [e]; exact hc
      · exact I.free m e
    · rcases hcur with ⟨_, h2, h3⟩ | ⟨h1, h2, h3⟩
      · exact ⟨z, z, h2, .refl, Or.inl (by show (s.stack.set n none)[s1.curName]? = _; rw [h3]; exact hz')⟩
      · obtain ⟨c, q, k1, k2, k3⟩ := I.cur
        rcases k3 with k3 | k3
        · have : (s.stack.set n none)[s.curName]? = some (some q) := by rw [hslot _ (Ne.symm h1)]; exact k3
          refine ⟨c, q, h2.trans k1, (keep q ?_ c k2).2, Or.inl (by show (s.stack.set n none)[s1.curName]? = _; rw [h3]; exact this)⟩
          have := List.count_pos_iff.mpr (List.mem_of_getElem? this)
          simp only [roots]; omega
        · refine ⟨c, q, h2.trans k1, (keep q ?_ c k2).2, Or.inr k3⟩
          have := List.count_pos_iff.mpr k3
          simp only [roots]; omega
    · intro m
      refine (live' m).trans ⟨fun h => ⟨h.1, Or.inl h.2⟩, fun h => ⟨h.1, ?_⟩⟩
      rcases h.2 with e | e
      · exact e
      · exact absurd e hn0
    · intro m
      show m ∈ n :: s.free ↔ _
      rw [List.mem_cons]
      constructor
      · rintro (h | h)
        · exact Or.inr ⟨h, hn0, p, hv⟩
        · exact Or.inl h
      · rintro (h | h)
        · exact Or.inr h
        · exact Or.inl h.1
    · intro T
      refine ⟨T.nil, ?_, ?_, ?_⟩
      · refine nl I.nf [] (by simp) ?_
        rw [← hroots]; exact T.noLeak
      · refine List.nodup_cons.mpr ⟨fun h => ?_, T.nodup⟩
        exact T.free n h ⟨p, hv⟩
      · intro m hm h
        have := (live' m).mp h
        rcases List.mem_cons.mp hm with e | e
        · exact this.2 e
        · exact T.free m e this.1
    · intro m hm q hq
      have hmn : m ≠ n := by
        rcases hm with h | h
        · exact h
        · exact absurd h hn0
      have : (s.stack.set n none)[m]? = some (some q) := by rw [hslot m hmn]; exact hq
      refine ⟨this, keep q ?_⟩
      have := List.count_pos_iff.mpr (List.mem_of_getElem? this)
      simp only [roots]; omega
    · intro e _ _
      rcases hcur with ⟨_, h2, h3⟩ | ⟨h1, _, _⟩
      · exact ⟨h3, by show (s.stack.set n none)[0]? = some s1.cur; rw [h2]; exact hz'⟩
      · exact absurd e.symm h1
    · intro e
      have e : s.curName ≠ n := by
        rcases e with h | h
        · exact h
        · exact absurd h hn0
      rcases hcur with ⟨h1, _, _⟩ | ⟨_, h2, h3⟩
      · exact absurd h1.symm e
      · exact ⟨h3, h2⟩

theorem deleteLoop_spec : ∀ (ns : List Nat) (s : Sys) (L : List Nat), Inv s L →
    ∃ s', deleteLoop ns s = .ok s' ∧ Inv s' L ∧ (∀ m, SlotLive s' m ↔ SlotLive s m ∧ (m = 0 ∨ m ∉ ns)) ∧
      (∀ m, m ∈ s'.free ↔ m ∈ s.free ∨ (m ∈ ns ∧ m ≠ 0 ∧ SlotLive s m)) ∧ (Tidy s L → Tidy s' L) ∧
      (∀ m, m ∉ ns ∨ m = 0 → Same s s' m) := by
  intro ns
  induction ns with
  | nil =>
    intro s L I
    exact ⟨s, rfl, I, by simp, by simp, id, fun m _ => Same.refl s m⟩
  | cons n ns ih =>
    intro s L I
    obtain ⟨s1, e1, I1, l1, f1, t1, m1, -, -⟩ := delete1_spec I n
    obtain ⟨s2, e2, I2, l2, f2, t2, m2⟩ := ih s1 L I1
    refine ⟨s2, by simp only [deleteLoop, e1, bind_ok, e2], I2, ?_, ?_, fun T => t2 (t1 T), ?_⟩
    · intro m
      rw [l2, l1, List.mem_cons, not_or]
      constructor
      · rintro ⟨⟨h1, h2⟩, h3⟩
        refine ⟨h1, ?_⟩
        by_cases h0 : m = 0
        · exact Or.inl h0
        · rcases h3 with h3 | h3
          · exact absurd h3 h0
          · refine Or.inr ⟨?_, h3⟩
            rcases h2 with h2 | h2
            · exact h2
            · intro e; exact h0 (e.trans h2)
      · rintro ⟨h1, h2⟩
        rcases h2 with h2 | ⟨h2, h3⟩
        · refine ⟨⟨h1, ?_⟩, Or.inl h2⟩
          by_cases hn : n = 0
          · exact Or.inr hn
          · exact Or.inl (by omega)
        · exact ⟨⟨h1, Or.inl h2⟩, Or.inr h3⟩
    · intro m
      rw [f2, f1, l1, List.mem_cons]
      constructor
      · rintro ((h | ⟨h1, h2, h3⟩) | ⟨h1, h2, h3⟩)
        · exact Or.inl h
        · exact Or.inr ⟨Or.inl h1, by omega, h1 ▸ h3⟩
        · exact Or.inr ⟨Or.inr h1, h2, h3.1⟩
      · rintro (h | ⟨h1, h2, h3⟩)
        · exact Or.inl (Or.inl h)
        · by_cases e : m = n
          · exact Or.inl (Or.inr ⟨e, by omega, e ▸ h3⟩)
          · rcases h1 with h1 | h1
            · exact absurd h1 e
            · exact Or.inr ⟨h1, h2, h3, Or.inl e⟩
    · intro m hm
      rw [List.mem_cons, not_or] at hm
      refine (m1 m ?_).trans (m2 m ?_)
      · rcases hm with h | h
        · exact Or.inl h.1
        · by_cases hn : n = 0
          · exact Or.inr hn
          · exact Or.inl (by omega)
      · rcases hm with h | h
        · exact Or.inl h.2
        · exact Or.inr h

end DevIL.Stack
