import Verif.Lemmas.StackMore
import Verif.Lemmas.StackSub
import Verif.Props.Stack
import Verif.Spec.Copy
/-! Facts about giving images new contents. -/
set_option autoImplicit false
namespace DevIL.Copy
open DevIL.Stack
open DevIL.Utility

/-! ### Closing the sub-images of an object -/

/-- The state while the sub-images of `c` are closed: the object still holds all its pointers, those of `m` are still to be closed. -/
structure Opened (h0 h : Heap) (c : Nat) (n m : Node) (r : Nat → Nat) : Prop where
  wf : WF h [c] (fun t => m.kids.count t + r t)
  len : h.length = h0.length
  below : ∀ i : Nat, i < c → h[i]? = h0[i]?
  sub : ∀ (i : Nat) (k : Node), h[i]? = some (Cell.live k) → h0[i]? = some (Cell.live k)
  nf : NoFaces h
  at_c : h[c]? = some (Cell.live n)
  up : ∀ t ∈ m.kids, c < t
  nl : NoLeak h [c] [] (fun t => m.kids.count t + r t)

theorem Opened.close {h0 h : Heap} {c : Nat} {n m : Node} {r : Nat → Nat} (O : Opened h0 h c n m r) (l : Link) (hl : l.get n = l.get m) :
    ∃ h', closeLink l c h = .ok h' ∧ Opened h0 h' c n (l.set m none) r := by
  have hload : load h c = .ok n := by simp [load, O.at_c]
  have hk : ∀ t ∈ (l.set m none).kids, c < t := by
    intro t ht
    refine O.up t ?_
    have := List.count_pos_iff.mpr ht
    rw [← List.count_pos_iff, l.kids_count]; omega
  unfold closeLink
  rw [hload, bind_ok, hl]
  cases hg : l.get m with
  | none =>
    have e := Link.set_none hg
    exact ⟨h, rfl, by rw [e]; exact O⟩
  | some q =>
    have hq : c < q := O.up q (Link.mem_kids hg)
    have er : (fun t => m.kids.count t + r t) = add q (fun t => (l.set m none).kids.count t + r t) := by
      funext t
      rw [l.kids_count, hg]
      simp only [add]
      by_cases e : t = q
      · subst e; simp; omega
      · have : q ≠ t := fun h => e h.symm
        simp [e, this]
    have w := O.wf
    have nl := O.nl
    rw [er] at w nl
    obtain ⟨h', e', w', sh, nl'⟩ := close_spec (h.length + 1) h q (by omega) [c] _ w (by simpa using hq)
    refine ⟨h', e', w', by rw [sh.len, O.len], fun i hi => by rw [sh.below i (by omega), O.below i hi], fun i k hk => O.sub i k (sh.live hk),
      sh.noFaces O.nf, ?_, hk, nl' O.nf [] (by simp) nl⟩
    rw [sh.below c hq]; exact O.at_c

/-- The pointer `c` leads to an image object and it is current: then there is no other way to it. -/
theorem cur_node {s : Stack.Sys} {L : List Nat} (I : Inv s L) {c : Nat} (hc : s.cur = some c) : ∃ n, s.heap[c]? = some (Cell.live n) := by
  obtain ⟨c', q, h1, h2, h3⟩ := I.cur
  have e : c' = c := Option.some.inj (h1.symm.trans hc)
  subst e
  refine h2.live I.wf ?_
  rcases h3 with h3 | h3
  · exact root_pos h3
  · have := List.count_pos_iff.mpr h3
    simp only [roots]; omega

/-- Closing all sub-images of the current object and replacing it by one without. -/
theorem clear_spec {s : Stack.Sys} (I : Inv s []) (T : Tidy s []) {c : Nat} (hc : s.cur = some c) {n : Node} (hn : s.heap[c]? = some (Cell.live n))
    (v : Nat) :
    ∃ h1 h2 h3 h4, closeLink .mip c s.heap = .ok h1 ∧ closeLink .next c h1 = .ok h2 ∧ closeLink .face c h2 = .ok h3 ∧
      closeLink .layer c h3 = .ok h4 ∧ h4[c]? = some (Cell.live n) ∧ h4.length = s.heap.length ∧
      (∀ (i : Nat) (k : Node), i ≠ c → h4[i]? = some (Cell.live k) → s.heap[i]? = some (Cell.live k)) ∧
      Inv { s with heap := h4.set c (.live ⟨v, none, none, none, none⟩) } [] ∧
      Tidy { s with heap := h4.set c (.live ⟨v, none, none, none, none⟩) } [] ∧
      ∀ m, m ≠ s.curName → Same s { s with heap := h4.set c (.live ⟨v, none, none, none, none⟩) } m := by
  have O : Opened s.heap s.heap c n n (roots s.stack []) :=
    ⟨I.wf.open' hn, rfl, fun _ _ => rfl, fun _ _ h => h, I.nf, hn, fun t ht => I.wf.kid_lt hn (by simp) ht,
     fun t ht hY => by rw [cnt_open' hn (by simp)]; exact T.noLeak t ht hY⟩
  obtain ⟨h1, e1, O1⟩ := O.close .mip rfl
  obtain ⟨h2, e2, O2⟩ := O1.close .next rfl
  obtain ⟨h3, e3, O3⟩ := O2.close .face rfl
  obtain ⟨h4, e4, O4⟩ := O3.close .layer rfl
  refine ⟨h1, h2, h3, h4, e1, e2, e3, e4, O4.at_c, O4.len, fun i k _ => O4.sub i k, ?_⟩
  have hlt := (List.getElem?_eq_some_iff.mp O4.at_c).1
  have hself : (h4.set c (.live ⟨v, none, none, none, none⟩))[c]? = some (Cell.live ⟨v, none, none, none, none⟩) := List.getElem?_set_self hlt
  have hne : ∀ i : Nat, i ≠ c → (h4.set c (.live ⟨v, none, none, none, none⟩))[i]? = h4[i]? := fun i hi => List.getElem?_set_ne (Ne.symm hi)
  have hlive : ∀ i, Live h4 i → Live (h4.set c (.live ⟨v, none, none, none, none⟩)) i := by
    intro i hl
    by_cases e : i = c
    · rw [e]; exact ⟨_, hself⟩
    · unfold Live; rw [hne i e]; exact hl
  have hlive' : ∀ i, Live (h4.set c (.live ⟨v, none, none, none, none⟩)) i → Live h4 i := by
    intro i hl
    by_cases e : i = c
    · rw [e]; exact ⟨_, O4.at_c⟩
    · unfold Live; rw [← hne i e]; exact hl
  have w' : WF (h4.set c (.live ⟨v, none, none, none, none⟩)) [] (roots s.stack []) := by
    refine WF.shut hself ?_ (by simp [Node.kids])
    exact O4.wf.congr (by simp) (fun i hi => hne i (by simpa using hi)) (fun i hi hl => hlive i hl)
  have f' : NoFaces (h4.set c (.live ⟨v, none, none, none, none⟩)) := by
    intro i m hm
    by_cases e : i = c
    · rw [e, hself] at hm; cases hm; rfl
    · rw [hne i e] at hm; exact O4.nf i m hm
  obtain ⟨I', S'⟩ := heap_inv I hc w' f' (fun i hi => by rw [hne i (by omega), O4.below i hi])
    (fun i m hi _ hm => by rw [hne i hi] at hm; exact O4.sub i m hm)
  refine ⟨I', T.heap (fun t ht hY => ?_), S'⟩
  rw [← cnt_open' hself (by simp), cnt_congr (h := h4) (by simp) (fun i hi => hne i (by simpa using hi))]
  exact O4.nl t (hlive' t ht) hY

/-! ### The invariant -/

/-- What holds of every reachable state. -/
structure Good (y : Sys) : Prop where
  inv : Inv y.base []
  tidy : Tidy y.base []
  whole : ∀ a, (y.cont a).Whole

/-- Name `m`, everything below its image, and the contents are as before. -/
def SameC (y y' : Sys) (m : Nat) : Prop :=
  Same y.base y'.base m ∧ ∀ q, y.base.stack[m]? = some (some q) → ∀ x, Reach y.base.heap q x → y'.cont x = y.cont x

theorem SameC.refl (y : Sys) (m : Nat) : SameC y y m := ⟨Same.refl _ _, fun _ _ _ _ => rfl⟩

theorem SameC.trans {y y' y'' : Sys} {m : Nat} (a : SameC y y' m) (b : SameC y' y'' m) : SameC y y'' m := by
  refine ⟨a.1.trans b.1, fun q hq x hx => ?_⟩
  obtain ⟨h1, h2⟩ := a.1 q hq
  rw [b.2 q h1 x (h2 x hx).2, a.2 q hq x hx]

theorem SameC.untouched {y y' : Sys} {m : Nat} (a : SameC y y' m) : Untouched y y' m :=
  fun q hq => ⟨(a.1 q hq).1, fun x hx => ⟨((a.1 q hq).2 x hx).1, a.2 q hq x hx⟩⟩

theorem roots_pos {s : Stack.Sys} {n q : Nat} (h : s.stack[n]? = some (some q)) : 0 < roots s.stack [] q := root_pos h

/-- After a function of the image table. -/
theorem SameC.sync {junk : Nat → UInt8} {y : Sys} (G : Good y) {s : Stack.Sys} {m : Nat} (h : Same y.base s m) : SameC y (sync junk y s) m := by
  refine ⟨h, fun q hq x hx => ?_⟩
  have := (hx.live G.inv.wf (roots_pos hq)).lt
  simp [Copy.sync, this]

theorem freshC_whole (junk : Nat → UInt8) : (freshC junk).Whole := by
  refine ⟨?_, ?_, ?_, ?_, ?_, ?_, ?_, ?_⟩ <;> simp [freshC, blank, Image.geometry, Image.atLeast1, Img.Consistent, ilGetBpcType, ilGetTypeBpc, u32]

theorem Good.sync {junk : Nat → UInt8} {y : Sys} (G : Good y) {s : Stack.Sys} (I : Inv s []) (T : Tidy s []) : Good (sync junk y s) := by
  refine ⟨I, T, fun a => ?_⟩
  simp only [Copy.sync]
  split
  · exact G.whole a
  · exact freshC_whole junk

theorem Good.setC {y : Sys} (G : Good y) {s : Stack.Sys} (I : Inv s []) (T : Tidy s []) (p : Nat) {c : Content} (hc : c.Whole) :
    Good (setC ⟨s, y.cont⟩ p c) := by
  refine ⟨I, T, fun a => ?_⟩
  simp only [Copy.setC]
  split
  · exact hc
  · exact G.whole a

/-- When the object `p` has changed, it is not below an image that is the same. -/
theorem SameC.setC {y : Sys} {s : Stack.Sys} {m p : Nat} {c : Content} (h : Same y.base s m) (hp : s.heap[p]? ≠ y.base.heap[p]?) :
    SameC y (setC ⟨s, y.cont⟩ p c) m := by
  refine ⟨h, fun q hq x hx => ?_⟩
  have e := ((h q hq).2 x hx).1
  have : x ≠ p := fun hxp => hp (hxp ▸ e)
  simp [Copy.setC, this]

theorem Good.init (junk : Nat → UInt8) : Good (initial junk) := by
  exact ⟨Stack.initial_inv, Stack.initial_tidy, fun _ => freshC_whole junk⟩

end DevIL.Copy
