import Verif.Model.StackReg
import Verif.Props.StackMore
/-! Property C209: the numbers of sub-images that are registered. -/
set_option autoImplicit false
namespace DevIL.Stack

theorem set_get (l : Link) (n : Node) (q : Option Nat) : l.get (l.set n q) = q := by cases l <;> rfl

/-- The new images: `sub` and `k` more behind it. -/
theorem chainVia_chain (via : Link) (k : Nat) : ∀ (h : Heap) (sub : Nat), h[sub]? = some (Cell.live fresh) →
    ∃ h' ch, chainVia via k h sub = .ok h' ∧ Chain via h' sub ch ∧ ch.length = k + 1 ∧ (∀ i, i < h.length → i ≠ sub → h'[i]? = h[i]?) ∧
      ∃ q, h'[sub]? = some (Cell.live (via.set fresh q)) := by
  induction k with
  | zero =>
    intro h sub hs
    exact ⟨h, [sub], rfl, .last hs (by cases via <;> rfl), rfl, fun _ _ _ => rfl, none, by rw [hs]; cases via <;> rfl⟩
  | succ k ih =>
    intro h sub hs
    have hlt := (List.getElem?_eq_some_iff.mp hs).1
    obtain ⟨e1, e2⟩ := attach_eq (l := via) hs
    have hlen := attach_length (l := via) (h := h) (c := sub) (n := fresh)
    obtain ⟨h', ch, e, c, hl, un, -⟩ := ih (attach via h sub fresh) h.length (attach_get_new hs)
    have hsub : h'[sub]? = some (Cell.live (via.set fresh (some h.length))) := by
      rw [un sub (by omega) (by omega)]; exact attach_get_c hs
    refine ⟨h', sub :: ch, ?_, .cons hsub (set_get _ _ _) c, by simp [hl], ?_, _, hsub⟩
    · simp only [chainVia, newImage, e1, bind_ok, e2, e]
    · intro i hi hne
      rw [un i (by omega) (by omega), attach_get_ne hne hi]

/-- Closing what hangs on the current image leaves the image itself alone. -/
theorem closeLink {s : Sys} {L : List Nat} (I : Inv s L) {c : Nat} (hc : s.cur = some c) (l : Link) :
    ∃ n h', s.heap[c]? = some (Cell.live n) ∧ closeOpt s.heap (l.get n) = .ok h' ∧ h'.length = s.heap.length ∧ h'[c]? = some (Cell.live n) := by
  obtain ⟨c', q, h1, h2, h3⟩ := I.cur
  cases hc.symm.trans h1
  have hq : 0 < roots s.stack L q := by
    rcases h3 with h3 | h3
    · exact root_pos h3
    · have := List.count_pos_iff.mpr h3
      simp only [roots]; omega
  obtain ⟨n, hn⟩ := h2.live I.wf hq
  have hkids : ∀ t ∈ n.kids, c < t := fun t ht => I.wf.kid_lt hn (by simp) ht
  have wo := I.wf.open' hn
  cases hg : l.get n with
  | none => exact ⟨n, s.heap, hn, by rw [hg]; rfl, rfl, hn⟩
  | some q0 =>
    have hq0 : c < q0 := hkids q0 (Link.mem_kids hg)
    have er : (fun t => n.kids.count t + roots s.stack L t) = add q0 (fun t => (l.set n none).kids.count t + roots s.stack L t) := by
      funext t
      rw [l.kids_count, hg]
      simp only [add]
      by_cases e : t = q0
      · subst e; simp; omega
      · have : q0 ≠ t := fun h => e h.symm
        simp [e, this]
    rw [er] at wo
    obtain ⟨h', e', w', sh, nl⟩ := close_spec (s.heap.length + 1) s.heap q0 (by omega) [c] _ wo (by simpa using hq0)
    exact ⟨n, h', hn, by rw [hg]; exact e', sh.len, by rw [sh.below c hq0]; exact hn⟩

/-- What the three functions build: the image of the current name is selected, and behind it are `num` images. -/
theorem registerNum_spec {s : Sys} {L : List Nat} (I : Inv s L) (l via : Link) (num : Nat) :
    ∃ s' c n, registerNum l via s num = .ok (true, s') ∧ s'.cur = some c ∧ s'.curName = s.curName ∧ s'.stack[s'.curName]? = some (some c) ∧
      s'.heap[c]? = some (Cell.live n) ∧ (num = 0 → l.get n = none) ∧
      (0 < num → ∃ q ch r, l.get n = some q ∧ Chain via s'.heap q ch ∧ ch.length = num ∧ s'.heap[q]? = some (Cell.live (via.set fresh r))) := by
  obtain ⟨s1, e1, I1, -, -, -, -, hn1, hs1⟩ := bind_spec I s.curName
  obtain ⟨c, q, hc, -⟩ := I1.cur
  rw [hc] at hs1
  obtain ⟨n, h1, l1, e2, len, l2⟩ := closeLink I1 hc l
  have hlt := (List.getElem?_eq_some_iff.mp l2).1
  have ld1 : load s1.heap c = .ok n := by simp [load, l1]
  have ld2 : load h1 c = .ok n := by simp [load, l2]
  have st : store h1 c (l.set n none) = .ok (h1.set c (.live (l.set n none))) := by simp [store, l2]
  have l3 : (h1.set c (Cell.live (l.set n none)))[c]? = some (Cell.live (l.set n none)) := List.getElem?_set_self hlt
  unfold registerNum
  rw [e1, bind_ok]
  simp only [hc, ld1, bind_ok, e2, ld2, st]
  by_cases h0 : num = 0
  · rw [if_pos h0]
    exact ⟨_, c, _, rfl, rfl, hn1, by rw [← hn1] at hs1; exact hs1, l3, fun _ => set_get _ _ _, fun h => by omega⟩
  · rw [if_neg h0]
    obtain ⟨a1, a2⟩ := attach_eq (l := l) l3
    simp only [newImage, a1, bind_ok, a2]
    have hnew := attach_get_new (l := l) l3
    have hcc := attach_get_c (l := l) l3
    have hlen2 := attach_length (l := l) (h := h1.set c (.live (l.set n none))) (c := c) (n := l.set n none)
    rw [List.length_set] at hnew hcc hlen2
    obtain ⟨h3, ch, e3, hch, hcl, un, r, hr⟩ := chainVia_chain via (num - 1) _ _ hnew
    rw [List.length_set, e3, bind_ok]
    refine ⟨_, c, l.set (l.set n none) (some h1.length), rfl, rfl, hn1, by rw [← hn1] at hs1; exact hs1, ?_, fun h => absurd h h0, fun _ => ⟨h1.length, ch, r, set_get _ _ _, hch, by omega, hr⟩⟩
    show h3[c]? = _
    rw [un c (by omega) (by omega)]
    exact hcc

/-- Counting along a chain. -/
theorem active_count {l : Link} {s : Sys} {c : Nat} {ch : List Nat} {num : Nat} (hc : s.cur = some c) (hch : Chain l s.heap c ch) (hl : ch.length = num + 1) (k : Nat) :
    ∃ b s', ilActive l s k = .ok (b, s') ∧ (b = true ↔ k ≤ num) := by
  refine ⟨_, _, active_spec hc hch k, ?_⟩
  cases hk : ch[k]? with
  | none =>
    have := List.getElem?_eq_none_iff.mp hk
    simp at this ⊢; omega
  | some d =>
    have := (List.getElem?_eq_some_iff.mp hk).1
    simp at this ⊢; omega

theorem register_same {s : Sys} {L : List Nat} (I : Inv s L) (l : Link) (num : Nat) :
    ∃ s', registerNum l l s num = .ok (true, s') ∧ s'.curName = s.curName ∧ s'.stack[s'.curName]? = some s'.cur ∧ ∀ k, ∃ b s'', ilActive l s' k = .ok (b, s'') ∧ (b = true ↔ k ≤ num) := by
  obtain ⟨s', c, n, e, h1, h2, h3, h4, h5, h6⟩ := registerNum_spec I l l num
  refine ⟨s', e, h2, by rw [h1]; exact h3, fun k => ?_⟩
  rcases Nat.eq_zero_or_pos num with h0 | h0
  · exact active_count h1 (.last h4 (h5 h0)) (by simp [h0]) k
  · obtain ⟨q, ch, r, g1, g2, g3, -⟩ := h6 h0
    exact active_count h1 (.cons h4 g1 g2) (by simp [g3]) k

/-- **C209 (part): registering images and faces.** After any history of calls, `ilRegisterNumImages(num)` and `ilRegisterNumFaces(num)` return true, select the image of the current name,
and then `ilActiveImage(k)` (`ilActiveFace(k)`) succeeds exactly for `k ≤ num`: images that were there before are gone.  Missing: histories with these calls themselves, and mipmaps, see
the violation. -/
theorem C209_images_and_faces_partial (ops : List Op) (tr : List Spec.Event) (s : Sys) (h : run initial ops = .ok (tr, s)) (num : Nat) :
    (∃ s', ilRegisterNumImages s num = .ok (true, s') ∧ s'.curName = s.curName ∧ s'.stack[s'.curName]? = some s'.cur ∧
      ∀ k, ∃ b s'', ilActive .next s' k = .ok (b, s'') ∧ (b = true ↔ k ≤ num)) ∧
    (∃ s', ilRegisterNumFaces s num = .ok (true, s') ∧ s'.curName = s.curName ∧ s'.stack[s'.curName]? = some s'.cur ∧
      ∀ k, ∃ b s'', ilActive .face s' k = .ok (b, s'') ∧ (b = true ↔ k ≤ num)) := by
  obtain ⟨⟨L, I⟩, -⟩ := inv_of_run h
  exact ⟨register_same I .next num, register_same I .face num⟩

/-- **C209 is violated: mipmaps.** After any history of calls, `ilRegisterMipNum(num)` returns true as well, but however large `num` is, `ilActiveMipmap(k)` then succeeds only for `k ≤ 1`:
the further images are linked as images, not as mipmaps. -/
theorem C209_violated_mipmaps (ops : List Op) (tr : List Spec.Event) (s : Sys) (h : run initial ops = .ok (tr, s)) (num : Nat) (hn : 1 < num) :
    ∃ s', ilRegisterMipNum s num = .ok (true, s') ∧ ∀ k, ∃ b s'', ilActive .mip s' k = .ok (b, s'') ∧ (b = true ↔ k ≤ 1) := by
  obtain ⟨⟨L, I⟩, -⟩ := inv_of_run h
  obtain ⟨s', c, n, e, h1, h2, h3, h4, h5, h6⟩ := registerNum_spec I .mip .next num
  obtain ⟨q, ch, r, g1, -, -, g4⟩ := h6 (by omega)
  exact ⟨s', e, fun k => active_count h1 (.cons h4 g1 (.last g4 rfl)) rfl k⟩

/-- The hypothesis is met: three images are bound to names and one has sub-images, of which one is active. -/
example : ∃ tr s, run initial [.gen 3, .bind 3, .createSub IL_SUB_NEXT 5, .active .next 2, .createSub IL_SUB_MIPMAP 1] = .ok (tr, s) := by
  obtain ⟨tr, s, _, e, _⟩ := run_spec [.gen 3, .bind 3, .createSub IL_SUB_NEXT 5, .active .next 2, .createSub IL_SUB_MIPMAP 1] initial [] initial_inv
  exact ⟨tr, s, e⟩

end DevIL.Stack
