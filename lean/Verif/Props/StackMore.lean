import Verif.Lemmas.StackMore
import Verif.Props.Stack
import Verif.Model.StackSize
/-! Properties C65 (created sub-images can be selected), C66 (shutdown), C67 (table size arithmetic). -/
set_option autoImplicit false
namespace DevIL.Stack

/-! ### C65 -/

/-- **C65 (`IL_SUB_NEXT`).** After any history, `ilCreateSubImage(IL_SUB_NEXT, num)` with `num > 0` returns `num`,
and then `ilActiveImage(k)` succeeds exactly for `k ≤ num`. -/
theorem C65_created_next_selectable (ops : List Op) (tr : List Spec.Event) (s : Sys) (h : run initial ops = .ok (tr, s))
    (num : Nat) (hn : 0 < num) :
    ∃ s', ilCreateSubImage s IL_SUB_NEXT num = .ok (num, s') ∧
      ∀ k, ∃ b s'', ilActive .next s' k = .ok (b, s'') ∧ (b = true ↔ k ≤ num) := by
  obtain ⟨⟨L, I⟩, _⟩ := inv_of_run h
  obtain ⟨r, s', e, _⟩ := createSub_spec I IL_SUB_NEXT num
  obtain ⟨c, _, hc, _⟩ := I.cur
  obtain ⟨hr, hc', he, q, n, ch, h1, h2, h3, h4, _⟩ := createSub_chain hc (l := .next) rfl hn e
  subst hr
  refine ⟨s', e, fun k => ?_⟩
  have hch := Chain.cons h1 h2 h3
  refine ⟨_, _, active_spec hc' hch k, ?_⟩
  cases hk : (c :: ch)[k]? with
  | none =>
    have := List.getElem?_eq_none_iff.mp hk
    simp at this ⊢; omega
  | some d =>
    have := (List.getElem?_eq_some_iff.mp hk).1
    simp at this ⊢; omega

/-- **C65 (mipmaps and layers, violated).** After any history, `ilCreateSubImage(IL_SUB_MIPMAP, num)` also returns
`num > 0`, but `ilActiveMipmap(k)` then succeeds only for `k ≤ 1`, however large `num` was: the further images
hang off the first mipmap as `Next` images.  Likewise for layers. -/
theorem C65_created_mipmaps_violated (ops : List Op) (tr : List Spec.Event) (s : Sys) (h : run initial ops = .ok (tr, s))
    (num : Nat) (hn : 0 < num) (t : Nat) (l : Link) (ht : (t = IL_SUB_MIPMAP ∧ l = .mip) ∨ (t = IL_SUB_LAYER ∧ l = .layer)) :
    ∃ s', ilCreateSubImage s t num = .ok (num, s') ∧
      ∀ k, ∃ b s'', ilActive l s' k = .ok (b, s'') ∧ (b = true ↔ k ≤ 1) := by
  obtain ⟨⟨L, I⟩, _⟩ := inv_of_run h
  obtain ⟨r, s', e, _⟩ := createSub_spec I t num
  obtain ⟨c, _, hc, _⟩ := I.cur
  have hl : subLink t = some l := by rcases ht with ⟨rfl, rfl⟩ | ⟨rfl, rfl⟩ <;> rfl
  obtain ⟨hr, hc', he, q, n, ch, h1, h2, h3, h4, m, hm, _, m1, m2⟩ := createSub_chain hc hl hn e
  subst hr
  refine ⟨s', e, fun k => ?_⟩
  have hlast : Chain l s'.heap q [q] := by
    refine .last hm ?_
    rcases ht with ⟨_, rfl⟩ | ⟨_, rfl⟩
    · exact m1
    · exact m2
  have hch := Chain.cons h1 h2 hlast
  refine ⟨_, _, active_spec hc' hch k, ?_⟩
  cases hk : [c, q][k]? with
  | none =>
    have := List.getElem?_eq_none_iff.mp hk
    simp at this ⊢; omega
  | some d =>
    have := (List.getElem?_eq_some_iff.mp hk).1
    simp at this ⊢; omega

example : ∃ tr s, run initial [.bind 7, .createSub IL_SUB_NEXT 2, .active .next 1] = .ok (tr, s) := by
  obtain ⟨tr, s, _, e, _⟩ := run_spec [.bind 7, .createSub IL_SUB_NEXT 2, .active .next 1] initial [] initial_inv
  exact ⟨tr, s, e⟩

/-! ### C66 -/

/-- **C66 (shutdown is safe).** After any history `ilShutDown` completes: it frees no object twice. -/
theorem C66_shutdown_safe (ops : List Op) : C.Safe (run initial ops >>= fun r => ilShutDown r.2) := by
  obtain ⟨tr, s, L, e, I, _⟩ := run_spec ops initial [] initial_inv
  obtain ⟨h', e1, _⟩ := closeAll_spec s.stack s.heap L I.wf
  rw [e, bind_ok]
  exact ⟨{ s with heap := h', stack := [], lastUsed := 0, free := [] },
    by simp only [ilShutDown, e1, bind_ok, pure_eq_ok]⟩

/-- **C66 (shutdown releases everything, partial).** In a history that never binds a deleted name again, after
`ilShutDown` no image object is left allocated and no name exists.  Missing: histories that bind a deleted name,
for which the object lost by `ilGenImages` (`C06_leak_violated`) stays allocated. -/
theorem C66_shutdown_releases_all_partial (ops : List Op) (tr : List Spec.Event) (s : Sys)
    (h : run initial ops = .ok (tr, s)) (hd : Spec.Disciplined tr) :
    ∃ s', ilShutDown s = .ok s' ∧ (∀ x, ¬ Live s'.heap x) ∧ (∀ n, ilIsImage s' n = .ok false) := by
  obtain ⟨L, I, T⟩ := tidy_of_disciplined h hd
  have hL := T.nil
  subst hL
  obtain ⟨h', e1, w, _, nl⟩ := closeAll_spec s.stack s.heap [] I.wf
  obtain ⟨_, nl⟩ := nl I.nf T.noLeak
  exact ⟨{ s with heap := h', stack := [], lastUsed := 0, free := [] },
    by simp only [ilShutDown, e1, bind_ok, pure_eq_ok], nothing_live w nl, fun n => rfl⟩

/-- **C66 (stale bound image, violated).** `ilShutDown` leaves the bound image pointing to the freed object: the
next call that works on it, before a new `ilInit`, uses freed memory.  (Disciplined histories.) -/
theorem C66_stale_bound_image_violated (ops : List Op) (tr : List Spec.Event) (s : Sys)
    (h : run initial ops = .ok (tr, s)) (hd : Spec.Disciplined tr) (v : Nat) :
    ∃ s', ilShutDown s = .ok s' ∧ writeCur s' v = .error .useAfterFree := by
  obtain ⟨L, I, T⟩ := tidy_of_disciplined h hd
  have hL := T.nil
  subst hL
  obtain ⟨h', e1, w, hlen, nl⟩ := closeAll_spec s.stack s.heap [] I.wf
  obtain ⟨_, nl⟩ := nl I.nf T.noLeak
  obtain ⟨c, q, hc, hr, h3⟩ := I.cur
  have hlt : c < s.heap.length := by
    refine (hr.live I.wf ?_).lt
    rcases h3 with h3 | h3
    · exact root_pos h3
    · cases h3
  refine ⟨{ s with heap := h', stack := [], lastUsed := 0, free := [] },
    by simp only [ilShutDown, e1, bind_ok, pure_eq_ok], ?_⟩
  have hf : h'[c]? = some Cell.freed := by
    rw [List.getElem?_eq_getElem (by omega)]
    cases hcell : h'[c] with
    | freed => rfl
    | live n => exact absurd ⟨n, by rw [List.getElem?_eq_getElem (by omega), hcell]⟩ (nothing_live w nl c)
  unfold writeCur
  simp only [hc, load, hf, bind_error]

/-- The hypotheses are met by the non-trivial history `exOps`. -/
example : ∃ tr s, run initial exOps = .ok (tr, s) ∧ Spec.Disciplined tr := by
  obtain ⟨tr, s, _, e, _⟩ := run_spec exOps initial [] initial_inv
  refine ⟨tr, s, e, ?_⟩
  have h := exOps_run
  rw [e] at h
  simp only [Except.toOption, Option.map_some, Option.some.injEq] at h
  subst h
  simp [Spec.Disciplined, Spec.NeverRebinds]

end DevIL.Stack

namespace DevIL.StackSize

/-- Growing multiples of 1024. -/
theorem grow_run (image : Nat) : ∀ (k fuel : Nat) (t : Table), (∃ a, t.size = 1024 * a) →
    image < 1024 * k + t.size → t.size ≤ image → image < 2 ^ 32 - 2048 → k < fuel →
    ∃ t', grow image fuel t = .ok t' ∧ t'.size = 1024 * (image / 1024 + 1) ∧ t'.bytes = u32 (t'.size * 8) := by
  intro k
  induction k with
  | zero => intro fuel t _ _ _; omega
  | succ k ih =>
    intro fuel t ⟨a, ha⟩ hk hs hi hf
    obtain ⟨fuel, rfl⟩ : ∃ f, fuel = f + 1 := ⟨fuel - 1, by omega⟩
    unfold grow
    rw [if_pos hs]
    have e1 : u32 (t.size + 1024) = t.size + 1024 := by unfold u32; omega
    by_cases hc : t.size + 1024 ≤ image
    · refine ih fuel (enlarge t) ⟨a + 1, ?_⟩ ?_ ?_ hi (by omega)
      · simp only [enlarge, e1]; omega
      · simp only [enlarge, e1]; omega
      · simp only [enlarge, e1]; omega
    · obtain ⟨fuel, rfl⟩ : ∃ f, fuel = f + 1 := ⟨fuel - 1, by omega⟩
      unfold grow
      rw [if_neg (by simp only [enlarge, e1]; omega)]
      refine ⟨_, rfl, ?_, ?_⟩
      · simp only [enlarge, e1]; omega
      · simp only [enlarge, e1]

/-- **C67 (partial).** `ilBindImage(n)` on a fresh table accesses the table inside its block for every name
`n < 2^29 - 1024`.  Missing: the names from `2^29 - 1024` on (`C67_violated`). -/
theorem C67_bind_in_table_partial (n : Nat) (h : n < 2 ^ 29 - 1024) : bindAccess n = .ok () := by
  have hs0 : enlarge ⟨0, 0⟩ = ⟨1024, 8192⟩ := by decide
  by_cases hn : n < 1024
  · have e : grow n (n + 2) (enlarge ⟨0, 0⟩) = .ok ⟨1024, 8192⟩ := by
      rw [hs0, grow, if_neg (Nat.not_le.mpr hn)]
    simp only [bindAccess, e, bind_ok, access]
    rw [if_pos (show 8 * n + 8 ≤ 8192 by omega)]
  · have hs : (enlarge ⟨0, 0⟩).size = 1024 := by rw [hs0]
    obtain ⟨t, e, hs, hb⟩ := grow_run n (n / 1024) (n + 2) (enlarge ⟨0, 0⟩) ⟨1, by rw [hs]⟩
      (by rw [hs]; omega) (by rw [hs]; omega) (by omega) (by omega)
    simp only [bindAccess, e, bind_ok, access]
    rw [if_pos]
    rw [hb, hs]
    unfold u32
    omega

example : bindAccess 5000 = .ok () := C67_bind_in_table_partial 5000 (by decide)

/-- **C67 (violated).** For every name from `2^29 - 1024` up to `2^32 - 2049`, the byte size passed to the
allocator has wrapped around and `ilBindImage` reads its table outside the block. -/
theorem C67_violated (n : Nat) (h : 2 ^ 29 - 1024 ≤ n) (h' : n < 2 ^ 32 - 2048) : bindAccess n = .error .oobRead := by
  have hs : (enlarge ⟨0, 0⟩).size = 1024 := by decide
  obtain ⟨t, e, hs, hb⟩ := grow_run n (n / 1024) (n + 2) (enlarge ⟨0, 0⟩) ⟨1, by decide⟩
    (by rw [hs]; omega) (by rw [hs]; omega) h' (by omega)
  simp only [bindAccess, e, bind_ok, access]
  rw [if_neg]
  rw [hb, hs]
  unfold u32
  omega

end DevIL.StackSize
