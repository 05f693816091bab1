import Verif.Lemmas.StackSub
/-! Properties C03-C08, C65, C66: image names, image objects, sub-images. -/
set_option autoImplicit false
namespace DevIL.Stack

/-! ### Specification, in terms of the calls made and the names `ilGenImages` returned -/
namespace Spec

abbrev Event := Op × List Nat

/-- Which names exist after one more call: generated or bound names exist, deleted names (other than 0)
do not. -/
def exists1 (ex : Nat → Prop) : Event → Nat → Prop
  | (.gen _, out), n => n ∈ out ∨ ex n
  | (.bind m, _), n => n = m ∨ ex n
  | (.delete ns, _), n => ex n ∧ (n = 0 ∨ n ∉ ns)
  | _, n => ex n

/-- Which names exist after a history. -/
def existsAfter (ex : Nat → Prop) : List Event → Nat → Prop
  | [] => ex
  | e :: tr => existsAfter (exists1 ex e) tr

/-- `ilInit` makes the default image (0) and the temporary image (1). -/
def atStart (n : Nat) : Prop := n = 0 ∨ n = 1

/-- The history never binds a name that was deleted and has not been generated since (`dead`). -/
def NeverRebinds (ex dead : Nat → Prop) : List Event → Prop
  | [] => True
  | (.bind m, o) :: tr => ¬ dead m ∧ NeverRebinds (exists1 ex (.bind m, o)) dead tr
  | (.delete ns, o) :: tr =>
      NeverRebinds (exists1 ex (.delete ns, o)) (fun n => dead n ∨ (n ∈ ns ∧ n ≠ 0 ∧ ex n)) tr
  | (.gen k, out) :: tr => NeverRebinds (exists1 ex (.gen k, out)) (fun n => dead n ∧ n ∉ out) tr
  | e :: tr => NeverRebinds (exists1 ex e) dead tr

/-- The history of a program that starts after `ilInit`. -/
def Disciplined (tr : List Event) : Prop := NeverRebinds atStart (fun _ => False) tr

end Spec

/-! ### The invariant at the start and along histories -/

theorem slot_replicate {k n q : Nat} (h : (List.replicate k (none : Option Nat))[n]? = some (some q)) : False := by
  have := List.eq_of_mem_replicate (List.mem_of_getElem? h)
  cases this

theorem initial_slot (n : Nat) : SlotLive initial n ↔ Spec.atStart n := by
  unfold SlotLive Spec.atStart initial
  match n with
  | 0 => simp
  | 1 => simp
  | n + 2 =>
    simp only [List.getElem?_cons_succ]
    constructor
    · rintro ⟨q, hq⟩; exact (slot_replicate hq).elim
    · intro h; omega

theorem initial_roots (t : Nat) : roots initial.stack [] t = if t = 0 ∨ t = 1 then 1 else 0 := by
  show (some 0 :: some 1 :: List.replicate (increment - 2) (none : Option Nat)).count (some t) + 0 = _
  simp only [List.count_cons, count_replicate_none, beq_iff_eq, Option.some.injEq]
  match t with
  | 0 => rfl
  | 1 => rfl
  | t + 2 => simp

theorem initial_cnt (t : Nat) : cnt initial.heap [] (roots initial.stack []) t = if t = 0 ∨ t = 1 then 1 else 0 := by
  unfold cnt
  rw [initial_roots]
  show _ + (0 + List.count t [] + List.count t []) = _
  simp

theorem initial_live (t : Nat) (h : t = 0 ∨ t = 1) : Live initial.heap t := by
  rcases h with h | h <;> subst h <;> exact ⟨fresh, rfl⟩

theorem initial_inv : Inv initial [] := by
  refine ⟨⟨fun t ht => ?_, fun t => ?_, fun i _ t ht => ?_⟩, ?_, (initial_slot 0).mpr (Or.inl rfl), ?_, ?_, ?_, ?_⟩
  · rw [initial_cnt] at ht
    by_cases h : t = 0 ∨ t = 1
    · exact initial_live t h
    · simp [h] at ht
  · rw [initial_cnt]; split <;> omega
  · match i, ht with
    | 0, ht => cases ht
    | 1, ht => cases ht
    | i + 2, ht => simp [kids, initial] at ht
  · intro i n hn
    match i, hn with
    | 0, hn => cases hn; rfl
    | 1, hn => cases hn; rfl
    | i + 2, hn => simp [initial] at hn
  · intro i hi
    rw [initial_slot]
    have : 2 ≤ i := hi
    unfold Spec.atStart; omega
  · show 2 ≤ (some 0 :: some 1 :: List.replicate (increment - 2) (none : Option Nat)).length
    simp only [List.length_cons]; omega
  · intro n hn; cases hn
  · exact ⟨1, 1, rfl, .refl, Or.inl rfl⟩

theorem initial_tidy : Tidy initial [] := by
  refine ⟨rfl, ?_, List.nodup_nil, fun n hn => by cases hn⟩
  intro t ⟨n, hn⟩ _
  rw [initial_cnt]
  match t, hn with
  | 0, _ => simp
  | 1, _ => simp
  | t + 2, hn => simp [initial] at hn

/-- One call: it is safe, keeps the invariant and changes the existing names as specified. -/
theorem step_spec {s : Sys} {L : List Nat} (I : Inv s L) (op : Op) :
    ∃ out s' L', step s op = .ok (out, s') ∧ Inv s' L' ∧
      (∀ n, SlotLive s' n ↔ Spec.exists1 (SlotLive s) (op, out) n) ∧
      (Tidy s L → (∀ n, op = .bind n → n ∉ s.free) → Tidy s' L') ∧
      (∀ n, n ∈ s'.free ↔ match op with
        | .delete ns => n ∈ s.free ∨ (n ∈ ns ∧ n ≠ 0 ∧ SlotLive s n)
        | .gen _ => n ∈ s'.free
        | _ => n ∈ s.free) ∧
      (∀ k, op = .gen k → (∀ n, n ∈ s'.free → n ∈ s.free) ∧ (∀ n, n ∈ s.free → n ∈ out ∨ n ∈ s'.free) ∧
        (Tidy s L → (∀ n ∈ out, n ∉ s'.free))) := by
  cases op with
  | gen k =>
    simp only [step, ilGenImages]
    by_cases hk : k < 1
    · rw [if_pos hk]
      refine ⟨[], _, L, rfl, ⟨I.wf, I.nf, I.zero, I.used, I.le, I.free, I.cur⟩, ?_, ?_, fun n => by simp, ?_⟩
      · intro n; simp [Spec.exists1, SlotLive]
      · intro T _; exact ⟨T.nil, T.noLeak, T.nodup, T.free⟩
      · intro _ _; exact ⟨fun _ h => h, fun _ h => Or.inr h, fun _ _ h => by cases h⟩
    · rw [if_neg hk, if_neg I.ne_nil]
      obtain ⟨ns, s', L', e, _, I', _, l, f, g, t, _⟩ := genLoop_spec k s L I
      exact ⟨ns, s', L', e, I', l, fun T _ => (t T).1, fun n => by simp,
        fun _ _ => ⟨f, g, fun T n hn => ((t T).2.1 n hn).2⟩⟩
  | bind n =>
    obtain ⟨s', e, I', l, f, t, _⟩ := bind_spec I n
    refine ⟨[], s', L, by simp only [step, e, bind_ok, pure_eq_ok], I', l, fun T h => t T (h n rfl), ?_, ?_⟩
    · intro m; rw [f]
    · intro _ h; cases h
  | delete ns =>
    obtain ⟨s', e, I', l, f, t, _⟩ := deleteLoop_spec ns s L I
    refine ⟨[], s', L, by simp only [step, ilDeleteImages, if_neg I.ne_nil, e, bind_ok, pure_eq_ok], I', l,
      fun T _ => t T, f, ?_⟩
    intro _ h; cases h
  | active l k =>
    obtain ⟨b, s', e, I', st, fr, hp, _, t⟩ := active_inv (l := l) I k
    refine ⟨[], s', L, by simp only [step, e, bind_ok, pure_eq_ok], I', ?_, fun T _ => t T, ?_, ?_⟩
    · intro n; simp [Spec.exists1, SlotLive, st]
    · intro n; rw [fr]
    · intro _ h; cases h
  | createSub ty k =>
    obtain ⟨r, s', e, I', st, fr, _, _, t, _⟩ := createSub_spec I ty k
    refine ⟨[], s', L, by simp only [step, e, bind_ok, pure_eq_ok], I', ?_, fun T _ => t T, ?_, ?_⟩
    · intro n; simp [Spec.exists1, SlotLive, st]
    · intro n; rw [fr]
    · intro _ h; cases h
  | write v =>
    obtain ⟨c, n, _, _, e, I', t, _⟩ := write_spec I v
    refine ⟨[], _, L, by simp only [step, e, bind_ok, pure_eq_ok], I', ?_, fun T _ => t T, fun _ => Iff.rfl, ?_⟩
    · intro n; simp [Spec.exists1, SlotLive]
    · intro _ h; cases h

theorem exists1_congr {f g : Nat → Prop} (h : ∀ n, f n ↔ g n) (e : Spec.Event) (n : Nat) :
    Spec.exists1 f e n ↔ Spec.exists1 g e n := by
  obtain ⟨op, out⟩ := e
  cases op <;> simp only [Spec.exists1, h]

theorem existsAfter_congr : ∀ (tr : List Spec.Event) {f g : Nat → Prop}, (∀ n, f n ↔ g n) → ∀ n,
    (Spec.existsAfter f tr n ↔ Spec.existsAfter g tr n) := by
  intro tr
  induction tr with
  | nil => intro f g h; exact h
  | cons e tr ih => intro f g h; exact ih (exists1_congr h e)

/-- Every history is safe, keeps the invariant and the set of existing names is the specified one. -/
theorem run_spec : ∀ (ops : List Op) (s : Sys) (L : List Nat), Inv s L →
    ∃ tr s' L', run s ops = .ok (tr, s') ∧ Inv s' L' ∧ (∀ n, SlotLive s' n ↔ Spec.existsAfter (SlotLive s) tr n) ∧
      tr.map (·.1) = ops := by
  intro ops
  induction ops with
  | nil => intro s L I; exact ⟨[], s, L, rfl, I, fun _ => Iff.rfl, rfl⟩
  | cons op ops ih =>
    intro s L I
    obtain ⟨out, s1, L1, e1, I1, l1, _, _, _⟩ := step_spec I op
    obtain ⟨tr, s2, L2, e2, I2, l2, mp⟩ := ih s1 L1 I1
    refine ⟨(op, out) :: tr, s2, L2, by simp only [run, e1, bind_ok, e2, pure_eq_ok], I2, fun n => ?_, by simp [mp]⟩
    rw [l2]
    exact existsAfter_congr tr l1 n

/-- Disciplined histories keep the table tidy. -/
theorem run_tidy : ∀ (ops : List Op) (s : Sys) (L : List Nat) (dead : Nat → Prop) (tr : List Spec.Event) (s' : Sys),
    Inv s L → Tidy s L → (∀ n, n ∈ s.free → dead n) → (∀ n, dead n → n ∈ s.free) → run s ops = .ok (tr, s') →
    ∀ ex, (∀ n, SlotLive s n ↔ ex n) → Spec.NeverRebinds ex dead tr → ∃ L', Inv s' L' ∧ Tidy s' L' := by
  intro ops
  induction ops with
  | nil =>
    intro s L dead tr s' I T _ _ e ex _ _
    cases e; exact ⟨L, I, T⟩
  | cons op ops ih =>
    intro s L dead tr s' I T hd hd' e ex hex hn
    obtain ⟨out, s1, L1, e1, I1, l1, t1, f1, g1⟩ := step_spec I op
    simp only [run, e1, bind_ok] at e
    cases hr : run s1 ops with
    | error x => rw [hr] at e; cases e
    | ok y =>
      obtain ⟨tr2, s2⟩ := y
      rw [hr] at e
      cases e
      have l1' : ∀ n, SlotLive s1 n ↔ Spec.exists1 ex (op, out) n := fun n => (l1 n).trans (exists1_congr hex _ n)
      cases op with
      | bind m =>
        obtain ⟨h1, h2⟩ := hn
        have T1 := t1 T (fun n hb => by cases hb; exact fun h => h1 (hd m h))
        exact ih s1 L1 dead tr2 s2 I1 T1 (fun n h => hd n ((f1 n).mp h)) (fun n h => (f1 n).mpr (hd' n h)) hr _ l1' h2
      | delete ns =>
        have T1 := t1 T (fun n hb => by cases hb)
        refine ih s1 L1 _ tr2 s2 I1 T1 (fun n h => ?_) (fun n h => ?_) hr _ l1' hn
        · rcases (f1 n).mp h with h | ⟨h1, h2, h3⟩
          · exact Or.inl (hd n h)
          · exact Or.inr ⟨h1, h2, (hex n).mp h3⟩
        · refine (f1 n).mpr ?_
          rcases h with h | ⟨h1, h2, h3⟩
          · exact Or.inl (hd' n h)
          · exact Or.inr ⟨h1, h2, (hex n).mpr h3⟩
      | gen k =>
        have T1 := t1 T (fun n hb => by cases hb)
        obtain ⟨g2, g3, g4⟩ := g1 k rfl
        refine ih s1 L1 _ tr2 s2 I1 T1 (fun n h => ⟨hd n (g2 n h), fun ho => g4 T n ho h⟩) (fun n h => ?_) hr _ l1' hn
        rcases g3 n (hd' n h.1) with h' | h'
        · exact absurd h' h.2
        · exact h'
      | active l k =>
        have T1 := t1 T (fun n hb => by cases hb)
        exact ih s1 L1 dead tr2 s2 I1 T1 (fun n h => hd n ((f1 n).mp h)) (fun n h => (f1 n).mpr (hd' n h)) hr _ l1' hn
      | createSub ty k =>
        have T1 := t1 T (fun n hb => by cases hb)
        exact ih s1 L1 dead tr2 s2 I1 T1 (fun n h => hd n ((f1 n).mp h)) (fun n h => (f1 n).mpr (hd' n h)) hr _ l1' hn
      | write v =>
        have T1 := t1 T (fun n hb => by cases hb)
        exact ih s1 L1 dead tr2 s2 I1 T1 (fun n h => hd n ((f1 n).mp h)) (fun n h => (f1 n).mpr (hd' n h)) hr _ l1' hn

theorem tidy_of_disciplined {ops : List Op} {tr : List Spec.Event} {s : Sys} (h : run initial ops = .ok (tr, s))
    (hd : Spec.Disciplined tr) : ∃ L, Inv s L ∧ Tidy s L :=
  run_tidy ops initial [] (fun _ => False) tr s initial_inv initial_tidy (fun n hn => by cases hn)
    (fun n hn => hn.elim) h _ initial_slot hd

theorem inv_of_run {ops : List Op} {tr : List Spec.Event} {s : Sys} (h : run initial ops = .ok (tr, s)) :
    (∃ L, Inv s L) ∧ ∀ n, SlotLive s n ↔ Spec.existsAfter Spec.atStart tr n := by
  obtain ⟨tr', s', L', e, I, l, _⟩ := run_spec ops initial [] initial_inv
  rw [h] at e; cases e
  exact ⟨⟨L', I⟩, fun n => (l n).trans (existsAfter_congr tr initial_slot n)⟩

theorem isImage_eq {s : Sys} {L : List Nat} (I : Inv s L) (n : Nat) :
    (ilIsImage s n = .ok true ↔ n ≠ 0 ∧ SlotLive s n) ∧ (ilIsImage s n = .ok true ∨ ilIsImage s n = .ok false) := by
  unfold ilIsImage
  rw [if_neg I.ne_nil]
  by_cases hc : n ≥ s.lastUsed ∨ n = 0
  · rw [if_pos hc]
    refine ⟨⟨fun h => by simp at h, fun h => ?_⟩, Or.inr rfl⟩
    rcases hc with hc | hc
    · exact absurd h.2 (I.used n hc)
    · exact absurd hc h.1
  · rw [if_neg hc]
    have hlt : n < s.stack.length := by have := I.le; omega
    rw [rd_of_lt hlt]
    simp only [bind_ok, pure_eq_ok, Except.ok.injEq]
    have hv := List.getElem?_eq_getElem hlt
    cases hs : s.stack[n] with
    | none =>
      rw [hs] at hv
      refine ⟨⟨fun h => by simp at h, fun h => ?_⟩, Or.inr rfl⟩
      obtain ⟨q, hq⟩ := h.2
      rw [hv] at hq; cases hq
    | some q =>
      rw [hs] at hv
      exact ⟨⟨fun _ => ⟨by omega, q, hv⟩, fun _ => rfl⟩, Or.inl rfl⟩

/-! ### C04 -/

/-- **C04.** After any history, `ilIsImage(n)` is true exactly when `n` is non-zero and exists: it was made by
`ilInit`, generated or bound, and not deleted since. -/
theorem C04_is_image_exact (ops : List Op) (tr : List Spec.Event) (s : Sys) (h : run initial ops = .ok (tr, s)) (n : Nat) :
    (ilIsImage s n = .ok true ∧ n ≠ 0 ∧ Spec.existsAfter Spec.atStart tr n) ∨
    (ilIsImage s n = .ok false ∧ ¬ (n ≠ 0 ∧ Spec.existsAfter Spec.atStart tr n)) := by
  obtain ⟨⟨L, I⟩, l⟩ := inv_of_run h
  obtain ⟨h1, h2⟩ := isImage_eq I n
  rw [l] at h1
  rcases h2 with h2 | h2
  · exact Or.inl ⟨h2, h1.mp h2⟩
  · refine Or.inr ⟨h2, fun h => ?_⟩
    rw [h1.mpr h] at h2
    cases h2

/-! ### C05 -/

/-- **C05.** Any history of calls after `ilInit` runs to completion: it never follows a pointer to a freed image,
never frees one twice and never leaves the table (those outcomes are `Fault`s of the model), and afterwards the
bound image is a live object: the image of the bound name or one of its sub-images, or, if the bound name was
overwritten by `ilGenImages`, a former one. -/
theorem C05_bound_image_alive (ops : List Op) :
    ∃ tr s, run initial ops = .ok (tr, s) ∧ ∃ c, s.cur = some c ∧ Live s.heap c := by
  obtain ⟨tr, s, L, e, I, _⟩ := run_spec ops initial [] initial_inv
  obtain ⟨c, q, h1, h2, h3⟩ := I.cur
  refine ⟨tr, s, e, c, h1, h2.live I.wf ?_⟩
  rcases h3 with h3 | h3
  · exact root_pos h3
  · have := List.count_pos_iff.mpr h3
    simp only [roots]; omega

/-- **C05 (binding).** `ilBindImage(n)` makes the image of name `n` current; deleting the bound name makes the
image of name 0 current. -/
theorem C05_bind_and_delete_current (ops : List Op) (tr : List Spec.Event) (s : Sys) (h : run initial ops = .ok (tr, s)) (n : Nat) :
    (∃ s', ilBindImage s n = .ok s' ∧ s'.curName = n ∧ s'.cur ≠ none ∧ s'.stack[n]? = some s'.cur) ∧
    (s.curName = n → ilIsImage s n = .ok true →
      ∃ s', ilDeleteImages s [n] = .ok s' ∧ s'.curName = 0 ∧ s'.cur ≠ none ∧ s'.stack[0]? = some s'.cur) := by
  obtain ⟨⟨L, I⟩, _⟩ := inv_of_run h
  constructor
  · obtain ⟨s', e, I', _, _, _, _, h1, h2⟩ := bind_spec I n
    obtain ⟨c, _, h3, _⟩ := I'.cur
    exact ⟨s', e, h1, by rw [h3]; simp, h2⟩
  · intro hc hi
    obtain ⟨hn, hl⟩ := (isImage_eq I n).1.mp hi
    obtain ⟨s', e, I', _, _, _, _, h1, _⟩ := delete1_spec I n
    obtain ⟨h1, h2⟩ := h1 hc hn hl
    obtain ⟨c, _, h3, _⟩ := I'.cur
    exact ⟨s', by simp only [ilDeleteImages, if_neg I.ne_nil, deleteLoop, e, bind_ok], h1, by rw [h3]; simp, h2⟩

/-! ### C03 -/

/-- **C03 (partial).** In a history that never binds a deleted name again, `ilGenImages(k)` returns `k` names,
none of them 0, none of them an existing image, pairwise distinct, and afterwards all of them exist.
Missing: histories that bind a deleted name (`C03_violated`). -/
theorem C03_generated_names_fresh_partial (ops : List Op) (tr : List Spec.Event) (s : Sys)
    (h : run initial ops = .ok (tr, s)) (hd : Spec.Disciplined tr) (k : Nat) (hk : 0 < k) :
    ∃ out s', ilGenImages s k = .ok (out, s') ∧ out.length = k ∧ out.Nodup ∧
      ∀ n ∈ out, n ≠ 0 ∧ ilIsImage s n = .ok false ∧ ilIsImage s' n = .ok true := by
  obtain ⟨L, I, T⟩ := tidy_of_disciplined h hd
  obtain ⟨ns, s', L', e, len, I', p, l, _, _, t, _⟩ := genLoop_spec k s L I
  obtain ⟨_, t2, t3⟩ := t T
  refine ⟨ns, s', by rw [ilGenImages, if_neg (by omega), if_neg I.ne_nil]; exact e, len, t3, fun n hn => ?_⟩
  have hpos := p n hn
  refine ⟨by omega, ?_, (isImage_eq I' n).1.mpr ⟨by omega, (l n).mpr (Or.inl hn)⟩⟩
  obtain ⟨h1, h2⟩ := isImage_eq I n
  rcases h2 with h2 | h2
  · exact absurd (h1.mp h2).2 (t2 n hn).1
  · exact h2

/-- A disciplined, non-trivial history: generate three, delete one, bind another, generate (the deleted name
comes back), delete that and a name that does not exist. -/
def exOps : List Op := [.gen 3, .delete [3], .bind 2, .gen 2, .createSub IL_SUB_NEXT 2, .active .next 1, .delete [3, 77]]

theorem exOps_run : (run initial exOps).toOption.map (·.1) =
    some [(.gen 3, [2, 3, 4]), (.delete [3], []), (.bind 2, []), (.gen 2, [3, 5]), (.createSub IL_SUB_NEXT 2, []),
      (.active .next 1, []), (.delete [3, 77], [])] := by
  decide +kernel

example : ∃ tr s, run initial exOps = .ok (tr, s) ∧ Spec.Disciplined tr := by
  obtain ⟨tr, s, _, e, _⟩ := run_spec exOps initial [] initial_inv
  refine ⟨tr, s, e, ?_⟩
  have h := exOps_run
  rw [e] at h
  simp only [Except.toOption, Option.map_some, Option.some.injEq] at h
  subst h
  simp [Spec.Disciplined, Spec.NeverRebinds]

/-- The full claim C03 is false: after `ilGenImages(1)`, `ilDeleteImages(2)`, `ilBindImage(2)`, name 2 exists and
`ilGenImages(1)` returns it; and with one more deletion before, one call returns the same name twice. -/
theorem C03_violated :
    (∃ tr s, run initial [.gen 1, .delete [2], .bind 2] = .ok (tr, s) ∧ ilIsImage s 2 = .ok true ∧
      ∃ s', ilGenImages s 1 = .ok ([2], s')) ∧
    (∃ tr s, run initial [.gen 1, .delete [2], .bind 2, .delete [2]] = .ok (tr, s) ∧
      ∃ s', ilGenImages s 2 = .ok ([2, 2], s')) := by
  constructor
  · obtain ⟨tr, s, L, e, I, _⟩ := run_spec [.gen 1, .delete [2], .bind 2] initial [] initial_inv
    refine ⟨tr, s, e, ?_, ?_⟩
    · have : (run initial [.gen 1, .delete [2], .bind 2] >>= fun r => ilIsImage r.2 2) = .ok true := by decide +kernel
      rwa [e] at this
    · have : ((run initial [.gen 1, .delete [2], .bind 2] >>= fun r => ilGenImages r.2 1).toOption.map (·.1)) = some [2] := by
        decide +kernel
      rw [e, bind_ok] at this
      cases hg : ilGenImages s 1 with
      | error x => rw [hg] at this; cases this
      | ok y =>
        rw [hg] at this
        obtain ⟨o, s'⟩ := y
        exact ⟨s', by rw [show o = [2] from Option.some.inj this]⟩
  · obtain ⟨tr, s, L, e, I, _⟩ := run_spec [.gen 1, .delete [2], .bind 2, .delete [2]] initial [] initial_inv
    refine ⟨tr, s, e, ?_⟩
    have : ((run initial [.gen 1, .delete [2], .bind 2, .delete [2]] >>= fun r => ilGenImages r.2 2).toOption.map (·.1)) =
        some [2, 2] := by decide +kernel
    rw [e, bind_ok] at this
    cases hg : ilGenImages s 2 with
    | error x => rw [hg] at this; cases this
    | ok y =>
      rw [hg] at this
      obtain ⟨o, s'⟩ := y
      exact ⟨s', by rw [show o = [2, 2] from Option.some.inj this]⟩

/-! ### C06 -/

/-- **C06 (freed once).** No history frees an image object twice or uses a freed one: every history completes
without those outcomes. -/
theorem C06_never_freed_twice (ops : List Op) :
    run initial ops ≠ .error .doubleFree ∧ run initial ops ≠ .error .useAfterFree ∧ C.Safe (run initial ops) := by
  obtain ⟨tr, s, L, e, _⟩ := run_spec ops initial [] initial_inv
  rw [e]
  exact ⟨by simp, by simp, _, rfl⟩

/-- **C06 (no leak, partial).** In a history that never binds a deleted name again, every image object that is
not freed is the image of an existing name or a (direct or indirect) sub-image of one.  Missing: histories that
bind a deleted name (`C06_leak_violated`) and images with faces, which only file loaders make
(`C06_faces_leak_violated`). -/
theorem C06_no_leak_partial (ops : List Op) (tr : List Spec.Event) (s : Sys) (h : run initial ops = .ok (tr, s))
    (hd : Spec.Disciplined tr) (x : Nat) (hx : Live s.heap x) :
    ∃ (n q : Nat), s.stack[n]? = some (some q) ∧ Reach s.heap q x := by
  obtain ⟨L, I, T⟩ := tidy_of_disciplined h hd
  -- induction on the address: the owner of an object has a smaller address
  have key : ∀ b x, x < b → Live s.heap x → ∃ (n q : Nat), s.stack[n]? = some (some q) ∧ Reach s.heap q x := by
    intro b
    induction b with
    | zero => intro x hb; omega
    | succ b ih =>
      intro x hb hx
      have hc := T.noLeak x hx (by simp)
      unfold cnt at hc
      by_cases hr : 0 < roots s.stack L x
      · rw [T.nil] at hr
        have : 0 < s.stack.count (some x) := by simpa [roots] using hr
        obtain ⟨n, hn⟩ := List.mem_iff_getElem?.mp (List.count_pos_iff.mp this)
        exact ⟨n, x, hn, .refl⟩
      · obtain ⟨i, _, hi⟩ := sumTo_pos (n := s.heap.length)
          (f := fun i => if i ∈ ([] : List Nat) then 0 else (kids s.heap i).count x) (by omega)
        simp only [List.not_mem_nil, if_false] at hi
        have hk := List.count_pos_iff.mp hi
        have hup := I.wf.up i (by simp) x hk
        have hli : Live s.heap i := by
          unfold kids at hk
          unfold Live
          cases hg : s.heap[i]? with
          | none => rw [hg] at hk; cases hk
          | some c =>
            cases c with
            | freed => rw [hg] at hk; cases hk
            | live n => exact ⟨n, rfl⟩
        obtain ⟨n, q, h1, h2⟩ := ih i (by omega) hli
        exact ⟨n, q, h1, .step h2 hk⟩
  exact key (x + 1) x (by omega) hx

/-- Decidable form of reachability for the concrete witnesses: reachable sets computed by closure. -/
theorem reach_mem {h : Heap} {q x : Nat} (S : List Nat) (hq : q ∈ S) (hc : ∀ i ∈ S, ∀ t ∈ kids h i, t ∈ S)
    (hr : Reach h q x) : x ∈ S := by
  induction hr with
  | refl => exact hq
  | step _ ht ih => exact hc _ ih _ ht

/-- A history that leaks: after binding the deleted name 2 and deleting nothing else, `ilGenImages` overwrites its
slot; the former object (address 3) is live and reachable from no name. -/
theorem C06_leak_violated :
    ∃ tr s, run initial [.gen 1, .delete [2], .bind 2, .gen 1] = .ok (tr, s) ∧ Live s.heap 3 ∧
      ∀ (n q : Nat), s.stack[n]? = some (some q) → ¬ Reach s.heap q 3 := by
  obtain ⟨tr, s, L, e, I, _⟩ := run_spec [.gen 1, .delete [2], .bind 2, .gen 1] initial [] initial_inv
  have h1 : (run initial [.gen 1, .delete [2], .bind 2, .gen 1]).toOption.map (fun r => (r.2.heap, r.2.stack.take 3)) =
      some ([.live fresh, .live fresh, .freed, .live fresh, .live fresh], [some 0, some 1, some 4]) := by decide +kernel
  have h2 : (run initial [.gen 1, .delete [2], .bind 2, .gen 1]).toOption.map (fun r => r.2.lastUsed) = some 3 := by
    decide +kernel
  rw [e] at h1 h2
  simp only [Except.toOption, Option.map_some, Option.some.injEq, Prod.mk.injEq] at h1 h2
  refine ⟨tr, s, e, ⟨fresh, by rw [h1.1]; rfl⟩, ?_⟩
  intro n q hq hr
  have hn : n < 3 := by
    apply Decidable.byContradiction
    intro hn
    exact I.used n (by omega) ⟨q, hq⟩
  have hq' : (s.stack.take 3)[n]? = some (some q) := by rw [List.getElem?_take, if_pos hn]; exact hq
  rw [h1.2] at hq'
  have hm := List.mem_of_getElem? hq'
  simp only [List.mem_cons, Option.some.injEq, List.not_mem_nil, or_false] at hm
  have hk : ∀ i, kids s.heap i = [] := by
    intro i
    rw [h1.1]
    match i with
    | 0 => rfl
    | 1 => rfl
    | 2 => rfl
    | 3 => rfl
    | 4 => rfl
    | i + 5 => simp [kids]
  have := reach_mem [q] (by simp) (fun i _ t ht => by rw [hk] at ht; cases ht) hr
  simp only [List.mem_cons, List.not_mem_nil, or_false] at this
  omega

/-- `ilCloseImage` of an image that has both faces and mipmaps (a cube map with mipmaps, as the DDS loader builds)
leaves the mipmaps allocated and unreachable: line 225 of il_stack.cpp clears `Mipmaps` instead of `Faces`. -/
theorem C06_faces_leak_violated :
    close 4 [.live { fresh with faces := some 1, mips := some 2 }, .live fresh, .live fresh] 0 =
      .ok [.freed, .freed, .live fresh] := by decide

/-! ### C07 -/

/-- `n` names the same object as before, and that object and all its sub-images have the same contents and
links. -/
def Spec.Untouched (s s' : Sys) (n : Nat) : Prop :=
  ∀ q, s.stack[n]? = some (some q) → s'.stack[n]? = some (some q) ∧ ∀ x, Reach s.heap q x → s'.heap[x]? = s.heap[x]?

theorem untouched_of_same {s s' : Sys} {n : Nat} (h : Same s s' n) : Spec.Untouched s s' n :=
  fun q hq => ⟨(h q hq).1, fun x hx => ((h q hq).2 x hx).1⟩

/-- **C07 (bind, delete).** After any history, binding any name leaves every image untouched, and deleting names
leaves every image untouched whose name is not deleted.  Creating sub-images or rewriting the contents of the
bound image leaves every image of another name untouched; selecting a sub-image leaves all untouched. -/
theorem C07_others_untouched (ops : List Op) (tr : List Spec.Event) (s : Sys) (h : run initial ops = .ok (tr, s)) :
    (∀ m, ∃ s', ilBindImage s m = .ok s' ∧ ∀ n, Spec.Untouched s s' n) ∧
    (∀ ns, ∃ s', ilDeleteImages s ns = .ok s' ∧ ∀ n, n ∉ ns ∨ n = 0 → Spec.Untouched s s' n) ∧
    (∀ t k, ∃ r s', ilCreateSubImage s t k = .ok (r, s') ∧ ∀ n, n ≠ s.curName → Spec.Untouched s s' n) ∧
    (∀ v, ∃ s', writeCur s v = .ok s' ∧ ∀ n, n ≠ s.curName → Spec.Untouched s s' n) ∧
    (∀ l k, ∃ b s', ilActive l s k = .ok (b, s') ∧ ∀ n, Spec.Untouched s s' n) := by
  obtain ⟨⟨L, I⟩, _⟩ := inv_of_run h
  refine ⟨fun m => ?_, fun ns => ?_, fun t k => ?_, fun v => ?_, fun l k => ?_⟩
  · obtain ⟨s', e, _, _, _, _, S, _⟩ := bind_spec I m
    exact ⟨s', e, fun n => untouched_of_same (S n)⟩
  · obtain ⟨s', e, _, _, _, _, S⟩ := deleteLoop_spec ns s L I
    exact ⟨s', by rw [ilDeleteImages, if_neg I.ne_nil]; exact e, fun n hn => untouched_of_same (S n hn)⟩
  · obtain ⟨r, s', e, _, _, _, _, _, _, S⟩ := createSub_spec I t k
    exact ⟨r, s', e, fun n hn => untouched_of_same (S n hn)⟩
  · obtain ⟨c, n, _, _, e, _, _, S⟩ := write_spec I v
    exact ⟨_, e, fun n hn => untouched_of_same (S n hn)⟩
  · obtain ⟨b, s', e, _, st, _, hp, _⟩ := active_inv (l := l) I k
    exact ⟨b, s', e, fun n q hq => ⟨by rw [st]; exact hq, fun x _ => by rw [hp]⟩⟩

/-- **C07 (generate, partial).** In a history that never binds a deleted name again, generating names leaves every
existing image untouched.  Missing: histories that bind a deleted name (`C07_violated`). -/
theorem C07_generate_untouched_partial (ops : List Op) (tr : List Spec.Event) (s : Sys)
    (h : run initial ops = .ok (tr, s)) (hd : Spec.Disciplined tr) (k : Nat) :
    ∃ out s', ilGenImages s k = .ok (out, s') ∧ ∀ n, Spec.Untouched s s' n := by
  obtain ⟨L, I, T⟩ := tidy_of_disciplined h hd
  unfold ilGenImages
  by_cases hk : k < 1
  · rw [if_pos hk]; exact ⟨[], _, rfl, fun n q hq => ⟨hq, fun _ _ => rfl⟩⟩
  · rw [if_neg hk, if_neg I.ne_nil]
    obtain ⟨ns, s', L', e, _, _, _, _, _, _, t, S, _⟩ := genLoop_spec k s L I
    refine ⟨ns, s', e, fun n => ?_⟩
    by_cases hn : n ∈ ns
    · intro q hq
      exact absurd ⟨q, hq⟩ ((t T).2.1 n hn).1
    · exact untouched_of_same (S n hn)

/-- The full claim is false: with name 2 deleted and bound again, `ilGenImages(1)` replaces the image of name 2,
losing its contents (here the value 9 written to it). -/
theorem C07_violated :
    ∃ tr s, run initial [.gen 1, .delete [2], .bind 2, .write 9] = .ok (tr, s) ∧
      s.stack[2]? = some (some 3) ∧ s.heap[3]? = some (.live { fresh with payload := 9 }) ∧
      ∃ s', ilGenImages s 1 = .ok ([2], s') ∧ s'.stack[2]? = some (some 4) ∧ s'.heap[4]? = some (.live fresh) := by
  obtain ⟨tr, s, L, e, I, _⟩ := run_spec [.gen 1, .delete [2], .bind 2, .write 9] initial [] initial_inv
  have h1 : (run initial [.gen 1, .delete [2], .bind 2, .write 9]).toOption.map
      (fun r => (r.2.stack[2]?, r.2.heap[3]?)) =
      some (some (some 3), some (.live { fresh with payload := 9 })) := by decide +kernel
  have h2 : (run initial [.gen 1, .delete [2], .bind 2, .write 9] >>= fun r => ilGenImages r.2 1).toOption.map
      (fun r => (r.1, r.2.stack[2]?, r.2.heap[4]?)) =
      some ([2], some (some 4), some (.live fresh)) := by decide +kernel
  rw [e] at h1 h2
  simp only [Except.toOption, Option.map_some, Option.some.injEq, Prod.mk.injEq, bind_ok] at h1 h2
  refine ⟨tr, s, e, h1.1, h1.2, ?_⟩
  cases hg : ilGenImages s 1 with
  | error x => rw [hg] at h2; cases h2
  | ok y =>
    rw [hg] at h2
    obtain ⟨o, s'⟩ := y
    simp only [Option.map_some, Option.some.injEq, Prod.mk.injEq] at h2
    exact ⟨s', by rw [h2.1], h2.2.1, h2.2.2⟩

/-! ### C08 -/

/-- **C08.** After any history, the images linked from the bound image by any of the four links form a finite
chain starting with the bound image; `ilActive*(k)` selects its `k`-th element, or, if there is none, returns
false, records `IL_ILLEGAL_OPERATION` and changes nothing else. -/
theorem C08_active_exact (ops : List Op) (tr : List Spec.Event) (s : Sys) (h : run initial ops = .ok (tr, s)) (l : Link) :
    ∃ c ch, s.cur = some c ∧ Chain l s.heap c ch ∧ ch[0]? = some c ∧
      ∀ k, (∀ d, ch[k]? = some d → ilActive l s k = .ok (true, { s with cur := some d })) ∧
        (ch.length ≤ k → ilActive l s k = .ok (false, { s with errs := IL_ILLEGAL_OPERATION :: s.errs })) := by
  obtain ⟨⟨L, I⟩, _⟩ := inv_of_run h
  obtain ⟨c, q, h1, h2, h3⟩ := I.cur
  have hq : 0 < roots s.stack L q := by
    rcases h3 with h3 | h3
    · exact root_pos h3
    · have := List.count_pos_iff.mpr h3
      simp only [roots]; omega
  obtain ⟨ch, hch⟩ := Chain.exists (l := l) I.wf (s.heap.length + 1) c (by omega) (h2.live I.wf hq)
  refine ⟨c, ch, h1, hch, hch.head, fun k => ⟨fun d hd => ?_, fun hk => ?_⟩⟩
  · rw [active_spec h1 hch, hd]
  · rw [active_spec h1 hch, List.getElem?_eq_none hk]

/-- Non-trivial instance: three sub-images; the third is selected, a fourth does not exist. -/
example : ((run initial [.bind 5, .createSub IL_SUB_NEXT 3] >>= fun r => ilActive .next r.2 3).toOption.map
      (fun r => (r.1, r.2.cur))) = some (true, some 5) ∧
    ((run initial [.bind 5, .createSub IL_SUB_NEXT 3] >>= fun r => ilActive .next r.2 4).toOption.map
      (fun r => (r.1, r.2.cur, r.2.errs))) = some (false, some 2, [0x0506]) := by
  constructor <;> decide +kernel

end DevIL.Stack
