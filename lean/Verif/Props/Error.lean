import Verif.Lemmas.Error
/-! C01, C02: the error queue of `ilSetError`/`ilGetError`. -/
namespace DevIL.Error

/-- **C01.** For every history in which never more than 32 errors are pending, `ilGetError` returns
exactly what a LIFO stack returns: newest first, one per call, 0 when none is left. -/
theorem C01_error_queue_is_lifo (ops : List Op) (h : Spec.Fits 32 0 ops) :
    ∃ s, run init ops = .ok ((Spec.runUnbounded [] ops).1, s) := by
  obtain ⟨s, hs, _, _⟩ := run_refines inv_init ops (by simpa [pending_init] using h)
  exact ⟨s, by simpa [pending_init] using hs⟩

/-- The hypothesis of C01 is met, e.g. by 32 errors followed by 33 reads. -/
example : Spec.Fits 32 0 ((List.range 32).map (fun i => Op.set (i + 1)) ++ List.replicate 33 Op.get) := by
  decide

example : (Spec.runUnbounded [] [.set 5, .set 7, .get, .get, .get]).1 = [7, 5, 0] := by decide

/-- The full statement of **C02** (`the newest 32 in LIFO order`) is false of the code: the shift
loop at il_error.cpp:32 stops one element short, so the 33rd unread error makes the second-newest
one disappear and duplicates its predecessor. -/
theorem C02_overflow_keeps_newest_violated :
    ¬ ∀ ops : List Op, ∃ s, run init ops = .ok ((Spec.run 32 [] ops).1, s) := by
  intro h
  obtain ⟨s, hs⟩ := h ((List.range 33).map (fun i => Op.set (i + 1)) ++ [.get, .get])
  have : (run init ((List.range 33).map (fun i => Op.set (i + 1)) ++ [.get, .get])).map Prod.fst
      = .ok [33, 31] := by decide +kernel
  rw [hs] at this
  have h2 : (Spec.run 32 [] ((List.range 33).map (fun i => Op.set (i + 1)) ++ [.get, .get])).1
      = [33, 32] := by decide +kernel
  rw [h2] at this
  revert this
  show (Except.ok [33, 32] : C (List Nat)) = .ok [33, 31] → False
  decide

/-- **C02 (safety half).** No history of any length touches memory outside the 32-entry store. -/
theorem C02_overflow_safe (ops : List Op) : C.Safe (run init ops) := by
  obtain ⟨outs, s', h, _⟩ := run_inv inv_init ops
  exact ⟨_, h⟩

/-- **C02 (drain-count half).** For every history, the reads that find no error are exactly those
that find none in a stack which keeps the newest 32: in particular `n` unread errors are drained by
exactly `min n 32` reads.  Missing from C02: *which* errors beyond the newest come back after an
overflow (`C02_overflow_keeps_newest_violated`). -/
theorem C02_drain_count_partial (ops : List Op) (h : Spec.RealErrors ops) :
    ∃ outs s, run init ops = .ok (outs, s) ∧
      outs.map (· == 0) = (Spec.run 32 [] ops).1.map (· == 0) := by
  obtain ⟨outs, s', h1, h2, _⟩ := run_partial inv_init (by simp [pending_init]) ops []
    (by simp [pending_init]) (by simp) h
  exact ⟨outs, s', h1, h2⟩

/-- **C02 (newest half).** After any history, a read that follows a recorded error returns it. -/
theorem C02_newest_first_partial (ops : List Op) (e : Nat) :
    ∃ outs s, run init (ops ++ [.set e, .get]) = .ok (outs, s) ∧ outs.getLast? = some e := by
  have key : ∀ (ops : List Op) (s : St), Inv s →
      ∃ outs s', run s (ops ++ [.set e, .get]) = .ok (outs, s') ∧ outs.getLast? = some e := by
    intro ops
    induction ops with
    | nil =>
      intro s h
      have : ∃ s1 l, ilSetError s e = .ok s1 ∧ Inv s1 ∧ pending s1 = e :: l := by
        by_cases hc : s.place < 31
        · obtain ⟨s1, h1, hi1, hp⟩ := set_low (e := e) h hc
          exact ⟨s1, _, h1, hi1, hp⟩
        · have hpl : s.place = 31 := by have := h.2; omega
          obtain ⟨s1, h1, hi1, hp⟩ := set_full (e := e) h hpl
          have hl32 : (pending s).length = 32 := by rw [pending_length h, hpl]; rfl
          match hps : pending s with
          | [] => simp [hps] at hl32
          | [a] => simp [hps] at hl32
          | a :: b :: rest => exact ⟨s1, _, h1, hi1, hp a b rest hps⟩
      obtain ⟨s1, l, h1, hi1, hp1⟩ := this
      obtain ⟨s2, h2, _, _⟩ := get_cons hp1 hi1
      exact ⟨[e], s2, by simp [run, h1, h2], rfl⟩
    | cons o ops ih =>
      intro s h
      cases o with
      | set e' =>
        have : ∃ s1, ilSetError s e' = .ok s1 ∧ Inv s1 := by
          by_cases hc : s.place < 31
          · obtain ⟨s1, h1, hi1, _⟩ := set_low (e := e') h hc
            exact ⟨s1, h1, hi1⟩
          · obtain ⟨s1, h1, hi1, _⟩ := set_full (e := e') h (by have := h.2; omega)
            exact ⟨s1, h1, hi1⟩
        obtain ⟨s1, h1, hi1⟩ := this
        obtain ⟨outs, s2, h2, hl⟩ := ih s1 hi1
        exact ⟨outs, s2, by simp only [List.cons_append, run, h1, bind_ok, h2], hl⟩
      | get =>
        have : ∃ v s1, ilGetError s = .ok (v, s1) ∧ Inv s1 := by
          cases hp : pending s with
          | nil => exact ⟨0, s, get_empty hp h, h⟩
          | cons a l =>
            obtain ⟨s1, h1, hi1, _⟩ := get_cons hp h
            exact ⟨a, s1, h1, hi1⟩
        obtain ⟨v, s1, h1, hi1⟩ := this
        obtain ⟨outs, s2, h2, hl⟩ := ih s1 hi1
        refine ⟨v :: outs, s2, by simp only [List.cons_append, run, h1, bind_ok, h2]; rfl, ?_⟩
        cases outs with
        | nil => simp at hl
        | cons x xs => simpa using hl
  exact key ops init inv_init

example : Spec.RealErrors ((List.range 40).map (fun i => Op.set (i + 1)) ++ List.replicate 40 Op.get) := by
  intro e he
  simp at he
  omega

example : ((Spec.run 32 [] ((List.range 40).map (fun i => Op.set (i + 1)) ++
    List.replicate 40 Op.get)).1.filter (· ≠ 0)).length = 32 := by decide +kernel

end DevIL.Error
