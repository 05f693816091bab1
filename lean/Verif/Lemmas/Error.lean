import Verif.Spec.Error
namespace DevIL.Error

theorem shiftN (n : Nat) (a : List Nat) (h : n < a.length) :
    loopN n (fun i a => do let v ← rd a (i + 1); wr a i v) a = .ok ((a.drop 1).take n ++ a.drop n) := by
  induction n with
  | zero => simp
  | succ n ih =>
    rw [loopN_succ, ih (by omega), bind_ok]
    have hl : ((a.drop 1).take n ++ a.drop n)[n + 1]? = some a[n + 1] := by
      rw [List.getElem?_append_right (by simp; omega)]
      simp [List.length_take]
      rw [Nat.min_eq_left (by omega)]
      simp
    rw [rd_of_some hl, bind_ok, wr_of_lt (by simp; omega)]
    congr 1
    have ht : ((a.drop 1).take n).length = n := by simp; omega
    rw [List.set_append, if_neg (by omega), ht, Nat.sub_self, List.drop_eq_getElem_cons (by omega : n < a.length)]
    have : (a.drop 1).take (n + 1) = (a.drop 1).take n ++ [a[n + 1]] := by
      rw [List.take_add_one]
      simp [h]
    rw [this, List.append_assoc]
    rfl

/-- The pending errors, newest first. -/
def pending (s : St) : List Nat := (s.num.take (s.place + 1).toNat).reverse

def Inv (s : St) : Prop := s.num.length = stackSize ∧ -1 ≤ s.place ∧ s.place ≤ 31

theorem inv_init : Inv init := by simp [Inv, init]

theorem pending_init : pending init = [] := by simp [pending, init]

theorem pending_length {s : St} (h : Inv s) : (pending s).length = (s.place + 1).toNat := by
  obtain ⟨h1, h2, h3⟩ := h
  simp [pending, h1, stackSize]; omega

theorem set_low {s : St} {e : Nat} (h : Inv s) (hp : s.place < 31) :
    ∃ s', ilSetError s e = .ok s' ∧ Inv s' ∧ pending s' = e :: pending s := by
  obtain ⟨h1, h2, h3⟩ := h
  obtain ⟨num, place⟩ := s
  simp only [stackSize] at *
  obtain ⟨k, hk⟩ : ∃ k : Nat, place + 1 = (k : Int) := ⟨(place + 1).toNat, by omega⟩
  refine ⟨{ num := num.set k e, place := k }, ?_, ?_, ?_⟩
  · have hn : ¬ ((stackSize : Int) ≤ (k : Int)) := by simp; omega
    have h0 : ¬ ((k : Int) < 0) := by omega
    simp only [ilSetError, hk, ge_iff_le, hn, if_false, pure_eq_ok, bind_ok, index, h0,
      Int.toNat_natCast]
    rw [wr_of_lt (by omega)]
    rfl
  · refine ⟨by simpa using h1, by simp only; omega, by simp only; omega⟩
  · have hk' : ((k : Int) + 1).toNat = k + 1 := by omega
    simp only [pending, hk, Int.toNat_natCast, hk']
    rw [List.take_add_one]
    simp only [List.reverse_append]
    rw [List.getElem?_set]
    simp [show k < num.length by omega, List.take_set_of_le]

theorem set_full {s : St} {e : Nat} (h : Inv s) (hp : s.place = 31) :
    ∃ s', ilSetError s e = .ok s' ∧ Inv s' ∧
      ∀ a b rest, pending s = a :: b :: rest → pending s' = e :: b :: b :: rest.dropLast := by
  obtain ⟨h1, h2, h3⟩ := h
  obtain ⟨num, place⟩ := s
  simp only [stackSize] at *
  subst hp
  let n' := ((num.drop 1).take 30 ++ num.drop 30)
  have hl : n'.length = 32 := by simp [n', h1]
  refine ⟨{ num := n'.set 31 e, place := 31 }, ?_, ?_, ?_⟩
  · have hn : ((stackSize : Int) ≤ (31 : Int) + 1) := by decide
    have hs : shift num = .ok n' := shiftN 30 num (by omega)
    simp only [ilSetError, ge_iff_le, hn, if_true, hs, pure_eq_ok, bind_ok]
    have hi : index ((stackSize : Int) - 1) Fault.oobWrite = .ok 31 := by rfl
    rw [hi, bind_ok, wr_of_lt (by rw [hl]; decide)]
    rfl
  · exact ⟨by simpa using hl, by simp, by simp⟩
  · intro a b rest hp
    have hnum : num.take 32 = num := List.take_of_length_le (by omega)
    simp only [pending] at hp ⊢
    rw [show ((31 : Int) + 1).toNat = 32 by decide] at *
    rw [hnum] at hp
    have hn : num = rest.reverse ++ [b, a] := by
      rw [← List.reverse_reverse num, hp]; simp
    have hr : rest.length = 30 := by
      rw [hn] at h1; simp at h1; omega
    rw [List.take_of_length_le (by simp [hl])]
    have hn' : n' = (num.drop 1).take 30 ++ [b, a] := by
      show (num.drop 1).take 30 ++ num.drop 30 = _
      congr 1
      rw [hn, List.drop_append]
      simp [hr]
    rw [hn']
    have h30 : ((num.drop 1).take 30).length = 30 := by simp [h1]
    rw [List.set_append, if_neg (by omega), h30]
    simp only [List.set_cons_succ, List.set_cons_zero, List.reverse_append]
    have : (num.drop 1).take 30 = rest.reverse.drop 1 ++ [b] := by
      rw [hn, List.drop_append_of_le_length (by simp [hr]), List.take_append]
      have : (rest.reverse.drop 1).length = 29 := by simp [hr]
      rw [this, List.take_of_length_le (by omega)]
      rfl
    rw [this]
    simp

theorem get_empty {s : St} (hp : pending s = []) (h : Inv s) : ilGetError s = .ok (0, s) := by
  have hl := pending_length h
  rw [hp] at hl
  simp at hl
  unfold ilGetError
  rw [if_neg (by omega)]
  rfl

theorem get_cons {s : St} {a : Nat} {l : List Nat} (hp : pending s = a :: l) (h : Inv s) :
    ∃ s', ilGetError s = .ok (a, s') ∧ Inv s' ∧ pending s' = l := by
  have hl := pending_length h
  obtain ⟨h1, h2, h3⟩ := h
  obtain ⟨num, place⟩ := s
  simp only at *
  rw [hp] at hl
  simp at hl
  obtain ⟨k, hk⟩ : ∃ k : Nat, place = (k : Int) := ⟨place.toNat, by omega⟩
  subst hk
  have hkk : ((k : Int) + 1).toNat = k + 1 := by omega
  simp only [stackSize] at h1
  have hget : num.take (k+1) = num.take k ++ [num[k]'(by omega)] := by
    rw [List.take_add_one]; simp [show k < num.length by omega]
  simp only [pending, hkk] at hp
  rw [hget, List.reverse_append] at hp
  simp only [List.reverse_cons, List.reverse_nil, List.nil_append, List.singleton_append, List.cons.injEq] at hp
  refine ⟨{ num := num, place := (k : Int) - 1 }, ?_, ⟨by simpa [stackSize] using h1, ?_, ?_⟩, ?_⟩
  · have h0 : (k : Int) ≥ 0 := by omega
    have h0' : ¬ (k : Int) < 0 := by omega
    simp only [ilGetError, h0, if_true, index, h0', if_false, bind_ok, Int.toNat_natCast]
    rw [rd_of_lt (by omega), bind_ok, hp.1]
    rfl
  · simp; omega
  · simp; omega
  · simp only [pending]
    rw [show ((k : Int) - 1 + 1).toNat = k by omega]
    exact hp.2

theorem fits_head {cap n : Nat} {ops : List Op} (h : Spec.Fits cap n ops) : n ≤ cap := by
  cases ops with
  | nil => exact h
  | cons o ops => cases o <;> exact h.1

theorem run_refines {s : St} (h : Inv s) :
    ∀ (ops : List Op), Spec.Fits 32 (pending s).length ops →
      ∃ s', run s ops = .ok ((Spec.runUnbounded (pending s) ops).1, s') ∧ Inv s' ∧
        pending s' = (Spec.runUnbounded (pending s) ops).2 := by
  intro ops
  induction ops generalizing s with
  | nil => intro _; exact ⟨s, rfl, h, rfl⟩
  | cons o ops ih =>
    intro hf
    cases o with
    | set e =>
      have hlen := pending_length h
      have hf2 := fits_head hf.2
      obtain ⟨s1, h1, hi1, hp1⟩ := set_low (e := e) h (by have := h.2; omega)
      obtain ⟨s2, h2, hi2, hp2⟩ := ih hi1 (by rw [hp1]; exact hf.2)
      refine ⟨s2, ?_, hi2, ?_⟩
      · simp only [run, h1, bind_ok, h2, hp1]; rfl
      · rw [hp2, hp1]; rfl
    | get =>
      cases hp : pending s with
      | nil =>
        obtain ⟨s2, h2, hi2, hp2⟩ := ih h (by have := hf.2; rw [hp] at this ⊢; exact this)
        refine ⟨s2, ?_, hi2, ?_⟩
        · simp only [run, get_empty hp h, bind_ok, h2, hp]; rfl
        · rw [hp2, hp]; rfl
      | cons a l =>
        obtain ⟨s1, h1, hi1, hp1⟩ := get_cons hp h
        obtain ⟨s2, h2, hi2, hp2⟩ := ih hi1 (by have := hf.2; rw [hp] at this; rw [hp1]; exact this)
        refine ⟨s2, ?_, hi2, ?_⟩
        · simp only [run, h1, bind_ok, h2, hp1]; rfl
        · rw [hp2, hp1]; rfl

theorem run_partial {s : St} (h : Inv s) (hz : ∀ e ∈ pending s, e ≠ 0) :
    ∀ (ops : List Op) (p : List Nat), p.length = (pending s).length → (∀ e ∈ p, e ≠ 0) →
      Spec.RealErrors ops →
      ∃ outs s', run s ops = .ok (outs, s') ∧
        outs.map (· == 0) = (Spec.run 32 p ops).1.map (· == 0) ∧
        (pending s').length = (Spec.run 32 p ops).2.length := by
  intro ops
  induction ops generalizing s with
  | nil => intro p hl _ _; exact ⟨[], s, rfl, rfl, by simpa [Spec.run] using hl.symm⟩
  | cons o ops ih =>
    intro p hl hpz hr
    have hr' : Spec.RealErrors ops := fun e he => hr e (List.mem_cons_of_mem _ he)
    have hlen := pending_length h
    have hinv := h
    cases o with
    | set e =>
      have he : e ≠ 0 := hr e (by simp)
      by_cases hc : s.place < 31
      · obtain ⟨s1, h1, hi1, hp1⟩ := set_low (e := e) h hc
        have hpl : p.length < 32 := by have := h.2; omega
        obtain ⟨outs, s2, h2, ho, hf⟩ := ih hi1
          (by rw [hp1]; intro x hx; rcases List.mem_cons.1 hx with rfl | hx; exact he; exact hz x hx)
          ((e :: p).take 32) (by rw [hp1, List.take_of_length_le (by simp; omega)]; simp [hl])
          (fun x hx => by
            rcases List.mem_cons.1 (List.mem_of_mem_take hx) with rfl | hx
            · exact he
            · exact hpz x hx) hr'
        exact ⟨outs, s2, by simp only [run, h1, bind_ok, h2], ho, hf⟩
      · have hpl : s.place = 31 := by have := h.2; omega
        obtain ⟨s1, h1, hi1, hp1⟩ := set_full (e := e) h hpl
        have hl32 : (pending s).length = 32 := by rw [hlen, hpl]; rfl
        obtain ⟨a, b, rest, hps⟩ : ∃ a b rest, pending s = a :: b :: rest := by
          match hps : pending s with
          | [] => simp [hps] at hl32
          | [a] => simp [hps] at hl32
          | a :: b :: rest => exact ⟨a, b, rest, rfl⟩
        have hp2 := hp1 a b rest hps
        have hrl : rest.length = 30 := by rw [hps] at hl32; simp at hl32; omega
        obtain ⟨outs, s2, h2, ho, hf⟩ := ih hi1
          (by
            rw [hps] at hz
            rw [hp2]
            intro x hx
            rcases List.mem_cons.1 hx with rfl | hx
            · exact he
            · rcases List.mem_cons.1 hx with rfl | hx
              · exact hz _ (by simp)
              · rcases List.mem_cons.1 hx with rfl | hx
                · exact hz _ (by simp)
                · exact hz _ (by simp [(List.dropLast_sublist rest).subset hx]))
          ((e :: p).take 32) (by rw [hp2]; simp [hl, hl32, hrl])
          (fun x hx => by
            rcases List.mem_cons.1 (List.mem_of_mem_take hx) with rfl | hx
            · exact he
            · exact hpz x hx) hr'
        exact ⟨outs, s2, by simp only [run, h1, bind_ok, h2], ho, hf⟩
    | get =>
      cases hp : pending s with
      | nil =>
        have : p = [] := by rw [hp] at hl; exact List.length_eq_zero_iff.1 (by simpa using hl)
        subst this
        obtain ⟨outs, s2, h2, ho, hf⟩ := ih h hz [] (by rw [hp]) (by simp) hr'
        refine ⟨0 :: outs, s2, ?_, ?_, hf⟩
        · simp only [run, get_empty hp h, bind_ok, h2]; rfl
        · simp [Spec.run, ho]
      | cons a l =>
        obtain ⟨s1, h1, hi1, hp1⟩ := get_cons hp h
        rw [hp] at hl hz
        cases p with
        | nil => simp at hl
        | cons b p =>
          obtain ⟨outs, s2, h2, ho, hf⟩ := ih hi1 (by rw [hp1]; exact fun x hx => hz x (by simp [hx]))
            p (by rw [hp1]; simpa using hl) (fun x hx => hpz x (by simp [hx])) hr'
          refine ⟨a :: outs, s2, ?_, ?_, hf⟩
          · simp only [run, h1, bind_ok, h2]; rfl
          · simp [Spec.run, ho]
            rw [beq_false_of_ne (hz a (by simp)), beq_false_of_ne (hpz b (by simp))]

theorem run_inv {s : St} (h : Inv s) (ops : List Op) :
    ∃ outs s', run s ops = .ok (outs, s') ∧ Inv s' := by
  induction ops generalizing s with
  | nil => exact ⟨[], s, rfl, h⟩
  | cons o ops ih =>
    cases o with
    | set e =>
      have : ∃ s1, ilSetError s e = .ok s1 ∧ Inv s1 := by
        by_cases hc : s.place < 31
        · obtain ⟨s1, h1, hi1, _⟩ := set_low (e := e) h hc
          exact ⟨s1, h1, hi1⟩
        · obtain ⟨s1, h1, hi1, _⟩ := set_full (e := e) h (by have := h.2; omega)
          exact ⟨s1, h1, hi1⟩
      obtain ⟨s1, h1, hi1⟩ := this
      obtain ⟨outs, s2, h2, hi2⟩ := ih hi1
      exact ⟨outs, s2, by simp only [run, h1, bind_ok, h2], hi2⟩
    | get =>
      have : ∃ v s1, ilGetError s = .ok (v, s1) ∧ Inv s1 := by
        cases hp : pending s with
        | nil => exact ⟨0, s, get_empty hp h, h⟩
        | cons a l =>
          obtain ⟨s1, h1, hi1, _⟩ := get_cons hp h
          exact ⟨a, s1, h1, hi1⟩
      obtain ⟨v, s1, h1, hi1⟩ := this
      obtain ⟨outs, s2, h2, hi2⟩ := ih hi1
      exact ⟨v :: outs, s2, by simp only [run, h1, bind_ok, h2]; rfl, hi2⟩

end DevIL.Error
