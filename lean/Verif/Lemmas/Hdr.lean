import Verif.Model.Hdr
import Verif.Spec.Hdr
import Verif.Props.Lump
import Verif.Hoare
/-! The run-length encoder of Radiance pictures. -/
set_option autoImplicit false
namespace DevIL.Hdr

open DevIL.Lump (WOp output)
open DevIL.HdrSpec (Piece)

theorem output_append (a b : List WOp) : output (a ++ b) = output a ++ output b := by simp [output]

/-! ### Looking for a run -/

/-- The bytes from `a` on, `k` of them, are equal. -/
def Const (d : List UInt8) (a k : Nat) : Prop := ∀ i, i < k → d[a + i]? = d[a]?

theorem grow_spec (d : List UInt8) (n beg : Nat) (hn : n ≤ d.length) (fuel : Nat) : ∀ run, 1 ≤ run → run ≤ 127 → 127 < fuel + run →
    (beg < n → beg + run ≤ n ∧ Const d beg run) →
    Holds (grow d n beg fuel run) (fun r => 1 ≤ r ∧ r ≤ 127 ∧ (beg < n → beg + r ≤ n ∧ Const d beg r) ∧ (n ≤ beg → r = run)) := by
  induction fuel with
  | zero => intro run _ _ h; omega
  | succ fuel ih =>
    intro run h1 h2 hf hc
    unfold grow
    refine Holds.ite (fun h => ?_) (fun h => ?_)
    · have hb : beg < n := by omega
      refine (Holds.rd (by omega)).bind (fun a ha => ?_)
      refine (Holds.rd (by omega)).bind (fun b hb' => ?_)
      refine Holds.ite (fun e => ?_) (fun e => ?_)
      · refine (ih (run + 1) (by omega) (by omega) (by omega) (fun _ => ⟨by omega, fun i hi => ?_⟩)).mono (fun r hr => ⟨hr.1, hr.2.1, hr.2.2.1, fun h' => by omega⟩)
        by_cases hi' : i < run
        · exact (hc hb).2 i hi'
        · have : i = run := by omega
          rw [this, hb', ha, e]
      · exact Holds.pure ⟨h1, h2, hc, fun h' => by omega⟩
    · exact Holds.pure ⟨h1, h2, hc, fun _ => rfl⟩

/-- What the loop that looks for a run knows. -/
structure FInv (d : List UInt8) (n cur : Nat) (f : Find) : Prop where
  le : cur ≤ f.beg
  top : f.beg ≤ n
  run : f.run ≤ 127
  next : f.beg < n → f.beg + f.run ≤ n ∧ Const d f.beg f.run
  stop : n ≤ f.beg → f.run ≤ 1
  old : f.old ≤ 3
  oldle : cur + f.old ≤ f.beg
  oldc : Const d (f.beg - f.old) f.old
  init : f.run = 0 → f.beg = cur ∧ f.old = 0

theorem find_spec (d : List UInt8) (n cur : Nat) (hn : n ≤ d.length) (hc : cur < n) :
    Holds (whileF (fun f : Find => decide (f.run < 4 ∧ f.beg < n)) (findStep d n) (n + 2) ⟨cur, 0, 0⟩)
      (fun f => FInv d n cur f ∧ (f.run < 4 → f.beg = n) ∧ f.run ≠ 0) := by
  have := Holds.while (c := fun f : Find => decide (f.run < 4 ∧ f.beg < n)) (f := findStep d n) (FInv d n cur)
    (fun f => (n - f.beg) + (if f.run = 0 then 1 else 0)) (fun f hf hcond => ?_) (n + 2) ⟨cur, 0, 0⟩
    ⟨Nat.le_refl _, Nat.le_of_lt hc, Nat.zero_le _, fun _ => ⟨Nat.le_of_lt hc, fun i hi => absurd hi (Nat.not_lt_zero _)⟩, fun _ => Nat.zero_le _,
      Nat.zero_le _, Nat.le_refl _, fun i hi => absurd hi (Nat.not_lt_zero _), fun _ => ⟨rfl, rfl⟩⟩ (by show n - cur + _ < _; simp; omega)
  · refine this.mono (fun f hf => ⟨hf.1, fun h4 => ?_, fun h0 => ?_⟩)
    · have := hf.2
      simp only [decide_eq_false_iff_not] at this
      have := hf.1.top
      omega
    · have := hf.2
      simp only [decide_eq_false_iff_not] at this
      have := hf.1.init h0
      omega
  · simp only [decide_eq_true_eq] at hcond
    obtain ⟨h4, hb⟩ := hcond
    have hx := hf.next hb
    refine (grow_spec d n (f.beg + f.run) hn 128 1 (by decide) (by decide) (by decide) (fun h => ⟨by omega, fun i hi => ?_⟩)).bind (fun r hr => ?_)
    · have : i = 0 := by omega
      subst this; rfl
    · refine Holds.pure ⟨⟨?_, hx.1, hr.2.1, hr.2.2.1, fun h => ?_, ?_, ?_, ?_, fun h => ?_⟩, ?_⟩
      · have := hf.le
        show cur ≤ f.beg + f.run
        omega
      · have := hr.2.2.2 h
        show r ≤ 1
        omega
      · show f.run ≤ 3; omega
      · have := hf.le
        show cur + f.run ≤ f.beg + f.run
        omega
      · show Const d (f.beg + f.run - f.run) f.run
        rw [Nat.add_sub_cancel]
        exact hx.2
      · have := hr.1
        have h' : r = 0 := h
        omega
      · have := hr.1
        show n - (f.beg + f.run) + (if r = 0 then 1 else 0) < n - f.beg + (if f.run = 0 then 1 else 0)
        rw [if_neg (by omega)]
        split <;> omega

/-! ### Writing -/

/-- What has been written stands for the first `s.cur` bytes. -/
def EInv (d : List UInt8) (n : Nat) (out : List WOp) (s : Enc) : Prop :=
  s.cur ≤ n ∧ ∃ ps : List Piece, (∀ p ∈ ps, p.Ok) ∧ output s.out = output out ++ HdrSpec.bytes ps ∧ HdrSpec.pixels ps = d.take s.cur

theorem EInv.add {d : List UInt8} {n : Nat} {out : List WOp} {s : Enc} (h : EInv d n out s) (p : Piece) (hp : p.Ok) (k : Nat) (ops : List WOp)
    (ho : output ops = p.bytes) (hpx : p.pixels = (d.drop s.cur).take k) (hk : s.cur + k ≤ n) : EInv d n out ⟨s.cur + k, s.out ++ ops⟩ := by
  obtain ⟨h1, ps, h2, h3, h4⟩ := h
  refine ⟨hk, ps ++ [p], ?_, ?_, ?_⟩
  · intro q hq
    rw [List.mem_append, List.mem_singleton] at hq
    rcases hq with hq | rfl
    · exact h2 q hq
    · exact hp
  · show output (s.out ++ ops) = _
    rw [output_append, h3, ho]
    simp [HdrSpec.bytes]
  · show _ = d.take (s.cur + k)
    rw [List.take_add, ← h4, ← hpx]
    simp [HdrSpec.pixels]

theorem const_take {d : List UInt8} {a k : Nat} {v : UInt8} (hv : d[a]? = some v) (hc : Const d a k) (hk : a + k ≤ d.length) :
    List.replicate k v = (d.drop a).take k := by
  apply List.ext_getElem?
  intro i
  by_cases hi : i < k
  · rw [List.getElem?_take, if_pos hi, List.getElem?_drop, hc i hi, hv]
    simp [hi]
  · rw [List.getElem?_take, if_neg hi, List.getElem?_eq_none (by simp; omega)]

theorem putRun_spec {d : List UInt8} {n : Nat} {out : List WOp} {s : Enc} (hn : n ≤ d.length) (h : EInv d n out s) {k : Nat} (h1 : 1 ≤ k) (h2 : k ≤ 127)
    (hc : Const d s.cur k) (hk : s.cur + k ≤ n) :
    Holds (putRun d s.cur k s.out) (fun o => EInv d n out ⟨s.cur + k, o⟩) := by
  unfold putRun
  refine (Holds.rd (by omega)).bind (fun v hv => Holds.pure ?_)
  refine h.add (.run k v) ⟨h1, by omega⟩ k [.write [UInt8.ofNat (128 + k), v] 2 1] ?_ ?_ hk
  · simp [output, WOp.bytes, Piece.bytes]
  · exact const_take hv hc (by omega)

theorem putLit_spec {d : List UInt8} {n : Nat} {out : List WOp} {s : Enc} (hn : n ≤ d.length) (h : EInv d n out s) {beg : Nat} (h1 : s.cur < beg) (h2 : beg ≤ n) :
    Holds (putLit d beg s) (fun t => EInv d n out t ∧ s.cur < t.cur ∧ t.cur ≤ beg) := by
  unfold putLit
  simp only []
  rw [if_pos (by omega)]
  refine Holds.pure ⟨?_, ?_, ?_⟩
  · refine h.add (.lit ((d.drop s.cur).take (min (beg - s.cur) 128))) ?_ _ _ ?_ rfl (by omega)
    · have : ((d.drop s.cur).take (min (beg - s.cur) 128)).length = min (beg - s.cur) 128 := by simp; omega
      exact ⟨by omega, by omega⟩
    · have : ((d.drop s.cur).take (min (beg - s.cur) 128)).length = min (beg - s.cur) 128 := by simp; omega
      simp only [Piece.bytes]
      rw [this]
      simp [output, WOp.bytes, List.take_take]
  · show s.cur < s.cur + _; omega
  · show s.cur + _ ≤ beg; omega

theorem encStep_spec {d : List UInt8} {n : Nat} {out : List WOp} {s : Enc} (hn : n ≤ d.length) (h : EInv d n out s) (hc : s.cur < n) :
    Holds (encStep d n s) (fun t => EInv d n out t ∧ s.cur < t.cur) := by
  unfold encStep
  refine (find_spec d n s.cur hn hc).bind (fun f hf => ?_)
  obtain ⟨hf, hstop, hrun⟩ := hf
  have hle := hf.le
  have htop := hf.top
  have hol := hf.oldle
  -- after the literals
  have a2 : ∀ t, EInv d n out t ∧ s.cur ≤ t.cur ∧ t.cur ≤ f.beg → Holds (do
      let s ← whileF (fun s => decide (s.cur < f.beg)) (putLit d f.beg) (n + 1) t
      if f.run ≥ 4 then do
        let out ← putRun d f.beg f.run s.out
        pure ⟨s.cur + f.run, out⟩
      else pure s : C Enc) (fun t => EInv d n out t ∧ s.cur < t.cur) := by
    intro t ht
    have a2 := Holds.while (c := fun s : Enc => decide (s.cur < f.beg)) (f := putLit d f.beg)
      (fun u => EInv d n out u ∧ s.cur ≤ u.cur ∧ u.cur ≤ f.beg) (fun u => f.beg - u.cur) (fun u hu hcu => by
        simp only [decide_eq_true_eq] at hcu
        refine (putLit_spec hn hu.1 hcu htop).mono (fun v hv => ⟨⟨hv.1, by omega, hv.2.2⟩, by omega⟩)) (n + 1) t ht (by omega)
    refine a2.bind (fun u hu => ?_)
    obtain ⟨⟨hu1, hu2, hu3⟩, hu4⟩ := hu
    simp only [decide_eq_false_iff_not] at hu4
    have hub : u.cur = f.beg := by omega
    refine Holds.ite (fun h4 => ?_) (fun h4 => ?_)
    · have hb : f.beg < n := by
        rcases Nat.lt_or_ge f.beg n with h' | h'
        · exact h'
        · have := hf.stop h'; omega
      have hx := hf.next hb
      rw [← hub] at hx ⊢
      refine (putRun_spec hn hu1 (by omega) hf.run hx.2 hx.1).bind (fun o ho => Holds.pure ⟨ho, ?_⟩)
      show s.cur < u.cur + f.run
      omega
    · refine Holds.pure ⟨hu1, ?_⟩
      have := hstop (by omega)
      omega
  dsimp only
  refine Holds.ite (fun hh => ?_) (fun hh => ?_)
  · have e : f.beg - f.old = s.cur := by omega
    have hcst := hf.oldc
    rw [e] at hcst
    refine (putRun_spec hn h (by omega) (by have := hf.old; omega) hcst (by omega)).bind (fun o ho => ?_)
    have e2 : s.cur + f.old = f.beg := by omega
    rw [e2] at ho
    exact a2 ⟨f.beg, o⟩ ⟨ho, hle, Nat.le_refl _⟩
  · exact a2 s ⟨h, Nat.le_refl _, hle⟩

/-- The encoder writes pieces that can be stored and stand for the bytes. -/
theorem writeRle_spec (d : List UInt8) (out : List WOp) :
    Holds (writeRle d d.length out) (fun o => ∃ ps : List Piece, (∀ p ∈ ps, p.Ok) ∧ output o = output out ++ HdrSpec.bytes ps ∧ HdrSpec.pixels ps = d) := by
  unfold writeRle
  have := Holds.while (c := fun s : Enc => decide (s.cur < d.length)) (f := encStep d d.length) (EInv d d.length out) (fun s => d.length - s.cur)
    (fun s hs hc => by
      simp only [decide_eq_true_eq] at hc
      refine (encStep_spec (Nat.le_refl _) hs hc).mono (fun t ht => ⟨ht.1, by have := ht.1.1; omega⟩)) (d.length + 1) ⟨0, out⟩
    ⟨Nat.zero_le _, [], by simp, by simp [HdrSpec.bytes], by simp [HdrSpec.pixels]⟩ (by show d.length - 0 < _; omega)
  refine this.bind (fun s hs => Holds.pure ?_)
  obtain ⟨⟨h1, ps, h2, h3, h4⟩, h5⟩ := hs
  simp only [decide_eq_false_iff_not] at h5
  refine ⟨ps, h2, h3, ?_⟩
  rw [h4, List.take_of_length_le (by omega)]

end DevIL.Hdr
