import Verif.Hoare
import Verif.Model.Pal
/-! Helper lemmas on palette conversion. -/
set_option autoImplicit false
namespace DevIL.Palette
open Utility

/-- What `entry` leaves in the fourth byte. -/
def fourthOf (four : Fourth) (src : List UInt8) (i : Nat) (old : Option UInt8) : Option UInt8 :=
  match four with
  | .no => old
  | .opaque_ => some 255
  | .copy => src[i]?

/-- Entry `k` of `b` is entry `k` of `src`, converted. -/
def Done (src : List UInt8) (s d : Nat) (swap : Bool) (four : Fourth) (k : Nat) (b : List UInt8) : Prop :=
  b[k * d]? = src[k * s + if swap then 2 else 0]? ∧ b[k * d + 1]? = src[k * s + 1]? ∧
  b[k * d + 2]? = src[k * s + if swap then 0 else 2]? ∧
  (four = .opaque_ → b[k * d + 3]? = some 255) ∧ (four = .copy → b[k * d + 3]? = src[k * s + 3]?)

theorem entry_holds {src b : List UInt8} {s d n k : Nat} {swap : Bool} {four : Fourth} (hk : k < n) (hs : 3 ≤ s) (hd : 3 ≤ d)
    (h4 : four ≠ .no → 4 ≤ d) (hc : four = .copy → 4 ≤ s) (hsrc : n * s ≤ src.length) (hdst : n * d ≤ b.length)
    (hI : ∀ j, j < k → Done src s d swap four j b) :
    Holds (entry src s d swap four k b) (fun b' => b'.length = b.length ∧ ∀ j, j < k + 1 → Done src s d swap four j b') := by
  have e1 : k * s + s ≤ n * s := by rw [← Nat.succ_mul]; exact Nat.mul_le_mul_right s hk
  have e2 : k * d + d ≤ n * d := by rw [← Nat.succ_mul]; exact Nat.mul_le_mul_right d hk
  have hj : ∀ j, j < k → j * d + d ≤ k * d := fun j hj => by rw [← Nat.succ_mul]; exact Nat.mul_le_mul_right d hj
  unfold entry
  refine (Holds.rd (by split <;> omega)).bind fun v0 h0 => ?_
  refine (Holds.wr (by omega)).bind fun b1 h1 => ?_
  refine (Holds.rd (by omega)).bind fun v1 h2 => ?_
  refine (Holds.wr (by omega)).bind fun b2 h3 => ?_
  refine (Holds.rd (by split <;> omega)).bind fun v2 h5 => ?_
  refine (Holds.wr (by omega)).bind fun b3 h6 => ?_
  obtain ⟨l1, rfl⟩ := h1
  obtain ⟨l2, rfl⟩ := h3
  obtain ⟨l3, rfl⟩ := h6
  cases four with
  | no =>
    refine Holds.pure ⟨by omega, fun j hjk => ?_⟩
    by_cases hjk' : j = k
    · subst hjk'
      refine ⟨?_, ?_, ?_, (fun h => nomatch h), (fun h => nomatch h)⟩
      · rw [List.getElem?_set_ne (by omega), List.getElem?_set_ne (by omega), List.getElem?_set_self (by omega)]; exact h0.symm
      · rw [List.getElem?_set_ne (by omega), List.getElem?_set_self (by omega)]; exact h2.symm
      · rw [List.getElem?_set_self (by omega)]; exact h5.symm
    · have := hj j (by omega)
      obtain ⟨q0, q1, q2, q3, q4⟩ := hI j (by omega)
      refine ⟨?_, ?_, ?_, (fun h => nomatch h), (fun h => nomatch h)⟩
      all_goals
        rw [List.getElem?_set_ne (by omega), List.getElem?_set_ne (by omega), List.getElem?_set_ne (by omega)]
        assumption
  | opaque_ =>
    have := h4 (by decide)
    refine (Holds.wr (by omega)).mono fun b4 h7 => ?_
    obtain ⟨l4, rfl⟩ := h7
    refine ⟨by omega, fun j hjk => ?_⟩
    by_cases hjk' : j = k
    · subst hjk'
      refine ⟨?_, ?_, ?_, fun _ => ?_, (fun h => nomatch h)⟩
      · rw [List.getElem?_set_ne (by omega), List.getElem?_set_ne (by omega), List.getElem?_set_ne (by omega),
          List.getElem?_set_self (by omega)]; exact h0.symm
      · rw [List.getElem?_set_ne (by omega), List.getElem?_set_ne (by omega), List.getElem?_set_self (by omega)]; exact h2.symm
      · rw [List.getElem?_set_ne (by omega), List.getElem?_set_self (by omega)]; exact h5.symm
      · rw [List.getElem?_set_self (by omega)]
    · have := hj j (by omega)
      obtain ⟨q0, q1, q2, q3, q4⟩ := hI j (by omega)
      refine ⟨?_, ?_, ?_, fun h => ?_, (fun h => nomatch h)⟩
      all_goals
        rw [List.getElem?_set_ne (by omega), List.getElem?_set_ne (by omega), List.getElem?_set_ne (by omega),
          List.getElem?_set_ne (by omega)]
      · exact q0
      · exact q1
      · exact q2
      · exact q3 h
  | copy =>
    have := h4 (by decide)
    have := hc rfl
    refine (Holds.rd (by omega)).bind fun v3 h8 => ?_
    refine (Holds.wr (by omega)).mono fun b4 h7 => ?_
    obtain ⟨l4, rfl⟩ := h7
    refine ⟨by omega, fun j hjk => ?_⟩
    by_cases hjk' : j = k
    · subst hjk'
      refine ⟨?_, ?_, ?_, (fun h => nomatch h), fun _ => ?_⟩
      · rw [List.getElem?_set_ne (by omega), List.getElem?_set_ne (by omega), List.getElem?_set_ne (by omega),
          List.getElem?_set_self (by omega)]; exact h0.symm
      · rw [List.getElem?_set_ne (by omega), List.getElem?_set_ne (by omega), List.getElem?_set_self (by omega)]; exact h2.symm
      · rw [List.getElem?_set_ne (by omega), List.getElem?_set_self (by omega)]; exact h5.symm
      · rw [List.getElem?_set_self (by omega)]; exact h8.symm
    · have := hj j (by omega)
      obtain ⟨q0, q1, q2, q3, q4⟩ := hI j (by omega)
      refine ⟨?_, ?_, ?_, (fun h => nomatch h), fun h => ?_⟩
      all_goals
        rw [List.getElem?_set_ne (by omega), List.getElem?_set_ne (by omega), List.getElem?_set_ne (by omega),
          List.getElem?_set_ne (by omega)]
      · exact q0
      · exact q1
      · exact q2
      · exact q4 h

theorem count_eq {n s : Nat} (h : 0 < s) : (n * s + (s - 1)) / s = n := by
  rw [Nat.add_comm, Nat.add_mul_div_right _ _ h, Nat.div_eq_of_lt (by omega)]; omega

theorem entries_holds {p : Pal} {s d n : Nat} {swap : Bool} {four : Fourth} {dst : List UInt8} (hs : 3 ≤ s) (hd : 3 ≤ d)
    (h4 : four ≠ .no → 4 ≤ d) (hc : four = .copy → 4 ≤ s) (hn : p.size = n * s) (hl : p.data.length = p.size)
    (hdst : dst.length = n * d) :
    Holds (entries p s d swap four dst) (fun b => b.length = n * d ∧ ∀ j, j < n → Done p.data s d swap four j b) := by
  unfold entries
  rw [hn, count_eq (by omega)]
  refine (Holds.loop (I := fun k b => b.length = n * d ∧ ∀ j, j < k → Done p.data s d swap four j b)
    ⟨hdst, fun j hj => absurd hj (by omega)⟩ ?_)
  intro k t hk ⟨hl1, hI⟩
  refine (entry_holds (n := n) hk hs hd h4 hc (by omega) (by omega) hI).mono ?_
  rintro b ⟨e1, e2⟩
  exact ⟨by omega, e2⟩

theorem memcpy_all {junk : Nat → UInt8} {src : List UInt8} {n : Nat} (h : src.length = n) :
    memcpy (alloc junk n) 0 src 0 n = .ok src := by
  obtain ⟨d', e, l, g⟩ := memcpy_get (dst := alloc junk n) (src := src) (dOff := 0) (sOff := 0) (n := n) (by omega)
    (by simp [alloc_length])
  rw [e]
  congr 1
  apply List.ext_getElem?
  intro i
  rw [g i]
  rw [alloc_length] at l
  split
  · simp
  · rw [List.getElem?_eq_none (by rw [alloc_length]; omega), List.getElem?_eq_none (by omega)]

theorem roundF_small {n : Nat} (h : n < 16777216) : roundF n = n := by unfold roundF; rw [if_pos h]

theorem threeQuarters_small {n : Nat} (h : n * 12 < 16777216) : threeQuarters (n * 4) = n * 3 := by
  unfold threeQuarters
  rw [roundF_small (n := n * 4) (by omega), roundF_small (by omega)]
  omega

end DevIL.Palette

namespace DevIL.Palette
open Utility

/-- One iteration within bounds keeps the length. -/
theorem entry_len {src b : List UInt8} {s d k : Nat} {swap : Bool} (h1 : k * s + 2 < src.length) (h2 : k * d + 2 < b.length) :
    Holds (entry src s d swap .no k b) (fun b' => b'.length = b.length) := by
  unfold entry
  refine (Holds.rd (by split <;> omega)).bind fun v0 h0 => ?_
  refine (Holds.wr (by omega)).bind fun b1 h1 => ?_
  refine (Holds.rd (by omega)).bind fun v1 h2 => ?_
  refine (Holds.wr (by omega)).bind fun b2 h3 => ?_
  refine (Holds.rd (by split <;> omega)).bind fun v2 h5 => ?_
  refine (Holds.wr (by omega)).bind fun b3 h6 => ?_
  exact Holds.pure (by omega)

/-- A destination one byte too short: the last store falls outside. -/
theorem entries_short {p : Pal} {n : Nat} {swap : Bool} {dst : List UInt8} (hn : 0 < n) (hs : p.size = n * 4)
    (hl : p.data.length = p.size) (hd : dst.length + 1 = n * 3) : entries p 4 3 swap .no dst = .error .oobWrite := by
  unfold entries
  rw [hs, count_eq (by decide)]
  obtain ⟨t, e, ht⟩ := Holds.loop (f := entry p.data 4 3 swap .no) (n := n - 1) (s := dst) (fun _ b => b.length = dst.length) rfl
    (fun k t hk ht => (entry_len (by omega) (by omega)).mono (fun b hb => by omega))
  refine loopN_error (k := n - 1) (by omega) e ?_
  unfold entry
  have r0 : (n - 1) * 4 + (if swap = true then 2 else 0) < p.data.length := by split <;> omega
  have r2 : (n - 1) * 4 + (if swap = true then 0 else 2) < p.data.length := by split <;> omega
  rw [rd_of_lt r0, bind_ok, wr_of_lt (by omega), bind_ok, rd_of_lt (by omega), bind_ok, wr_of_lt (by simp; omega), bind_ok,
    rd_of_lt r2, bind_ok, wr_of_ge (by simp; omega)]
  rfl

end DevIL.Palette
