import Verif.Lemmas.PnmText
import Verif.Props.Lump
/-! Lemmas about saving Netpbm files. -/
set_option autoImplicit false
namespace DevIL.Pnm
open DevIL.Lump DevIL.PnmSpec DevIL.Image DevIL.Utility

theorem out_append (a b : List WOp) : output (a ++ b) = output a ++ output b := by unfold output; rw [List.flatMap_append]

theorem out_print (s : List UInt8) : output [ilprintf s] = s := by
  simp [output, ilprintf, WOp.bytes]

theorem take3 {data : List UInt8} {i : Nat} (h2 : i + 2 < data.length) : (data.drop i).take 3 = [data[i], data[i + 1], data[i + 2]] := by
  rw [List.drop_eq_getElem_cons (by omega), List.drop_eq_getElem_cons (by omega), List.drop_eq_getElem_cons h2]
  rfl

/-- Three components as bytes. -/
theorem pixel_binary {data : List UInt8} {i : Nat} (hi : i + 3 ≤ data.length) (s : List WOp × Nat) :
    ∃ ops, pixel true data i s = .ok (ops, s.2) ∧ output ops = output s.1 ++ (data.drop i).take 3 := by
  have h0 : i < data.length := by omega
  have h1 : i + 1 < data.length := by omega
  have h2 : i + 2 < data.length := by omega
  refine ⟨s.1 ++ [.putc data[i]] ++ [.putc data[i + 1]] ++ [.putc data[i + 2]], ?_, ?_⟩
  · unfold pixel
    rw [loopN_succ, loopN_succ, loopN_succ]
    rw [loopN_zero, bind_ok]
    simp only [Nat.add_zero, pure_eq_ok]
    rw [rd_of_lt h0, bind_ok, if_pos trivial, bind_ok, rd_of_lt h1, bind_ok, if_pos trivial, bind_ok, rd_of_lt h2, bind_ok, if_pos trivial]
  · rw [out_append, out_append, out_append]
    rw [take3 h2]
    simp [output, WOp.bytes]

/-- Three components as text. -/
theorem pixel_text {data : List UInt8} {i : Nat} (hi : i + 3 ≤ data.length) (s : List WOp × Nat) :
    ∃ ops, pixel false data i s = .ok (ops, s.2 + (text ((data.drop i).take 3)).length) ∧ output ops = output s.1 ++ text ((data.drop i).take 3) := by
  have h0 : i < data.length := by omega
  have h1 : i + 1 < data.length := by omega
  have h2 : i + 2 < data.length := by omega
  have e : (data.drop i).take 3 = [data[i], data[i + 1], data[i + 2]] := take3 h2
  rw [e, text_cons, text_cons, text_cons, show text [] = [] from rfl]
  refine ⟨s.1 ++ [ilprintf (printD data[i].toNat ++ [32])] ++ [ilprintf (printD data[i + 1].toNat ++ [32])] ++
    [ilprintf (printD data[i + 2].toNat ++ [32])], ?_, ?_⟩
  · unfold pixel
    rw [loopN_succ, loopN_succ, loopN_succ]
    rw [loopN_zero, bind_ok]
    simp only [Nat.add_zero, pure_eq_ok]
    rw [rd_of_lt h0, bind_ok, if_neg (by simp), bind_ok, rd_of_lt h1, bind_ok, if_neg (by simp), bind_ok, rd_of_lt h2, bind_ok, if_neg (by simp)]
    simp only [List.length_append, List.length_cons, List.length_nil]
    congr 2
    omega
  · rw [out_append, out_append, out_append, out_print, out_print, out_print]
    simp

theorem pixels_binary {data : List UInt8} {n : Nat} (hn : data.length = n * 3) :
    ∃ ops, pixels true (n * 3) data = .ok ops ∧ output ops.1 = data := by
  unfold pixels
  rw [forStep_mul (by decide)]
  obtain ⟨t, e, h1, h2⟩ := loopN_inv (n := n) (s := (([], 0) : List WOp × Nat)) (f := fun k s => do
      let s ← pixel true data (k * 3) s
      pure (endLine s)) (fun k s => output s.1 = data.take (k * 3) ∧ s.2 = 0) ⟨by simp [output], rfl⟩ (by
    rintro k s hk ⟨h1, h2⟩
    obtain ⟨ops, e, ho⟩ := pixel_binary (data := data) (i := k * 3) (by omega) s
    refine ⟨(ops, s.2), ?_, ?_, h2⟩
    · rw [e, bind_ok]
      unfold endLine
      rw [if_neg (by dsimp only; omega)]
      rfl
    · rw [ho, h1, show (k + 1) * 3 = k * 3 + 3 by omega, List.take_add])
  refine ⟨t, e, ?_⟩
  rw [h1, ← hn, List.take_length]

/-- The lines of a text file. -/
structure Lines (fs : List (List UInt8)) (p vs : List UInt8) : Prop where
  all : fs.flatten ++ p = vs
  full : ∀ f ∈ fs, f ≠ [] ∧ (text f).length < 180
  last : (text p).length < 180

theorem text_length_le (vs : List UInt8) : (text vs).length ≤ 4 * vs.length := by
  induction vs with
  | nil => simp [text]
  | cons v vs ih =>
    have := printD_byte v
    rw [text_cons]
    simp only [List.length_append, List.length_cons]
    omega

theorem pixels_text {data : List UInt8} {n : Nat} (hn : data.length = n * 3) :
    ∃ ops fs p, pixels false (n * 3) data = .ok ops ∧ output ops.1 = fs.flatMap (fun f => text f ++ [10]) ++ text p ∧ Lines fs p data := by
  unfold pixels
  rw [forStep_mul (by decide)]
  obtain ⟨t, e, fs, p, h1, h2, h3, h4⟩ := loopN_inv (n := n) (s := (([], 0) : List WOp × Nat)) (f := fun k s => do
      let s ← pixel false data (k * 3) s
      pure (endLine s)) (fun k s => ∃ fs p, output s.1 = fs.flatMap (fun f => text f ++ [10]) ++ text p ∧ Lines fs p (data.take (k * 3)) ∧
        s.2 = (text p).length ∧ s.2 ≤ 65)
    ⟨[], [], by simp [output, text], ⟨by simp, by simp, by simp [text]⟩, by simp [text], by simp⟩ (by
    rintro k s hk ⟨fs, p, h1, h2, h3, h4⟩
    obtain ⟨ops, e, ho⟩ := pixel_text (data := data) (i := k * 3) (by omega) s
    have hl3 : ((data.drop (k * 3)).take 3).length = 3 := by rw [List.length_take, List.length_drop]; omega
    have htl := text_length_le ((data.drop (k * 3)).take 3)
    have hall : fs.flatten ++ (p ++ (data.drop (k * 3)).take 3) = data.take ((k + 1) * 3) := by
      rw [show (k + 1) * 3 = k * 3 + 3 by omega, List.take_add, ← h2.all, List.append_assoc]
    generalize hq : (data.drop (k * 3)).take 3 = q at *
    by_cases hbig : s.2 + (text q).length > 65
    · refine ⟨(ops ++ [ilprintf [10]], 0), ?_, fs ++ [p ++ q], [], ?_, ⟨?_, ?_, by simp [text]⟩, by simp [text], by simp⟩
      · rw [e, bind_ok]
        unfold endLine
        rw [if_pos hbig]
        rfl
      · dsimp only
        rw [out_append, out_print, ho, h1]
        simp [text_append, text]
      · rw [← hall]; simp
      · intro f hf
        rw [List.mem_append] at hf
        rcases hf with hf | hf
        · exact h2.full f hf
        · simp only [List.mem_cons, List.not_mem_nil, or_false] at hf
          subst hf
          refine ⟨?_, ?_⟩
          · intro h0
            have := congrArg List.length h0
            simp only [List.length_append, List.length_nil] at this
            omega
          · rw [text_append, List.length_append]; omega
    · refine ⟨(ops, s.2 + (text q).length), ?_, fs, p ++ q, ?_, ⟨hall, h2.full, ?_⟩, ?_, by dsimp only; omega⟩
      · rw [e, bind_ok]
        unfold endLine
        rw [if_neg hbig]
        rfl
      · dsimp only
        rw [ho, h1, text_append, List.append_assoc]
      · rw [text_append, List.length_append]; omega
      · dsimp only
        rw [text_append, List.length_append, h3])
  refine ⟨t, fs, p, e, h1, ?_⟩
  rwa [← hn, List.take_length] at h2

end DevIL.Pnm
