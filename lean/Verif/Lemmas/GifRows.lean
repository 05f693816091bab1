import Verif.Model.Gif
import Verif.Spec.Gif
import Verif.Lemmas.Load
/-! Interlaced rows are put into order. -/
set_option autoImplicit false
namespace DevIL.Gif
open DevIL.GifSpec DevIL.Image

/-- Storing the next row of the source as row `i`. -/
def place (bps : Nat) (src : List UInt8) (s : Nat × List UInt8) (i : Nat) : C (Nat × List UInt8) := do
  let d ← memcpy s.2 (i * bps) src (s.1 * bps) bps
  pure (s.1 + 1, d)

theorem loopN_foldl {σ : Type} (g : Nat → σ → C σ) (f : Nat → Nat) (n : Nat) : ∀ s, loopN n (fun k => g (f k)) s = ((List.range n).map f).foldlM (fun s i => g i s) s := by
  induction n with
  | zero => intro s; rw [loopN_zero]; rfl
  | succ n ih =>
    intro s
    rw [loopN_succ, List.range_succ, List.map_append, List.foldlM_append, ih]
    congr 1
    funext t
    rw [List.map_cons, List.map_nil, List.foldlM_cons]
    cases g (f n) t <;> rfl

theorem rows8_0 (h : Nat) : (List.range h).filter (fun i => decide (i % 8 = 0)) = (List.range ((h - 0 + (8 - 1)) / 8)).map (fun k => 0 + k * 8) := by
  induction h with
  | zero => rfl
  | succ h ih =>
    rw [List.range_succ, List.filter_append, ih]
    by_cases hm : h % 8 = 0
    · rw [show (h + 1 - 0 + (8 - 1)) / 8 = (h - 0 + (8 - 1)) / 8 + 1 by omega, List.range_succ, List.map_append]
      simp only [List.filter_cons, hm, decide_true, if_true, List.filter_nil, List.map_cons, List.map_nil]
      rw [show 0 + (h - 0 + (8 - 1)) / 8 * 8 = h by omega]
    · rw [show (h + 1 - 0 + (8 - 1)) / 8 = (h - 0 + (8 - 1)) / 8 by omega]
      simp [hm]

theorem rows8_4 (h : Nat) : (List.range h).filter (fun i => decide (i % 8 = 4)) = (List.range ((h - 4 + (8 - 1)) / 8)).map (fun k => 4 + k * 8) := by
  induction h with
  | zero => rfl
  | succ h ih =>
    rw [List.range_succ, List.filter_append, ih]
    by_cases hm : h % 8 = 4
    · rw [show (h + 1 - 4 + (8 - 1)) / 8 = (h - 4 + (8 - 1)) / 8 + 1 by omega, List.range_succ, List.map_append]
      simp only [List.filter_cons, hm, decide_true, if_true, List.filter_nil, List.map_cons, List.map_nil]
      rw [show 4 + (h - 4 + (8 - 1)) / 8 * 8 = h by omega]
    · rw [show (h + 1 - 4 + (8 - 1)) / 8 = (h - 4 + (8 - 1)) / 8 by omega]
      simp [hm]

theorem rows4_2 (h : Nat) : (List.range h).filter (fun i => decide (i % 4 = 2)) = (List.range ((h - 2 + (4 - 1)) / 4)).map (fun k => 2 + k * 4) := by
  induction h with
  | zero => rfl
  | succ h ih =>
    rw [List.range_succ, List.filter_append, ih]
    by_cases hm : h % 4 = 2
    · rw [show (h + 1 - 2 + (4 - 1)) / 4 = (h - 2 + (4 - 1)) / 4 + 1 by omega, List.range_succ, List.map_append]
      simp only [List.filter_cons, hm, decide_true, if_true, List.filter_nil, List.map_cons, List.map_nil]
      rw [show 2 + (h - 2 + (4 - 1)) / 4 * 4 = h by omega]
    · rw [show (h + 1 - 2 + (4 - 1)) / 4 = (h - 2 + (4 - 1)) / 4 by omega]
      simp [hm]

theorem rows2_1 (h : Nat) : (List.range h).filter (fun i => decide (i % 2 = 1)) = (List.range ((h - 1 + (2 - 1)) / 2)).map (fun k => 1 + k * 2) := by
  induction h with
  | zero => rfl
  | succ h ih =>
    rw [List.range_succ, List.filter_append, ih]
    by_cases hm : h % 2 = 1
    · rw [show (h + 1 - 1 + (2 - 1)) / 2 = (h - 1 + (2 - 1)) / 2 + 1 by omega, List.range_succ, List.map_append]
      simp only [List.filter_cons, hm, decide_true, if_true, List.filter_nil, List.map_cons, List.map_nil]
      rw [show 1 + (h - 1 + (2 - 1)) / 2 * 2 = h by omega]
    · rw [show (h + 1 - 1 + (2 - 1)) / 2 = (h - 1 + (2 - 1)) / 2 by omega]
      simp [hm]

theorem interlaced_nodup (h : Nat) : (interlaced h).Nodup := by
  unfold interlaced
  have nd : ∀ p : Nat → Bool, ((List.range h).filter p).Nodup := fun p => List.nodup_range.filter p
  rw [List.nodup_append, List.nodup_append, List.nodup_append]
  refine ⟨⟨⟨nd _, nd _, ?_⟩, nd _, ?_⟩, nd _, ?_⟩
  · intro a ha b hb
    simp only [List.mem_filter, decide_eq_true_eq] at ha hb
    omega
  · intro a ha b hb
    simp only [List.mem_append, List.mem_filter, decide_eq_true_eq] at ha hb
    omega
  · intro a ha b hb
    simp only [List.mem_append, List.mem_filter, decide_eq_true_eq] at ha hb
    omega

theorem interlaced_mem {h i : Nat} : i ∈ interlaced h ↔ i < h := by
  unfold interlaced
  simp only [List.mem_append, List.mem_filter, decide_eq_true_eq, List.mem_range]
  omega

theorem interlaced_length (h : Nat) : (interlaced h).length = h := by
  have : (interlaced h).Perm (List.range h) := by
    rw [List.perm_ext_iff_of_nodup (interlaced_nodup h) List.nodup_range]
    intro a
    rw [interlaced_mem, List.mem_range]
  rw [this.length_eq, List.length_range]

theorem place_spec {bps h : Nat} {src : List UInt8} (hs : src.length = bps * h) (todo : List Nat) : ∀ (rows : List Nat) (d : List UInt8), (rows ++ todo).Nodup → (∀ i ∈ rows ++ todo, i < h) → (rows ++ todo).length ≤ h →
    d.length = bps * h → (∀ t r, rows[t]? = some r → ∀ x, x < bps → d[r * bps + x]? = src[t * bps + x]?) →
    ∃ d', todo.foldlM (place bps src) (rows.length, d) = .ok ((rows ++ todo).length, d') ∧ d'.length = bps * h ∧
      ∀ t r, (rows ++ todo)[t]? = some r → ∀ x, x < bps → d'[r * bps + x]? = src[t * bps + x]? := by
  induction todo with
  | nil =>
    intro rows d _ _ _ hd hr
    refine ⟨d, ?_, hd, ?_⟩
    · simp [pure_eq_ok]
    · simpa using hr
  | cons i todo ih =>
    intro rows d hnd hlt hle hd hr
    have hi : i < h := hlt i (by simp)
    have hlen : rows.length < h := by
      rw [List.length_append, List.length_cons] at hle
      omega
    have hsrc : rows.length * bps + bps ≤ src.length := by
      rw [hs, ← Nat.add_one_mul, Nat.mul_comm]
      exact Nat.mul_le_mul_left _ hlen
    have hdst : i * bps + bps ≤ d.length := by
      rw [hd, ← Nat.add_one_mul, Nat.mul_comm]
      exact Nat.mul_le_mul_left _ hi
    obtain ⟨d1, e1, l1, g1⟩ := memcpy_get hsrc hdst
    have hnew : ∀ t r, (rows ++ [i])[t]? = some r → ∀ x, x < bps → d1[r * bps + x]? = src[t * bps + x]? := by
      intro t r ht x hx
      rw [g1]
      by_cases htl : t < rows.length
      · rw [List.getElem?_append_left htl] at ht
        have hmem : r ∈ rows := List.mem_of_getElem? ht
        have hne : r ≠ i := by
          rintro rfl
          rw [List.nodup_append] at hnd
          exact hnd.2.2 r hmem r (by simp) rfl
        rw [if_neg]
        · exact hr t r ht x hx
        · rintro ⟨a, b⟩
          rcases Nat.lt_or_gt_of_ne hne with hlt' | hgt
          · have : (r + 1) * bps ≤ i * bps := Nat.mul_le_mul_right _ hlt'
            rw [Nat.add_one_mul] at this
            omega
          · have : (i + 1) * bps ≤ r * bps := Nat.mul_le_mul_right _ hgt
            rw [Nat.add_one_mul] at this
            omega
      · rw [List.getElem?_append_right (by omega)] at ht
        have h0 : t - rows.length = 0 := by
          by_contra hne
          rw [List.getElem?_eq_none (by simp; omega)] at ht
          cases ht
        rw [h0] at ht
        simp only [List.getElem?_cons_zero, Option.some.injEq] at ht
        subst ht
        rw [if_pos ⟨by omega, by omega⟩]
        congr 1
        rw [show t = rows.length by omega]
        omega
    obtain ⟨d', e, l', g'⟩ := ih (rows ++ [i]) d1 (by simpa using hnd) (by simpa using hlt) (by simpa using hle) (by omega) hnew
    refine ⟨d', ?_, l', by simpa using g'⟩
    rw [List.foldlM_cons]
    unfold place
    rw [e1, bind_ok, pure_eq_ok, bind_ok]
    rw [show rows ++ i :: todo = rows ++ [i] ++ todo by simp, ← e]
    simp only [List.length_append, List.length_singleton]
    rfl

/-- Row `t` of the source becomes the row that is stored as row `t`. -/
theorem RemoveInterlace_spec {junk : Nat → UInt8} {m : Img} (hs : m.size = m.bps * m.height) (hd : m.data.length = m.size) :
    ∃ d, RemoveInterlace junk m 0 = .ok { m with data := d } ∧ d.length = m.size ∧
      ∀ t r, (interlaced m.height)[t]? = some r → ∀ x, x < m.bps → d[r * m.bps + x]? = m.data[t * m.bps + x]? := by
  obtain ⟨d, e, l, g⟩ := place_spec (bps := m.bps) (h := m.height) (src := m.data) (by omega) (interlaced m.height) [] (alloc junk m.size) (by simpa using interlaced_nodup _)
    (by intro i hi; rw [List.nil_append, interlaced_mem] at hi; exact hi) (by rw [List.nil_append, interlaced_length]) (by rw [alloc_length, hs]) (by simp)
  refine ⟨d, ?_, by omega, by simpa using g⟩
  have hp : ∀ start step s, 0 < step → pass m.bps m.height start step m.data s =
      ((List.range ((m.height - start + (step - 1)) / step)).map (fun k => start + k * step)).foldlM (place m.bps m.data) s := by
    intro start step s h
    unfold pass
    rw [forStep_pos h, loopN_foldl (fun i s => do
      let d ← memcpy s.2 (i * m.bps) m.data (s.1 * m.bps) m.bps
      pure (s.1 + 1, d)) (fun k => start + k * step)]
    rfl
  have h0 : pass m.bps 0 0 1 m.data (0, alloc junk m.size) = .ok (0, alloc junk m.size) := by
    unfold pass
    rw [forStep_pos (by omega)]
    rfl
  unfold RemoveInterlace
  rw [h0, bind_ok]
  simp only [Nat.add_zero]
  rw [hp 0 8 _ (by omega), ← rows8_0]
  simp only [hp 4 8 _ (by omega), hp 2 4 _ (by omega), hp 1 2 _ (by omega), ← rows8_4, ← rows4_2, ← rows2_1]
  have e' : (interlaced m.height).foldlM (place m.bps m.data) (0, alloc junk m.size) = .ok ((interlaced m.height).length, d) := by simpa using e
  have hall : ∀ (a b c d : List Nat) (s : Nat × List UInt8) (f : Nat × List UInt8 → C Img), (a.foldlM (place m.bps m.data) s >>= fun s => b.foldlM (place m.bps m.data) s >>= fun s =>
      c.foldlM (place m.bps m.data) s >>= fun s => d.foldlM (place m.bps m.data) s >>= f) = ((a ++ b ++ c ++ d).foldlM (place m.bps m.data) s >>= f) := by
    intro a b c d s f
    simp only [List.foldlM_append, bind_assoc]
  rw [hall]
  show ((interlaced m.height).foldlM (place m.bps m.data) (0, alloc junk m.size) >>= _) = _
  rw [e', bind_ok]
  rfl

end DevIL.Gif
