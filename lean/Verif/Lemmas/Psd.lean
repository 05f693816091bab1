import Verif.Model.Psd
import Verif.Spec.Psd
import Verif.Lemmas.DpxB
import Verif.Lemmas.GamesG
set_option autoImplicit false
namespace DevIL.Psd
open DevIL.Games DevIL.Detect DevIL.Image DevIL.DetectSpec DevIL.DpxSpec DevIL.PsdSpec DevIL.Dpx

theorem rdN_ok {d : List UInt8} {off n : Nat} (h : off + n ≤ d.length) : rdN d off n = .ok (at_ d off n) := by
  unfold rdN; rw [if_pos h]; rfl

/-- Component `i` of a block of components of `k` bytes. -/
def comp (k : Nat) (d : List UInt8) (i : Nat) : List UInt8 := at_ d (i * k) k

theorem comp_length {k : Nat} {d : List UInt8} {i : Nat} (h : i * k + k ≤ d.length) : (comp k d i).length = k := by
  unfold comp; rw [at_length]; omega

theorem put_comp {k i : Nat} {d v : List UInt8} (hv : v.length = k) (h : i * k + k ≤ d.length) :
    ∃ d', memcpy d (i * k) v 0 k = .ok d' ∧ d'.length = d.length ∧ ∀ j, comp k d' j = if j = i then v else comp k d j := by
  obtain ⟨d', e, hl, hg⟩ := memcpy_get (dst := d) (src := v) (dOff := i * k) (sOff := 0) (n := k) (by omega) h
  refine ⟨d', e, hl, fun j => List.ext_getElem? (fun b => ?_)⟩
  rcases Nat.lt_or_ge b k with hb | hb
  · have e1 : (comp k d' j)[b]? = d'[j * k + b]? := get_at _ _ _ _ hb
    have e2 : (comp k d j)[b]? = d[j * k + b]? := get_at _ _ _ _ hb
    rw [e1, hg]
    rcases Nat.lt_trichotomy j i with hj | hj | hj
    · have : j * k + k ≤ i * k := by rw [← Nat.succ_mul]; exact Nat.mul_le_mul_right k hj
      rw [if_neg (by omega), if_neg (by omega), e2]
    · subst hj
      rw [if_pos (by omega), if_pos rfl]
      congr 1
      omega
    · have : i * k + k ≤ j * k := by rw [← Nat.succ_mul]; exact Nat.mul_le_mul_right k hj
      rw [if_neg (by omega), if_neg (by omega), e2]
  · have l1 : (comp k d' j)[b]? = none := List.getElem?_eq_none (by unfold comp; rw [at_length]; omega)
    have l2 : (comp k d j)[b]? = none := List.getElem?_eq_none (by unfold comp; rw [at_length]; omega)
    rw [l1]
    split
    · rw [List.getElem?_eq_none (by omega)]
    · rw [l2]

/-- Storing a channel. -/
theorem spread_spec {k rows w bpp c : Nat} (g : List UInt8 → List UInt8 → List UInt8) (ch d : List UInt8) (hk : 0 < k) (hw : 0 < w) (hc : c < bpp)
    (hfit : rows * (w * bpp) < 4294967296) (hch : rows * w * k ≤ ch.length) (hd : d.length = rows * w * bpp * k)
    (hg : ∀ a b : List UInt8, a.length = k → b.length = k → (g a b).length = k) :
    Holds (spread k rows (w * bpp) bpp c g ch d) (fun d' => d'.length = d.length ∧ ∀ i, i < rows * w * bpp →
      comp k d' i = if i % bpp = c then g (comp k d i) (comp k ch (i / bpp)) else comp k d i) := by
  unfold spread
  have hb0 : 0 < bpp := by omega
  have hrow : 0 < w * bpp := Nat.mul_pos hw hb0
  rw [u32_of_lt hfit, forStep_mul hrow]
  let I : Nat → List UInt8 × Nat → Prop := fun n t => t.2 = n ∧ t.1.length = d.length ∧ ∀ i, i < rows * w * bpp →
    comp k t.1 i = if i % bpp = c ∧ i / bpp < n then g (comp k d i) (comp k ch (i / bpp)) else comp k d i
  have key : Holds (loopN rows (fun j t => forStep 0 (w * bpp) bpp (fun x (t : List UInt8 × Nat) => do
      let new ← rdN ch (t.2 * k) k
      let old ← rdN t.1 ((j * (w * bpp) + x + c) * k) k
      let d ← memcpy t.1 ((j * (w * bpp) + x + c) * k) (g old new) 0 k
      pure (d, t.2 + 1)) t) (d, 0)) (I (rows * w)) := by
    refine Holds.loop (fun j => I (j * w)) ⟨by simp, rfl, fun i _ => by rw [if_neg (by simp)]⟩ (fun j t hj ht => ?_)
    rw [forStep_mul hb0, Nat.succ_mul]
    refine Holds.loop (fun l => I (j * w + l)) ht (fun l t hl ht => ?_)
    obtain ⟨h1, h2, h3⟩ := ht
    have hn : j * w + l < rows * w := by
      have : j * w + w ≤ rows * w := by rw [← Nat.succ_mul]; exact Nat.mul_le_mul_right w hj
      omega
    generalize hnn : j * w + l = n at *
    have hpos : j * (w * bpp) + l * bpp + c = n * bpp + c := by rw [← hnn, Nat.add_mul, Nat.mul_assoc]
    have hidx : n * bpp + c < rows * w * bpp := by
      have : n * bpp + bpp ≤ rows * w * bpp := by rw [← Nat.succ_mul]; exact Nat.mul_le_mul_right bpp hn
      omega
    have hin : (n * bpp + c) * k + k ≤ d.length := by
      rw [hd, ← Nat.succ_mul]; exact Nat.mul_le_mul_right k hidx
    have hin2 : n * k + k ≤ ch.length := by
      have : n * k + k ≤ rows * w * k := by rw [← Nat.succ_mul]; exact Nat.mul_le_mul_right k hn
      omega
    rw [hpos, h1, rdN_ok hin2, bind_ok, rdN_ok (by omega), bind_ok]
    have hm : (n * bpp + c) % bpp = c := by rw [Nat.mul_comm, Nat.mul_add_mod, Nat.mod_eq_of_lt hc]
    have hq : (n * bpp + c) / bpp = n := by rw [Nat.mul_comm, Nat.mul_add_div hb0, Nat.div_eq_of_lt hc, Nat.add_zero]
    have hold : at_ t.1 ((n * bpp + c) * k) k = comp k d (n * bpp + c) := by
      have := h3 _ hidx
      rw [if_neg (by rw [hq]; omega)] at this
      exact this
    obtain ⟨d', e, hl', hg'⟩ := put_comp (k := k) (i := n * bpp + c) (d := t.1) (v := g (at_ t.1 ((n * bpp + c) * k) k) (at_ ch (n * k) k))
      (hg _ _ (by rw [at_length]; omega) (by rw [at_length]; omega)) (by omega)
    rw [e, bind_ok]
    refine Holds.pure ⟨by omega, by rw [hl', h2], fun i hi => ?_⟩
    show comp k d' i = _
    rw [hg', h3 i hi]
    by_cases hin : i = n * bpp + c
    · subst hin
      rw [if_pos rfl, hm, hq, if_pos ⟨rfl, by omega⟩, hold]
      rfl
    · rw [if_neg hin]
      by_cases h : i % bpp = c ∧ i / bpp < n
      · rw [if_pos h, if_pos ⟨h.1, by omega⟩]
      · rw [if_neg h, if_neg (fun hh => ?_)]
        have he : i / bpp = n := by
          rcases Nat.lt_or_ge (i / bpp) n with hlt | hge
          · exact absurd ⟨hh.1, hlt⟩ h
          · omega
        have := Nat.div_add_mod i bpp
        rw [he, hh.1, Nat.mul_comm] at this
        exact hin this.symm
  refine key.bind (fun r hr => Holds.pure ⟨hr.2.1, fun i hi => ?_⟩)
  rw [hr.2.2 i hi]
  have : i / bpp < rows * w := Nat.div_lt_of_lt_mul (by rw [Nat.mul_comm]; exact hi)
  by_cases h : i % bpp = c
  · rw [if_pos ⟨h, this⟩, if_pos h]
  · rw [if_neg (fun hh => h hh.1), if_neg h]

end DevIL.Psd
