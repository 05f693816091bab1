import Verif.Model.Ilu
import Verif.Props.Block
/-! Loops over components. -/
set_option autoImplicit false
namespace DevIL.Ilu
open Utility

/-- `i` is a byte of component `j` of `k` bytes. -/
def InC (k j i : Nat) : Prop := ∃ c, c < k ∧ i = j * k + c

theorem InC.inj {k j j' i : Nat} (h : InC k j i) (h' : InC k j' i) : j = j' := by
  obtain ⟨c, hc, e⟩ := h
  obtain ⟨c', hc', e'⟩ := h'
  exact (idx_inj hc hc' (by omega)).1

theorem Upd.mapCell {d0 : List UInt8} {k : Nat} {f : UInt8 → UInt8} (hk : k < d0.length) :
    Upd (fun d => rd d k >>= fun v => wr d k (f v)) d0 (fun i => i = k) (fun i => i = k) (fun i => d0[i]?.map f) := by
  intro d hl hu
  have e : rd d k = .ok d0[k] := by rw [rd_eq_ok, hu k rfl, List.getElem?_eq_getElem hk]
  refine ⟨d.set k (f d0[k]), by dsimp only; rw [e, bind_ok, wr_of_lt (by omega)], by simp [hl], fun i hi => ⟨?_, ?_⟩⟩
  · rintro rfl
    show _ = Option.map f d0[i]?
    rw [List.getElem?_set_self (by omega), List.getElem?_eq_getElem hk]; rfl
  · intro hne
    rw [List.getElem?_set_ne (fun h => hne h.symm)]

theorem notComp_upd {k j : Nat} {d0 : List UInt8} (h : j * k + k ≤ d0.length) :
    Upd (notComp k j) d0 (InC k j) (InC k j) (fun i => d0[i]?.map (~~~·)) := by
  refine Upd.loop (U := fun c i => i = j * k + c) (R := fun c i => i = j * k + c) (fun c hc => Upd.mapCell (by omega)) ?_
  rintro a b i hab _ _ rfl e
  omega

theorem mapComp_upd {k j : Nat} {f : List UInt8 → List UInt8} {d0 : List UInt8} (h : j * k + k ≤ d0.length) (hk : 0 < k)
    (hf : ∀ v : List UInt8, (f v).length = v.length) :
    Upd (mapComp k f j) d0 (InC k j) (InC k j) (fun i => (f ((d0.drop (i / k * k)).take k))[i % k]?) := by
  intro d hl hu
  have hw : (d.drop (j * k)).take k = (d0.drop (j * k)).take k := by
    apply List.ext_getElem?
    intro i
    rw [List.getElem?_take, List.getElem?_take]
    split
    · rw [List.getElem?_drop, List.getElem?_drop]
      exact hu _ ⟨i, by assumption, rfl⟩
    · rfl
  unfold mapComp
  rw [if_pos (by omega), hw]
  have hlen : (f ((d0.drop (j * k)).take k)).length = k := by rw [hf]; simp; omega
  have hv : Upd (fun d => loopN k (fun c d => wr d (j * k + c) ((f ((d0.drop (j * k)).take k)).getD c 0)) d) d0 (fun _ => False)
      (InC k j) (fun i => (f ((d0.drop (i / k * k)).take k))[i % k]?) := by
    refine Upd.loopW (R := fun c i => i = j * k + c) fun c hc => Upd.wr (by omega) ?_
    rw [idx_div hc, idx_mod hc, List.getD_eq_getElem?_getD, List.getElem?_eq_getElem (by omega)]
    rfl
  exact hv d hl (fun _ h => h.elim)

theorem negPlain_spec {k n : Nat} {d : List UInt8} (hl : d.length = n * k) : negPlain k n d = .ok (d.map (~~~·)) := by
  have hu : Upd (negPlain k n) d _ _ _ := Upd.loop (n := n) (U := fun j i => InC k j i) (R := fun j i => InC k j i)
    (fun j hj => notComp_upd (by rw [hl, ← Nat.succ_mul]; exact Nat.mul_le_mul_right _ hj))
    (fun a b i hab _ _ h h' => by have := h.inj h'; omega)
  obtain ⟨d', e, l, s⟩ := hu.apply
  rw [e]
  congr 1
  apply List.ext_getElem?
  intro i
  by_cases hi : i < d.length
  · rw [List.getElem?_map]
    have hk : 0 < k := Nat.pos_of_ne_zero fun e => by subst e; rw [Nat.mul_zero] at hl; omega
    exact (s i hi).1 ⟨i / k, (Nat.div_lt_iff_lt_mul hk).mpr (by omega), i % k, Nat.mod_lt _ hk, (Nat.div_add_mod' i k).symm⟩
  · rw [List.getElem?_eq_none (by omega), List.getElem?_eq_none (by simp; omega)]

theorem negMasked_spec {k P bpp : Nat} {mask d : List UInt8} (hb : 0 < bpp) (hl : d.length = P * bpp * k) (hm : P ≤ mask.length) :
    ∃ d', negMasked k (P * bpp) bpp mask d = .ok d' ∧ d'.length = d.length ∧
      ∀ p c b, p < P → c < bpp → b < k → d'[(p * bpp + c) * k + b]? =
        if mask[p]? = some 0 then d[(p * bpp + c) * k + b]? else d[(p * bpp + c) * k + b]?.map (~~~·) := by
  have hu : Upd (fun d => loopN P (fun p d => loopN bpp (fun c d => do
      let r ← rd mask (p * bpp / bpp)
      if r ≠ 0 then notComp k (p * bpp + c) d else pure d) d) d) d
      (fun i => ∃ p, p < P ∧ ∃ c, c < bpp ∧ InC k (p * bpp + c) i)
      (fun i => ∃ p, p < P ∧ ∃ c, c < bpp ∧ (mask[p]? ≠ some 0 ∧ InC k (p * bpp + c) i)) (fun i => d[i]?.map (~~~·)) := by
    refine Upd.loop (U := fun p i => ∃ c, c < bpp ∧ InC k (p * bpp + c) i)
      (R := fun p i => ∃ c, c < bpp ∧ (mask[p]? ≠ some 0 ∧ InC k (p * bpp + c) i)) (fun p hp => ?_) ?_
    · refine Upd.loop (U := fun c i => InC k (p * bpp + c) i) (R := fun c i => mask[p]? ≠ some 0 ∧ InC k (p * bpp + c) i) (fun c hc => ?_) ?_
      · rw [Nat.mul_div_cancel _ hb]
        have hx := idx_lt (k := bpp) hp hc
        have hin : (p * bpp + c) * k + k ≤ d.length := by rw [hl, ← Nat.succ_mul]; exact Nat.mul_le_mul_right _ hx
        rw [rd_of_lt (show p < mask.length by omega)]
        by_cases h0 : mask[p]'(by omega) = 0
        · refine (Upd.skip d (fun i => d[i]?.map (~~~·))).congr (fun d' _ => ?_) (fun _ h => h.elim) (fun i _ => ?_) (fun _ _ h => h.elim)
          · rw [bind_ok, if_neg (by simpa using h0)]; rfl
          · constructor
            · exact fun h => h.elim
            · rintro ⟨h, _⟩
              exact h (by rw [List.getElem?_eq_getElem (by omega), h0])
        · refine (notComp_upd hin).congr (fun d' _ => ?_) (fun _ h => h) (fun i _ => ?_) (fun _ _ _ => rfl)
          · rw [bind_ok, if_pos h0]
          · constructor
            · exact fun h => ⟨by rw [List.getElem?_eq_getElem (by omega)]; exact fun h => h0 (Option.some.inj h), h⟩
            · exact fun h => h.2
      · intro a b i hab _ _ h h'
        have := h.inj h'.2; omega
    · rintro a b i hab _ _ ⟨c, hc, h⟩ ⟨c', hc', _, h'⟩
      have := h.inj h'
      have := (idx_inj hc hc' (by omega)).1
      omega
  obtain ⟨d', e, l, s⟩ := hu.apply
  refine ⟨d', ?_, l, fun p c b hp hc hb' => ?_⟩
  · unfold negMasked
    rw [forStep_mul hb]
    exact e
  have hx := idx_lt (k := bpp) hp hc
  have hi : (p * bpp + c) * k + b < d.length := by rw [hl]; exact idx_lt hx hb'
  have key := s _ hi
  split
  · rename_i h0
    refine key.2 ?_
    rintro ⟨p', hp', c', hc', hne, hin⟩
    have := hin.inj (⟨b, hb', rfl⟩ : InC k (p * bpp + c) _)
    have := (idx_inj hc hc' (show p * bpp + c = p' * bpp + c' by omega)).1
    subst this
    exact hne h0
  · rename_i h0
    exact key.1 ⟨p, hp, c, hc, h0, b, hb', rfl⟩

end DevIL.Ilu
