import Verif.Model.Icns
import Verif.Spec.Icns
import Verif.Lemmas.Rot
import Verif.Lemmas.Rotate
/-! Apple icons: the packed channels. -/
set_option autoImplicit false
namespace DevIL.Icns
open DevIL.Games DevIL.Detect DevIL.Image DevIL.DetectSpec DevIL.IcnsSpec
open DevIL.Rotate (loopN_fails)

/-- Copying bytes to places that differ. -/
theorem fill_ok (data : List UInt8) (src dst : Nat → Nat) (n : Nat) (d : List UInt8) (hs : ∀ i, i < n → src i < data.length) (hd : ∀ i, i < n → dst i < d.length)
    (inj : ∀ i j, i < n → j < n → dst i = dst j → i = j) :
    ∃ d', loopN n (fun i d => do
        let v ← rd data (src i)
        wr d (dst i) v) d = .ok d' ∧ d'.length = d.length ∧ (∀ i, i < n → d'[dst i]? = data[src i]?) ∧ ∀ j, (∀ i, i < n → j ≠ dst i) → d'[j]? = d[j]? := by
  obtain ⟨d', e, h1, h2, h3⟩ := loopN_inv (n := n) (s := d) (f := fun i d => do
        let v ← rd data (src i)
        wr d (dst i) v)
    (fun k t => t.length = d.length ∧ (∀ i, i < k → t[dst i]? = data[src i]?) ∧ ∀ j, (∀ i, i < n → j ≠ dst i) → t[j]? = d[j]?)
    ⟨rfl, fun i hi => by omega, fun _ _ => rfl⟩
    (by
      rintro k t hk ⟨g1, g2, g3⟩
      have := hs k hk
      have h4 := hd k hk
      rw [rd_of_lt this, bind_ok, wr_of_lt (by omega)]
      refine ⟨_, rfl, by simpa using g1, fun i hi => ?_, fun j hj => ?_⟩
      · by_cases hik : i = k
        · subst hik
          rw [List.getElem?_set_self (by omega), List.getElem?_eq_getElem this]
        · rw [List.getElem?_set_ne (fun h => hik (inj _ _ hk (by omega) h).symm)]
          exact g2 i (by omega)
      · rw [List.getElem?_set_ne (fun h => hj k hk h.symm)]
        exact g3 j hj)
  exact ⟨d', e, h1, h2, h3⟩

/-- Copying from beyond the data. -/
theorem fill_fails (data : List UInt8) (src dst : Nat → Nat) (n k : Nat) (d : List UInt8) (hk : k < n) (hs : data.length ≤ src k) (hd : ∀ i, i < n → dst i < d.length) :
    loopN n (fun i d => do
        let v ← rd data (src i)
        wr d (dst i) v) d = .error .oobRead := by
  refine loopN_fails (fun t => t.length = d.length) rfl (fun i t hi ht => ?_) hk (fun t _ => ?_)
  · have := hd i hi
    by_cases h : src i < data.length
    · rw [rd_of_lt h, bind_ok, wr_of_lt (by omega)]
      exact .inl ⟨_, rfl, by simpa using ht⟩
    · rw [rd_of_ge (by omega)]
      exact .inr rfl
  · rw [rd_of_ge hs]
    rfl

/-- What decoding a channel does. -/
def Chan (data : List UInt8) (w2 ch pos : Nat) (d : List UInt8) (r : Option (List UInt8 × List UInt8)) (c : C (Nat × List UInt8)) : Prop :=
  match r with
  | none => c = .error .oobRead
  | some (v, l) => v.length = w2 - pos ∧ ∃ rp d', c = .ok (rp, d') ∧ data.drop rp = l ∧ d'.length = d.length ∧ (∀ i, pos + i < w2 → d'[ch + (pos + i) * 4]? = v[i]?) ∧
      ∀ j, (∀ i, pos + i < w2 → j ≠ ch + (pos + i) * 4) → d'[j]? = d[j]?

theorem chan_after {data d1 d2 v : List UInt8} {w2 ch pos k : Nat} {r : Option (List UInt8 × List UInt8)} {c : C (Nat × List UInt8)} (hp : pos < w2)
    (hv : v.length = min k (w2 - pos)) (h1 : d2.length = d1.length) (h2 : ∀ i, i < min k (w2 - pos) → d2[ch + (pos + i) * 4]? = v[i]?)
    (h3 : ∀ j, (∀ i, i < min k (w2 - pos) → j ≠ ch + (pos + i) * 4) → d2[j]? = d1[j]?) (h : Chan data w2 ch (pos + k) d2 r c) :
    Chan data w2 ch pos d1 (r.map (fun r => (v ++ r.1, r.2))) c := by
  match r, h with
  | none, h => exact h
  | some (u, l), h =>
    obtain ⟨hu, rp, d', e, g1, g2, g3, g4⟩ := h
    refine ⟨by show (v ++ u).length = _; rw [List.length_append]; omega, rp, d', e, g1, by omega, fun i hi => ?_, fun j hj => ?_⟩
    · by_cases hik : i < k
      · show _ = (v ++ u)[i]?
        rw [List.getElem?_append_left (by omega), ← h2 i (by omega)]
        exact g4 _ (fun i' hi' => by omega)
      · show _ = (v ++ u)[i]?
        rw [List.getElem?_append_right (by omega), show i - v.length = i - k by omega, ← g3 (i - k) (by omega)]
        rw [show pos + k + (i - k) = pos + i by omega]
    · rw [g4 j (fun i hi => by have := hj (k + i) (by omega); rw [Nat.add_assoc]; exact this)]
      exact h3 j (fun i hi => hj i (by omega))

theorem rle_chan (data : List UInt8) (w2 ch : Nat) (hch : ch < 4) : ∀ (f g pos rp : Nat) (d : List UInt8), d.length = w2 * 4 → w2 - pos < f → w2 - pos ≤ g →
    Chan data w2 ch pos d (unpack g (w2 - pos) (data.drop rp)) (rle data w2 ch f pos rp d) := by
  intro f
  induction f with
  | zero => intro g pos rp d _ h; omega
  | succ f ih =>
    intro g pos rp d hd hf hg
    unfold rle
    by_cases hp : w2 ≤ pos
    · rw [if_pos hp, show w2 - pos = 0 by omega, unpack]
      exact ⟨by simp; omega, rp, d, rfl, rfl, rfl, fun i hi => by omega, fun _ _ => rfl⟩
    rw [if_neg hp]
    obtain ⟨k, hk⟩ : ∃ k, w2 - pos = k + 1 := ⟨w2 - pos - 1, by omega⟩
    obtain ⟨g', rfl⟩ : ∃ g', g = g' + 1 := ⟨g - 1, by omega⟩
    by_cases hr : data.length ≤ rp
    · rw [rd_of_ge hr, hk, List.drop_of_length_le hr, unpack]
      rfl
    have hr : rp < data.length := by omega
    rw [rd_of_lt hr, bind_ok, hk, List.drop_eq_getElem_cons hr, unpack.eq_def]
    simp only []
    generalize hc : data[rp] = c
    by_cases hc8 : 128 ≤ c.toNat
    · rw [if_pos hc8, if_pos hc8, ← hk]
      obtain ⟨m, hm, hm0⟩ : ∃ m, c.toNat - 125 = m ∧ 0 < m := ⟨_, rfl, by omega⟩
      rw [hm]
      have hn : 0 < min m (w2 - pos) := by omega
      by_cases hr1 : data.length ≤ rp + 1
      · rw [List.drop_of_length_le hr1, fill_fails data (fun _ => rp + 1) (fun i => ch + (pos + i) * 4) _ 0 d hn hr1 (fun i hi => by omega)]
        rfl
      · have hr1 : rp + 1 < data.length := by omega
        obtain ⟨d', e, h1, h2, h3⟩ := fill_ok data (fun _ => rp + 1) (fun i => ch + (pos + i) * 4) (min m (w2 - pos)) d (fun _ _ => hr1) (fun i hi => by omega) (fun i j _ _ h => by omega)
        rw [e, bind_ok, List.drop_eq_getElem_cons hr1]
        simp only []
        rw [show w2 - pos - m = w2 - (pos + m) by omega]
        have next := ih g' (pos + m) (rp + 2) d' (by omega) (by omega) (by omega)
        refine chan_after (k := m) (v := List.replicate (min m (w2 - pos)) data[rp + 1]) (by omega) (by rw [List.length_replicate]) h1 (fun i hi => ?_) h3 next
        have h2 := h2 i hi
        rw [h2, List.getElem?_replicate, if_pos hi, List.getElem?_eq_getElem hr1]
    · rw [if_neg hc8, if_neg hc8, ← hk, List.length_drop]
      by_cases hs : data.length - (rp + 1) < min (c.toNat + 1) (w2 - pos)
      · rw [if_pos hs, fill_fails data (fun i => rp + 1 + i) (fun i => ch + (pos + i) * 4) _ (data.length - (rp + 1)) d hs (by omega) (fun i hi => by omega)]
        rfl
      · rw [if_neg hs]
        obtain ⟨d', e, h1, h2, h3⟩ := fill_ok data (fun i => rp + 1 + i) (fun i => ch + (pos + i) * 4) (min (c.toNat + 1) (w2 - pos)) d (fun i hi => by omega) (fun i hi => by omega) (fun i j _ _ h => by omega)
        rw [e, bind_ok, show w2 - pos - (c.toNat + 1) = w2 - (pos + (c.toNat + 1)) by omega, List.drop_drop]
        refine chan_after (by omega) (by rw [List.length_take, List.length_drop]; omega) h1 (fun i hi => ?_) h3 (ih g' _ (rp + 1 + (c.toNat + 1)) d' (by omega) (by omega) (by omega))
        rw [h2 i hi, List.getElem?_take, if_pos hi, List.getElem?_drop]

/-- What storing the colours does. -/
theorem colours_spec (data : List UInt8) (w : Nat) (d : List UInt8) (hd : d.length = w * w * 4) :
    (Whole w data → ∃ d', colours data w d = .ok d' ∧ d'.length = d.length ∧ (∀ i c, i < w * w → c < 3 → d'[i * 4 + c]? = colour w data i c) ∧
      ∀ i, i < w * w → d'[i * 4 + 3]? = d[i * 4 + 3]?) ∧ (¬ Whole w data → colours data w d = .error .oobRead) := by
  unfold Whole colour colours
  by_cases hl : data.length = w * w * 4
  · simp only [if_pos hl]
    refine ⟨fun _ => ?_, fun h => absurd (.inl hl) h⟩
    obtain ⟨d', e, h1, h2, h3⟩ := loopN_inv (n := w * w) (s := d) (f := fun i d => do
        let a ← rd data (4 * i + 1)
        let d ← wr d (i * 4 + 0) a
        let b ← rd data (4 * i + 2)
        let d ← wr d (i * 4 + 1) b
        let c ← rd data (4 * i + 3)
        wr d (i * 4 + 2) c)
      (fun k t => t.length = d.length ∧ (∀ i c, i < k → c < 3 → t[i * 4 + c]? = data[4 * i + c + 1]?) ∧ ∀ i, t[i * 4 + 3]? = d[i * 4 + 3]?)
      ⟨rfl, fun i c hi => by omega, fun _ => rfl⟩
      (by
        rintro k t hk ⟨g1, g2, g3⟩
        rw [rd_of_lt (by omega), bind_ok, wr_of_lt (by omega), bind_ok, rd_of_lt (by omega), bind_ok, wr_of_lt (by rw [List.length_set]; omega), bind_ok, rd_of_lt (by omega), bind_ok,
          wr_of_lt (by rw [List.length_set, List.length_set]; omega)]
        refine ⟨_, rfl, by simpa using g1, fun i c hi hc => ?_, fun i => ?_⟩
        · by_cases hik : i = k
          · subst hik
            have hc : c = 0 ∨ c = 1 ∨ c = 2 := by omega
            rcases hc with rfl | rfl | rfl
            · rw [List.getElem?_set_ne (by omega), List.getElem?_set_ne (by omega), List.getElem?_set_self (by omega), List.getElem?_eq_getElem (by omega)]
            · rw [List.getElem?_set_ne (by omega), List.getElem?_set_self (by rw [List.length_set]; omega), List.getElem?_eq_getElem (by omega)]
            · rw [List.getElem?_set_self (by rw [List.length_set, List.length_set]; omega), List.getElem?_eq_getElem (by omega)]
          · rw [List.getElem?_set_ne (by omega), List.getElem?_set_ne (by omega), List.getElem?_set_ne (by omega)]
            exact g2 i c (by omega) hc
        · rw [List.getElem?_set_ne (by omega), List.getElem?_set_ne (by omega), List.getElem?_set_ne (by omega)]
          exact g3 i)
    exact ⟨d', e, h1, h2, fun i _ => h3 i⟩
  · simp only [if_neg hl]
    have hpk : data.drop (if w = 128 then 4 else 0) = packed w data := by unfold packed; split <;> rfl
    have un : ∀ t : Nat × List UInt8, loopN 3 (fun ch t => rle data (w * w) ch (w * w + 1) 0 t.1 t.2) t = (do
        let t ← rle data (w * w) 0 (w * w + 1) 0 t.1 t.2
        let t ← rle data (w * w) 1 (w * w + 1) 0 t.1 t.2
        rle data (w * w) 2 (w * w + 1) 0 t.1 t.2) := by
      intro t
      rw [loopN_succ, loopN_succ, loopN_succ]
      show ((((Except.ok t : C _) >>= _) >>= _) >>= _) = _
      rw [bind_ok]
      cases rle data (w * w) 0 (w * w + 1) 0 t.1 t.2 <;> rfl
    rw [un]
    simp only []
    generalize hrp : (if w = 128 then 4 else 0) = rp at hpk
    unfold unpack3
    have c0 := rle_chan data (w * w) 0 (by decide) (w * w + 1) (w * w) 0 rp d hd (by omega) (by omega)
    rw [Nat.sub_zero, hpk] at c0
    cases u0 : unpack (w * w) (w * w) (packed w data) with
    | none =>
      rw [u0] at c0
      have c0 : rle data (w * w) 0 (w * w + 1) 0 rp d = .error .oobRead := c0
      rw [c0]
      exact ⟨fun h => by rcases h with h | h; exacts [absurd h hl, absurd h (by simp)], fun _ => rfl⟩
    | some r0 =>
      obtain ⟨v0, l0⟩ := r0
      rw [u0] at c0
      obtain ⟨vl0, rp0, d0, e0, p0, q0, a0, b0⟩ := c0
      rw [e0, bind_ok]
      simp only []
      have c1 := rle_chan data (w * w) 1 (by decide) (w * w + 1) (w * w) 0 rp0 d0 (by omega) (by omega) (by omega)
      rw [Nat.sub_zero, p0] at c1
      cases u1 : unpack (w * w) (w * w) l0 with
      | none =>
        rw [u1] at c1
        have c1 : rle data (w * w) 1 (w * w + 1) 0 rp0 d0 = .error .oobRead := c1
        rw [c1]
        exact ⟨fun h => by rcases h with h | h; exacts [absurd h hl, absurd h (by simp)], fun _ => rfl⟩
      | some r1 =>
        obtain ⟨v1, l1⟩ := r1
        rw [u1] at c1
        obtain ⟨vl1, rp1, d1, e1, p1, q1, a1, b1⟩ := c1
        rw [e1, bind_ok]
        simp only []
        have c2 := rle_chan data (w * w) 2 (by decide) (w * w + 1) (w * w) 0 rp1 d1 (by omega) (by omega) (by omega)
        rw [Nat.sub_zero, p1] at c2
        cases u2 : unpack (w * w) (w * w) l1 with
        | none =>
          rw [u2] at c2
          have c2 : rle data (w * w) 2 (w * w + 1) 0 rp1 d1 = .error .oobRead := c2
          rw [c2]
          exact ⟨fun h => by rcases h with h | h; exacts [absurd h hl, absurd h (by simp)], fun _ => rfl⟩
        | some r2 =>
          obtain ⟨v2, l2⟩ := r2
          rw [u2] at c2
          obtain ⟨vl2, rp2, d2, e2, p2, q2, a2, b2⟩ := c2
          rw [e2, bind_ok]
          simp only []
          simp only [Nat.zero_add] at a0 a1 a2 b0 b1 b2
          refine ⟨fun _ => ⟨d2, rfl, by omega, fun i c hi hc => ?_, fun i hi => ?_⟩, fun h => absurd (.inr rfl) h⟩
          · have hc : c = 0 ∨ c = 1 ∨ c = 2 := by omega
            rcases hc with rfl | rfl | rfl
            · rw [if_pos rfl, b2 _ (fun j hj => by omega), b1 _ (fun j hj => by omega), ← a0 i hi, Nat.add_zero]
            · rw [if_neg (by decide), if_pos rfl, b2 _ (fun j hj => by omega), ← a1 i hi, Nat.add_comm]
            · rw [if_neg (by decide), if_neg (by decide), ← a2 i hi, Nat.add_comm]
          · rw [b2 _ (fun j hj => by omega), b1 _ (fun j hj => by omega), b0 _ (fun j hj => by omega)]

end DevIL.Icns
