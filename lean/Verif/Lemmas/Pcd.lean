import Verif.Model.Pcd
import Verif.Spec.Pcd
import Verif.Lemmas.Games
/-! Photo CD: the rows. -/
set_option autoImplicit false
namespace DevIL.Pcd
open DevIL.Games DevIL.Detect DevIL.Image DevIL.DetectSpec DevIL.PcdSpec

theorem put3_ok {d : List UInt8} {j : Nat} (t : UInt8 × UInt8 × UInt8) (h : j + 3 ≤ d.length) : ∃ d', (do
      let d ← wr d j t.1
      let d ← wr d (j + 1) t.2.1
      let d ← wr d (j + 2) t.2.2
      pure (d, j + 3)) = (.ok (d', j + 3) : C (List UInt8 × Nat)) ∧ d'.length = d.length ∧
    (∀ c, c < 3 → d'[j + c]? = some (comp c t)) ∧ ∀ p, p < j → d'[p]? = d[p]? := by
  rw [wr_of_lt (by omega), bind_ok, wr_of_lt (by rw [List.length_set]; omega), bind_ok, wr_of_lt (by rw [List.length_set, List.length_set]; omega), bind_ok]
  refine ⟨_, rfl, by simp, fun c hc => ?_, fun p hp => ?_⟩
  · match c, hc with
    | 0, _ => rw [List.getElem?_set_ne (by omega), List.getElem?_set_ne (by omega), Nat.add_zero, List.getElem?_set_self (by omega)]; rfl
    | 1, _ => rw [List.getElem?_set_ne (by omega), List.getElem?_set_self (by rw [List.length_set]; omega)]; rfl
    | 2, _ => rw [List.getElem?_set_self (by rw [List.length_set, List.length_set]; omega)]; rfl
  · rw [List.getElem?_set_ne (by omega), List.getElem?_set_ne (by omega), List.getElem?_set_ne (by omega)]

/-- A pixel of a row. -/
def rowPx (conv : Conv) (y cbcr : List UInt8) (w x c : Nat) : Option UInt8 := do
  let l ← y[x]?
  let cb ← cbcr[x / 2]?
  let cr ← cbcr[w / 2 + x / 2]?
  pure (comp c (conv l cb cr))

theorem row_spec (conv : Conv) {y cbcr d : List UInt8} {w p : Nat} (hw : w % 2 = 0) (hy : y.length = w) (hc : cbcr.length = w) (hd : p + 3 * w ≤ d.length) :
    ∃ d', row conv y cbcr w (d, p) = .ok (d', p + 3 * w) ∧ d'.length = d.length ∧ (∀ x c, x < w → c < 3 → d'[p + 3 * x + c]? = rowPx conv y cbcr w x c) ∧ ∀ i, i < p → d'[i]? = d[i]? := by
  have key := loopN_inv (n := w) (s := (d, p)) (I := fun n t => t.2 = p + 3 * n ∧ t.1.length = d.length ∧ (∀ x c, x < n → c < 3 → t.1[p + 3 * x + c]? = rowPx conv y cbcr w x c) ∧ ∀ i, i < p → t.1[i]? = d[i]?)
    (f := fun x s => do
      let l ← rd y x
      let cb ← rd cbcr (x / 2)
      let cr ← rd cbcr (w / 2 + x / 2)
      let c := conv l cb cr
      let d ← wr s.1 s.2 c.1
      let d ← wr d (s.2 + 1) c.2.1
      let d ← wr d (s.2 + 2) c.2.2
      pure (d, s.2 + 3)) ⟨rfl, rfl, fun x c hx => absurd hx (by omega), fun _ _ => rfl⟩ (by
    rintro n ⟨e, q⟩ hn ⟨rfl, h2, h3, h4⟩
    simp only [] at h2 h3 h4 ⊢
    have i1 : n < y.length := by omega
    have i2 : n / 2 < cbcr.length := by omega
    have i3 : w / 2 + n / 2 < cbcr.length := by omega
    obtain ⟨d', e', l', g, k⟩ := put3_ok (d := e) (j := p + 3 * n) (conv y[n] cbcr[n / 2] cbcr[w / 2 + n / 2]) (by omega)
    refine ⟨(d', p + 3 * n + 3), ?_, by show _ = p + 3 * (n + 1); omega, by rw [← h2, ← l'], fun x c hx hcc => ?_, fun i hi => ?_⟩
    · rw [rd_of_lt i1, bind_ok, rd_of_lt i2, bind_ok, rd_of_lt i3, bind_ok]
      exact e'
    · show d'[_]? = _
      by_cases hxn : x = n
      · subst hxn
        rw [g c hcc]
        unfold rowPx
        rw [List.getElem?_eq_getElem i1, List.getElem?_eq_getElem i2, List.getElem?_eq_getElem i3]
        rfl
      · rw [k _ (by omega)]
        exact h3 x c (by omega) hcc
    · show d'[_]? = _
      rw [k _ (by omega)]
      exact h4 i hi)
  obtain ⟨⟨d', q⟩, e, h1, h2, h3, h4⟩ := key
  simp only [] at h1 h2 h3 h4
  subst h1
  exact ⟨d', e, h2, h3, h4⟩

variable {σ : Type} {o : Ops σ} {At : σ → List UInt8 → Nat → Prop}

theorem at_get {bs : List UInt8} {p n i : Nat} (h : i < n) : (at_ bs p n)[i]? = bs[p + i]? := by
  unfold at_
  rw [List.getElem?_take_of_lt h, List.getElem?_drop]

theorem line (L : Laws2 o At) {bs dst : List UInt8} {p w : Nat} {s : σ} (hA : At s bs p) (hd : dst.length = w) (hw : w < 4294967296) :
    Holds (into o s dst 1 w) (fun r => r.1 = min w (bs.length - p) ∧ r.2.1.length = w ∧ (p + w ≤ bs.length → r.2.1 = at_ bs p w) ∧ At r.2.2 bs (p + min w (bs.length - p))) := by
  refine (into_spec L dst 1 w hA (by decide) (by omega) (by omega)).mono (fun r hr => ?_)
  obtain ⟨h1, h2, h3⟩ := hr
  rw [Nat.one_mul] at h1 h2 h3
  have hl := at_length bs p w
  rw [Nat.div_one, hl] at h1
  refine ⟨h1, by rw [h2, List.length_append, List.length_drop]; omega, fun hp => ?_, by rw [← hl]; exact h3⟩
  rw [h2, List.drop_of_length_le (by omega), List.append_nil]

theorem pairs_spec (L : Laws2 o At) (conv : Conv) {bs : List UInt8} {w : Nat} (hw : w % 2 = 0) (hw0 : 0 < w) (hw2 : w < 4294967296) : ∀ (n p pos : Nat) (y1 y2 cbcr d : List UInt8) (s : σ), At s bs p →
    y1.length = w → y2.length = w → cbcr.length = w → pos + 6 * (w * n) ≤ d.length →
    Holds (pairs o conv w n y1 y2 cbcr (d, pos) s) (fun r => (∃ q, At r.2.2 bs q) ∧ r.2.1.length = d.length ∧ r.1 = decide (n = 0 ∨ p + 3 * (w * n) ≤ bs.length) ∧
      (∀ i, i < pos → r.2.1[i]? = d[i]?) ∧
      (p + 3 * (w * n) ≤ bs.length → ∀ x y c, x < w → y < 2 * n → c < 3 → r.2.1[pos + 3 * (y * w + x) + c]? = pixel conv bs w p x y c)) := by
  intro n
  induction n with
  | zero => intro p pos y1 y2 cbcr d s hA _ _ _ _; exact ⟨_, rfl, ⟨_, hA⟩, rfl, (by simp), fun _ _ => rfl, fun _ x y c _ hy => absurd hy (by omega)⟩
  | succ n ih =>
    intro p pos y1 y2 cbcr d s hA h1 h2 h3 hd
    have hmul : w * (n + 1) = w * n + w := Nat.mul_succ _ _
    rw [hmul] at hd ⊢
    unfold pairs
    refine (line L hA h1 hw2).bind (fun r hr => ?_)
    obtain ⟨k1, z1, s1⟩ := r
    obtain ⟨-, l1, g1, A1⟩ := hr
    simp only [] at l1 g1 A1 ⊢
    refine (line L A1 h2 hw2).bind (fun r hr => ?_)
    obtain ⟨k2, z2, s2⟩ := r
    obtain ⟨-, l2, g2, A2⟩ := hr
    simp only [] at l2 g2 A2 ⊢
    refine (line L A2 h3 hw2).bind (fun r hr => ?_)
    obtain ⟨k3, z3, s3⟩ := r
    obtain ⟨h3k, l3, g3, A3⟩ := hr
    simp only [] at h3k l3 g3 A3 ⊢
    by_cases hfull : p + 3 * w ≤ bs.length
    · rw [show min w (bs.length - p) = w by omega] at *
      rw [show min w (bs.length - (p + w)) = w by omega] at *
      rw [show min w (bs.length - (p + w + w)) = w by omega] at *
      obtain rfl := g1 (by omega)
      obtain rfl := g2 (by omega)
      obtain rfl := g3 (by omega)
      rw [if_neg (by omega)]
      obtain ⟨d1, e1, m1, r1, q1⟩ := row_spec conv (d := d) (p := pos) hw l1 l3 (by omega)
      obtain ⟨d2, e2, m2, r2, q2⟩ := row_spec conv (d := d1) (p := pos + 3 * w) hw l2 l3 (by omega)
      rw [e1, bind_ok, e2, bind_ok]
      refine (ih (p + w + w + w) (pos + 3 * w + 3 * w) _ _ _ d2 s3 A3 l1 l2 l3 (by omega)).mono (fun r hr => ?_)
      obtain ⟨a0, a1, a2, a3, a4⟩ := hr
      refine ⟨a0, by omega, ?_, fun i hi => ?_, fun hall x y c hx hy hc => ?_⟩
      · rw [a2]
        by_cases g : p + 3 * (w * n + w) ≤ bs.length
        · rw [decide_eq_true (.inr (by omega)), decide_eq_true (.inr (by omega))]
        · have hn : n ≠ 0 := by rintro rfl; omega
          rw [decide_eq_false (by omega), decide_eq_false (by omega)]
      · rw [a3 i (by omega), q2 i (by omega), q1 i hi]
      · rcases Nat.lt_or_ge y 2 with hy2 | hy2
        · have hpx : ∀ (t : Nat), t < 2 → rowPx conv (at_ bs (p + t * w) w) (at_ bs (p + w + w) w) w x c = pixel conv bs w p x t c := by
            intro t ht
            unfold rowPx pixel
            rw [at_get hx, at_get (i := x / 2) (by omega), at_get (i := w / 2 + x / 2) (by omega)]
            rw [show p + 3 * w * (t / 2) + (t % 2 * w + x) = p + t * w + x by rw [show t / 2 = 0 by omega, show t % 2 = t by omega]; omega,
              show p + 3 * w * (t / 2) + (2 * w + x / 2) = p + w + w + x / 2 by rw [show t / 2 = 0 by omega]; omega,
              show p + 3 * w * (t / 2) + (2 * w + (w / 2 + x / 2)) = p + w + w + (w / 2 + x / 2) by rw [show t / 2 = 0 by omega]; omega]
          match y, hy2 with
          | 0, _ =>
            rw [a3 _ (by omega), q2 _ (by omega), show pos + 3 * (0 * w + x) + c = pos + 3 * x + c by omega, r1 x c hx hc]
            have := hpx 0 (by decide)
            rw [Nat.zero_mul, Nat.add_zero] at this
            exact this
          | 1, _ =>
            rw [a3 _ (by omega), show pos + 3 * (1 * w + x) + c = pos + 3 * w + 3 * x + c by omega, r2 x c hx hc]
            have := hpx 1 (by decide)
            rw [Nat.one_mul] at this
            exact this
        · have := a4 (by omega) x (y - 2) c hx (by omega) hc
          have hyw : y * w = (y - 2) * w + 2 * w := by rw [← Nat.add_mul, Nat.sub_add_cancel hy2]
          have hym : 3 * w * (y / 2) = 3 * w * ((y - 2) / 2) + 3 * w := by rw [← Nat.mul_succ]; congr 1; omega
          rw [show pos + 3 * (y * w + x) + c = pos + 3 * w + 3 * w + 3 * ((y - 2) * w + x) + c by omega, this]
          unfold pixel
          rw [hym, show (y - 2) % 2 = y % 2 by omega]
          rw [show p + w + w + w + 3 * w * ((y - 2) / 2) = p + (3 * w * ((y - 2) / 2) + 3 * w) by omega]
    · rw [if_pos (by omega)]
      refine Holds.pure ⟨⟨_, A3⟩, rfl, ?_, fun _ _ => rfl, fun h => absurd h (by omega)⟩
      rw [decide_eq_false (by omega)]

end DevIL.Pcd
