import Verif.Lemmas.Fits
set_option autoImplicit false
namespace DevIL.Fits
open DevIL.Games DevIL.Detect DevIL.Image DevIL.DetectSpec DevIL.FitsSpec
open DevIL.PnmSpec (IsNumber number)
open DevIL.Psd (EofLaw)

variable {σ : Type} {o : Ops σ} {At : σ → List UInt8 → Nat → Prop}

/-! ### The header of a document -/

theorem dim_le {a b c k : Nat} (ha : 0 < a) (hb : 0 < b) (hc : 0 < c) (hk : 0 < k) (h : a * b * c * k < 2147483648) :
    a < 2147483648 ∧ b < 2147483648 ∧ c < 2147483648 ∧ a * b < 2147483648 ∧ a * b * c < 2147483648 := by
  have h1 : a * b * c ≤ a * b * c * k := Nat.le_mul_of_pos_right _ hk
  have h2 : a * b ≤ a * b * c := Nat.le_mul_of_pos_right _ hc
  have h3 : a ≤ a * b := Nat.le_mul_of_pos_right _ hb
  have h4 : b ≤ a * b := Nat.le_mul_of_pos_left _ ha
  have h5 : c ≤ a * b * c := Nat.le_mul_of_pos_left _ (Nat.mul_pos ha hb)
  omega

theorem dim_pos {d : Doc} (h : ∀ v ∈ d.size, 0 < v) (i : Nat) : 0 < d.dim i := by
  unfold Doc.dim
  rw [List.getD_eq_getElem?_getD]
  cases e : d.size[i]? with
  | none => decide
  | some v => exact h v (List.mem_of_getElem? e)

theorem dim_small {d : Doc} (h : ∀ v ∈ d.size, v < 2147483648) (i : Nat) : d.dim i < 2147483648 := by
  unfold Doc.dim
  rw [List.getD_eq_getElem?_getD]
  cases e : d.size[i]? with
  | none => decide
  | some v => exact h v (List.mem_of_getElem? e)

theorem runs_doc {d : Doc} {b : Nat} (hd : d.Cards b) (hb : 0 < b) (hb8 : b ≤ 8) :
    ∃ h h', Runs Head.init d.cards h ∧ h.bits = (8 * b : Nat) ∧ axesOf h = .ok (some h') ∧ dims h' = .ok (some (d.dim 0, d.dim 1, d.dim 2)) := by
  have hlt : d.dim 0 < 2147483648 ∧ d.dim 1 < 2147483648 ∧ d.dim 2 < 2147483648 := ⟨dim_small hd.small 0, dim_small hd.small 1, dim_small hd.small 2⟩
  have p0 := dim_pos hd.pos 0
  have p1 := dim_pos hd.pos 1
  have p2 := dim_pos hd.pos 2
  have start : ∀ n : Nat, n = d.size.length → Runs Head.init [first d.note, d.bitpix.bytes "BITPIX", d.naxis.bytes "NAXIS"] ⟨true, (8 * b : Nat), some (n : Int), none, none, none⟩ := by
    rintro n rfl
    exact ⟨first_length hd.note, _, card_first _ _, num_length hd.bitpix rfl, _, card_bitpix rfl hd.bitpix (by omega) (by omega), num_length hd.naxis rfl, _,
      card_naxis hd.naxis hd.count.1 hd.count.2, rfl⟩
  have others := runs_others hd.others
  have each := hd.each
  have hc := hd.count
  have hax := hd.axes
  unfold Doc.cards
  unfold Doc.dim at hlt p0 p1 p2 ⊢
  match hs : d.size, ha : d.axes with
  | [], _ => rw [hs] at hc; exact absurd hc.1 (by decide)
  | [w], [] => rw [hs, ha] at hax; cases hax
  | [w], [n] =>
    rw [hs] at hlt p0 each
    rw [ha] at each
    have n1 := each 0 n w rfl rfl
    have ax : Runs ⟨true, (8 * b : Nat), some ((1 : Nat) : Int), none, none, none⟩ [n.bytes "NAXIS1"] ⟨true, (8 * b : Nat), some ((1 : Nat) : Int), some (w : Int), none, none⟩ := ⟨num_length n1 rfl, _, card_axis1 (a := 1) rfl (by decide) n1 hlt.1, rfl⟩
    refine ⟨⟨true, (8 * b : Nat), some ((1 : Nat) : Int), some (w : Int), none, none⟩, ⟨true, (8 * b : Nat), some ((1 : Nat) : Int), some (w : Int), some 1, some 1⟩, ((start 1 (by rw [hs]; rfl)).append ax).append (others _), rfl, rfl, ?_⟩
    simp only [List.getD_cons_zero] at p0
    show (if (w : Int) ≤ 0 then _ else _) = _
    rw [if_neg (by omega)]
    rfl
  | [w], _ :: _ :: _ => rw [hs, ha] at hax; simp at hax
  | [w, h], [] => rw [hs, ha] at hax; cases hax
  | [w, h], [_] => rw [hs, ha] at hax; simp at hax
  | [w, h], [n, m] =>
    rw [hs] at hlt p0 p1 each
    rw [ha] at each
    have n1 := each 0 n w rfl rfl
    have n2 := each 1 m h rfl rfl
    have ax : Runs ⟨true, (8 * b : Nat), some ((2 : Nat) : Int), none, none, none⟩ [n.bytes "NAXIS1", m.bytes "NAXIS2"] ⟨true, (8 * b : Nat), some ((2 : Nat) : Int), some (w : Int), some (h : Int), none⟩ := ⟨num_length n1 rfl, _, card_axis1 (a := 2) rfl (by decide) n1 hlt.1, num_length n2 rfl, _, card_axis2 (a := 2) rfl (by decide) n2 hlt.2.1, rfl⟩
    refine ⟨⟨true, (8 * b : Nat), some ((2 : Nat) : Int), some (w : Int), some (h : Int), none⟩, ⟨true, (8 * b : Nat), some ((2 : Nat) : Int), some (w : Int), some (h : Int), some 1⟩, ((start 2 (by rw [hs]; rfl)).append ax).append (others _), rfl, rfl, ?_⟩
    have p0 : 0 < w := p0
    have p1 : 0 < h := p1
    show (if (w : Int) ≤ 0 then _ else _) = _
    rw [if_neg (by omega)]
    show (if (h : Int) ≤ 0 then _ else _) = _
    rw [if_neg (by omega)]
    rfl
  | [w, h], _ :: _ :: _ :: _ => rw [hs, ha] at hax; simp at hax
  | [w, h, z], [] => rw [hs, ha] at hax; cases hax
  | [w, h, z], [_] => rw [hs, ha] at hax; simp at hax
  | [w, h, z], [_, _] => rw [hs, ha] at hax; simp at hax
  | [w, h, z], [n, m, k] =>
    rw [hs] at hlt p0 p1 p2 each
    rw [ha] at each
    have n1 := each 0 n w rfl rfl
    have n2 := each 1 m h rfl rfl
    have n3 := each 2 k z rfl rfl
    have ax : Runs ⟨true, (8 * b : Nat), some ((3 : Nat) : Int), none, none, none⟩ [n.bytes "NAXIS1", m.bytes "NAXIS2", k.bytes "NAXIS3"] ⟨true, (8 * b : Nat), some ((3 : Nat) : Int), some (w : Int), some (h : Int), some (z : Int)⟩ := ⟨num_length n1 rfl, _, card_axis1 (a := 3) rfl (by decide) n1 hlt.1,
      num_length n2 rfl, _, card_axis2 (a := 3) rfl (by decide) n2 hlt.2.1, num_length n3 rfl, _, card_axis3 (a := 3) rfl (by decide) n3 hlt.2.2, rfl⟩
    refine ⟨⟨true, (8 * b : Nat), some ((3 : Nat) : Int), some (w : Int), some (h : Int), some (z : Int)⟩, ⟨true, (8 * b : Nat), some ((3 : Nat) : Int), some (w : Int), some (h : Int), some (z : Int)⟩, ((start 3 (by rw [hs]; rfl)).append ax).append (others _), rfl, rfl, ?_⟩
    have p0 : 0 < w := p0
    have p1 : 0 < h := p1
    have p2 : 0 < z := p2
    show (if (w : Int) ≤ 0 then _ else _) = _
    rw [if_neg (by omega)]
    show (if (h : Int) ≤ 0 then _ else _) = _
    rw [if_neg (by omega)]
    show (if (z : Int) ≤ 0 then _ else _) = _
    rw [if_neg (by omega)]
    rfl
  | [w, h, z], _ :: _ :: _ :: _ :: _ => rw [hs, ha] at hax; simp at hax
  | _ :: _ :: _ :: _ :: _, _ => rw [hs] at hc; exact absurd hc.2 (by simp)

/-! ### Reading the cards -/

theorem getCard_ok (L : Laws2 o At) {bs c : List UInt8} {s : σ} {p : Nat} {h h' : Head} {k : Key} (hA : At s bs p) (hn : Next bs p c) (hc : c.length = 80) (e : card h c = .ok (k, h')) :
    Holds (getCard o h s) (fun r => r.1 = k ∧ r.2.1 = h' ∧ At r.2.2 bs (p + 80)) := by
  have hle := Psd.Next.le hn (by omega)
  unfold getCard
  refine (read_full L.toLaws 1 80 hA (by decide) (by decide) (by omega)).bind (fun r hr => ?_)
  obtain ⟨g, n, s'⟩ := r
  obtain ⟨h1, h2, h3⟩ := hr
  simp only at h1 h2 h3 ⊢
  have : g = c := by
    have hn' : at_ bs p c.length = c := hn
    rw [hc] at hn'
    rw [h1]
    exact hn'
  rw [if_neg (by rw [h2]; decide), this, e, bind_ok]
  exact Holds.pure ⟨rfl, rfl, h3⟩

theorem last_length : last.length = 80 := rfl

theorem cards_ok (L : Laws2 o At) (E : EofLaw o At) {bs : List UInt8} (cs : List (List UInt8)) : ∀ (fuel : Nat) (t : Cards σ) (p : Nat) (h' : Head), t.more = true → Runs t.head cs h' →
    At t.inp bs p → Next bs p (cs.flatten ++ last) → cs.length + 1 < fuel →
    Holds (whileF (fun t : Cards σ => t.more) (cardStep o) fuel t) (fun r => r.head = h' ∧ r.ok = true ∧ At r.inp bs (p + 80 * (cs.length + 1))) := by
  induction cs with
  | nil =>
    rintro fuel t p h' hm rfl hA hn hf
    obtain ⟨fuel, rfl⟩ : ∃ n, fuel = n + 2 := ⟨fuel - 2, by simp at hf; omega⟩
    unfold whileF
    rw [if_pos hm]
    unfold cardStep
    refine Holds.bind ((getCard_ok L hA hn last_length (card_last _)).bind (Q := fun (r : Cards σ) => r.head = t.head ∧ r.ok = true ∧ r.more = false ∧ At r.inp bs (p + 80)) (fun r hr => ?_)) (fun r hr => ?_)
    · obtain ⟨k, h, s⟩ := r
      obtain ⟨h1, h2, h3⟩ := hr
      simp only at h1 h2 h3
      subst h1 h2
      exact Holds.pure ⟨rfl, rfl, rfl, h3⟩
    · unfold whileF
      rw [if_neg (by rw [hr.2.2.1]; decide)]
      exact Holds.pure ⟨hr.1, hr.2.1, hr.2.2.2⟩
  | cons c cs ih =>
    rintro fuel t p h' hm ⟨hc, h1, e, hr⟩ hA hn hf
    obtain ⟨fuel, rfl⟩ : ∃ n, fuel = n + 1 := ⟨fuel - 1, by omega⟩
    rw [List.flatten_cons, List.append_assoc] at hn
    have hn2 := hn.right
    rw [hc] at hn2
    have hle := Psd.Next.le hn2 (by rw [List.length_append, last_length]; omega)
    rw [List.length_append, last_length] at hle
    unfold whileF
    rw [if_pos hm]
    unfold cardStep
    refine Holds.bind ((getCard_ok L hA hn.left hc e).bind (Q := fun (r : Cards σ) => r.head = h1 ∧ r.more = true ∧ At r.inp bs (p + 80)) (fun r hr => ?_)) (fun r hr' => ?_)
    · obtain ⟨k, h, s⟩ := r
      obtain ⟨g1, g2, g3⟩ := hr
      simp only at g1 g2 g3
      subst g1 g2
      obtain ⟨e1, e2⟩ := E g3 (by omega) (by omega)
      refine Holds.pure ⟨rfl, ?_, e2⟩
      show (!(o.eof s).1) = true
      rw [e1]
      simp
      omega
    · refine (ih fuel r (p + 80) h' hr'.2.1 (by rw [hr'.1]; exact hr) hr'.2.2 hn2 (by simp at hf; omega)).mono (fun u hu => ⟨hu.1, hu.2.1, ?_⟩)
      have := hu.2.2
      rw [List.length_cons, show p + 80 * (cs.length + 1 + 1) = p + 80 + 80 * (cs.length + 1) by omega]
      exact this

theorem intType_cases {b type : Nat} (h : intType b = some type) : (b = 1 ∧ type = IL_UNSIGNED_BYTE) ∨ (b = 2 ∧ type = IL_SHORT) ∨ (b = 4 ∧ type = IL_INT) := by
  unfold intType at h
  split at h
  · left; exact ⟨by assumption, (Option.some.inj h).symm⟩
  · split at h
    · right; left; exact ⟨by assumption, (Option.some.inj h).symm⟩
    · split at h
      · right; right; exact ⟨by assumption, (Option.some.inj h).symm⟩
      · cases h

theorem typeOf_int {b type : Nat} (h : intType b = some type) : typeOf (8 * b : Nat) = some (type, b) := by
  rcases intType_cases h with ⟨rfl, rfl⟩ | ⟨rfl, rfl⟩ | ⟨rfl, rfl⟩ <;> rfl

theorem header_length {d : Doc} {h : Head} (hr : Runs Head.init d.cards h) :
    d.header.length = 80 * (d.cards.length + 1) + (2880 - 80 * (d.cards.length + 1) % 2880) % 2880 := by
  have : (d.cards.flatten ++ last).length = 80 * (d.cards.length + 1) := by rw [List.length_append, runs_length hr, last_length]; omega
  unfold Doc.header
  rw [List.length_append, this, List.length_replicate]

theorem getHead_ok (L : Laws2 o At) (E : EofLaw o At) {d : Doc} {b type : Nat} (hd : d.Cards b) (ht : intType b = some type) {bs : List UInt8} {tail : List UInt8} (hbs : bs = d.header ++ tail)
    (h0 : tail ≠ []) {fuel : Nat} (hf : bs.length < fuel) {s : σ} (hA : At s bs 0) :
    Holds (getHead o fuel s) (fun r => r.1 = some (d.dim 0, d.dim 1, d.dim 2, type, b) ∧ At r.2 bs d.header.length) := by
  obtain ⟨h, h', hr, h1, h2, h3⟩ := runs_doc hd (by rcases intType_cases ht with ⟨rfl, -⟩ | ⟨rfl, -⟩ | ⟨rfl, -⟩ <;> decide) (by rcases intType_cases ht with ⟨rfl, -⟩ | ⟨rfl, -⟩ | ⟨rfl, -⟩ <;> decide)
  have hlen := header_length hr
  have hbl : bs.length = d.header.length + tail.length := by rw [hbs, List.length_append]
  have htl : 0 < tail.length := List.length_pos_iff.mpr h0
  have hn : Next bs 0 (d.cards.flatten ++ last) := by
    refine next_drop (r := List.replicate ((2880 - (d.cards.flatten ++ last).length % 2880) % 2880) 32 ++ tail) ?_
    rw [List.drop_zero, hbs]
    unfold Doc.header
    simp only [List.append_assoc]
  unfold getHead
  refine (cards_ok L E d.cards fuel ⟨Head.init, s, true, true⟩ 0 h rfl hr hA hn (by omega)).bind (fun t hT => ?_)
  obtain ⟨t1, t2, t3⟩ := hT
  rw [Nat.zero_add] at t3
  rw [if_neg (by rw [t2]; decide)]
  obtain ⟨e1, e2⟩ := E t3 (by omega) (by omega)
  simp only
  rw [if_neg (by rw [e1]; simp; omega)]
  rw [L.tellAt e2 (by omega)]
  refine (L.seekCur _ e2).bind (fun r hr => ?_)
  have hq := hr.2 d.header.length (by omega) (by omega)
  rw [t1, h1, typeOf_int ht]
  simp only
  rw [h2, bind_ok]
  simp only
  rw [h3, bind_ok]
  exact Holds.pure ⟨rfl, hq⟩

end DevIL.Fits
