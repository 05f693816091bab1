import Verif.Lemmas.FitsC
import Verif.Lemmas.PicF
set_option autoImplicit false
namespace DevIL.Fits
open DevIL.Games DevIL.Detect DevIL.Image DevIL.DetectSpec DevIL.FitsSpec
open DevIL.PnmSpec (IsNumber number)
open DevIL.Psd (EofLaw)
open DevIL.Pic (bind_err)

variable {σ : Type} {o : Ops σ} {At : σ → List UInt8 → Nat → Prop}

/-! ### Any input -/

/-- It ends with `P`, or one of three things goes wrong. -/
def Tame {α : Type} (c : C α) (P : α → Prop) : Prop := Holds c P ∨ c = .error .uninit ∨ c = .error .overflow ∨ c = .error .oobWrite

theorem Tame.of {α : Type} {c : C α} {P : α → Prop} (h : Holds c P) : Tame c P := .inl h
theorem Tame.pure {α : Type} {a : α} {P : α → Prop} (h : P a) : Tame (Pure.pure a : C α) P := .inl (Holds.pure h)

theorem Tame.bind {α β : Type} {c : C α} {f : α → C β} {P : α → Prop} {Q : β → Prop} (h : Tame c P) (hf : ∀ a, P a → Tame (f a) Q) : Tame (c >>= f) Q := by
  rcases h with ⟨a, e, ha⟩ | e | e | e
  · rw [e, bind_ok]; exact hf a ha
  · rw [e, bind_error]; exact .inr (.inl rfl)
  · rw [e, bind_error]; exact .inr (.inr (.inl rfl))
  · rw [e, bind_error]; exact .inr (.inr (.inr rfl))

theorem Tame.loop {α : Type} {f : Nat → α → C α} (I : α → Prop) {n : Nat} {s : α} (h0 : I s) (hs : ∀ k t, I t → Tame (f k t) I) : Tame (loopN n f s) I := by
  induction n with
  | zero => exact .pure h0
  | succ n ih => rw [loopN_succ]; exact ih.bind (fun a ha => hs n a ha)

theorem atoi_tame (b : List UInt8) : Tame (atoi b) (fun _ => True) := by
  have g : ∀ (p : Prop) [Decidable p] (v : Int), Tame (if p then (.error .overflow : C Int) else pure v) (fun _ => True) := by
    intro p _ v
    split
    · exact .inr (.inr (.inl rfl))
    · exact .pure trivial
  unfold atoi
  simp only
  split
  · exact g _ _
  · exact g _ _

theorem cardInt_tame {b : List UInt8} (h : b.length = 80) : Tame (cardInt b) (fun _ => True) := by
  unfold cardInt
  rw [rd_of_lt (by omega), bind_ok, rd_of_lt (by omega), bind_ok]
  split
  · exact .pure trivial
  · simp only
    split
    · exact .pure trivial
    · exact (atoi_tame _).bind (fun _ _ => .pure trivial)

theorem use_tame (v : Option Int) : Tame (use v) (fun _ => True) := by
  cases v with
  | none => exact .inr (.inl rfl)
  | some v => exact .pure trivial

theorem card_tame (h : Head) {b : List UInt8} (hb : b.length = 80) : Tame (card h b) (fun _ => True) := by
  unfold card
  split
  · exact .pure trivial
  split
  · rw [rd_of_lt (by omega), bind_ok]
    split <;> exact .pure trivial
  split
  · split
    · exact .pure trivial
    · refine (cardInt_tame hb).bind (fun v _ => ?_)
      cases v with
      | none => exact .pure trivial
      | some v =>
        simp only
        split <;> exact .pure trivial
  split
  · refine (cardInt_tame hb).bind (fun v _ => ?_)
    cases v with
    | none => exact .pure trivial
    | some v =>
      simp only
      split <;> exact .pure trivial
  split
  · refine (use_tame _).bind (fun n _ => ?_)
    split
    · exact .pure trivial
    · refine (cardInt_tame hb).bind (fun v _ => ?_)
      cases v <;> exact .pure trivial
  split
  · refine (use_tame _).bind (fun n _ => ?_)
    split
    · exact .pure trivial
    · refine (cardInt_tame hb).bind (fun v _ => ?_)
      cases v <;> exact .pure trivial
  split
  · refine (use_tame _).bind (fun n _ => ?_)
    split
    · exact .pure trivial
    · refine (cardInt_tame hb).bind (fun v _ => ?_)
      cases v <;> exact .pure trivial
  · exact .pure trivial

theorem getCard_tame (L : Laws2 o At) {bs : List UInt8} {s : σ} {p : Nat} (h : Head) (hA : At s bs p) (hp : p ≤ bs.length) :
    Tame (getCard o h s) (fun r => ∃ q, q ≤ bs.length ∧ At r.2.2 bs q ∧ (r.1 ≠ .fail → q = p + 80 ∨ r.1 = .fail)) := by
  unfold getCard
  refine (Tame.of (L.read 1 80 hA (by decide) (by decide))).bind (fun r hr => ?_)
  obtain ⟨g, n, s'⟩ := r
  obtain ⟨h1, h2, h3⟩ := hr
  simp only [Nat.one_mul, Nat.div_one] at h1 h2 h3 ⊢
  have hl := at_length bs p 80
  rw [← h1] at hl
  split
  · exact .pure ⟨_, by omega, h3, fun h => absurd rfl h⟩
  · refine (card_tame h (by omega)).bind (fun r _ => ?_)
    exact .pure ⟨_, by omega, h3, fun _ => .inl (by omega)⟩

theorem cardStep_tame (L : Laws2 o At) (E : EofLaw o At) {bs : List UInt8} (h0 : 0 < bs.length) (t : Cards σ) {p : Nat} (hA : At t.inp bs p) (hp : p ≤ bs.length) :
    Tame (cardStep o t) (fun r => ∃ q, q ≤ bs.length ∧ At r.inp bs q ∧ (r.more = true → q = p + 80)) := by
  unfold cardStep
  refine (getCard_tame L t.head hA hp).bind (fun r hr => ?_)
  obtain ⟨k, h, s⟩ := r
  obtain ⟨q, h1, h2, h3⟩ := hr
  simp only at h2 h3 ⊢
  cases k with
  | fail => exact .pure ⟨q, h1, h2, fun h => by cases h⟩
  | stop => exact .pure ⟨q, h1, h2, fun h => by cases h⟩
  | notSimple => exact .pure ⟨q, h1, h2, fun h => by cases h⟩
  | go =>
    obtain ⟨-, e2⟩ := E h2 h1 h0
    refine .pure ⟨q, h1, e2, fun _ => ?_⟩
    rcases h3 (by decide) with h | h
    · exact h
    · cases h

theorem cards_tame (L : Laws2 o At) (E : EofLaw o At) {bs : List UInt8} (h0 : 0 < bs.length) : ∀ (fuel : Nat) (t : Cards σ) (p : Nat), At t.inp bs p → p ≤ bs.length → bs.length + 1 < p + fuel →
    Tame (whileF (fun t : Cards σ => t.more) (cardStep o) fuel t) (fun r => ∃ q, q ≤ bs.length ∧ At r.inp bs q) := by
  intro fuel
  induction fuel with
  | zero => intro t p _ h1 h2; omega
  | succ fuel ih =>
    intro t p hA hp hf
    unfold whileF
    split
    · refine (cardStep_tame L E h0 t hA hp).bind (fun r hr => ?_)
      obtain ⟨q, h1, h2, h3⟩ := hr
      by_cases hm : r.more = true
      · exact ih r q h2 h1 (by have := h3 hm; omega)
      · obtain ⟨fuel, rfl⟩ : ∃ n, fuel = n + 1 := ⟨fuel - 1, by omega⟩
        unfold whileF
        rw [if_neg hm]
        exact .pure ⟨q, h1, h2⟩
    · exact .pure ⟨p, hp, hA⟩

theorem typeOf_bpc {v : Int} {type b : Nat} (h : typeOf v = some (type, b)) : 0 < b ∧ b ≤ 8 := by
  unfold typeOf at h
  split at h
  · cases h; decide
  split at h
  · cases h; decide
  split at h
  · cases h; decide
  split at h
  · cases h; decide
  split at h
  · cases h; decide
  · cases h

theorem axesOf_tame (h : Head) : Tame (axesOf h) (fun _ => True) := by
  unfold axesOf
  refine (use_tame _).bind (fun n _ => ?_)
  split
  · exact .pure trivial
  split
  · exact .pure trivial
  split <;> exact .pure trivial

theorem dims_tame (h : Head) : Tame (dims h) (fun _ => True) := by
  unfold dims
  refine (use_tame _).bind (fun n _ => ?_)
  split
  · exact .pure trivial
  refine (use_tame _).bind (fun n _ => ?_)
  split
  · exact .pure trivial
  refine (use_tame _).bind (fun n _ => ?_)
  split <;> exact .pure trivial

theorem getHead_tame (L : Laws2 o At) (E : EofLaw o At) {bs : List UInt8} (h0 : 0 < bs.length) {fuel : Nat} (hf : bs.length + 1 < fuel) {s : σ} (hA : At s bs 0) :
    Tame (getHead o fuel s) (fun r => (∃ q, At r.2 bs q) ∧ ∀ w h d type b, r.1 = some (w, h, d, type, b) → 0 < b ∧ b ≤ 8) := by
  unfold getHead
  refine (cards_tame L E h0 fuel _ 0 hA (by omega) (by omega)).bind (fun t ht => ?_)
  obtain ⟨q, hq, hA⟩ := ht
  have nothing : ∀ (w h d type b : Nat), (none : Option (Nat × Nat × Nat × Nat × Nat)) = some (w, h, d, type, b) → 0 < b ∧ b ≤ 8 := fun _ _ _ _ _ h => by cases h
  split
  · exact .pure ⟨⟨q, hA⟩, nothing⟩
  obtain ⟨-, e2⟩ := E hA hq h0
  simp only
  split
  · exact .pure ⟨⟨q, e2⟩, nothing⟩
  refine (Tame.of (L.seekCur _ e2)).bind (fun r hr => ?_)
  have hr := hr.1
  cases ht : typeOf t.head.bits with
  | none => exact .pure ⟨hr, nothing⟩
  | some v =>
    obtain ⟨type, b⟩ := v
    simp only
    refine (axesOf_tame _).bind (fun h _ => ?_)
    cases h with
    | none => exact .pure ⟨hr, nothing⟩
    | some h =>
      simp only
      refine (dims_tame _).bind (fun v _ => ?_)
      cases v with
      | none => exact .pure ⟨hr, nothing⟩
      | some v =>
        refine .pure ⟨hr, fun w' h' d' type' b' e => ?_⟩
        cases e
        exact typeOf_bpc ht

theorem sample_tame (L : Laws2 o At) (junk : Nat → UInt8) {bs : List UInt8} {b k n : Nat} (h0 : 0 < b) (hb : b ≤ 8) (t : List UInt8 × σ) (h : t.1.length = n ∧ ∃ q, At t.2 bs q) :
    Tame (sample o junk b k t) (fun r => r.1.length = n ∧ ∃ q, At r.2 bs q) := by
  obtain ⟨hl, q, hA⟩ := h
  unfold sample
  refine (Tame.of (L.read b 1 hA h0 (by omega))).bind (fun r hr => ?_)
  obtain ⟨g, m, s⟩ := r
  obtain ⟨h1, -, h3⟩ := hr
  simp only [Nat.mul_one] at h1 h3 ⊢
  have hlen : b ≤ ((g ++ (alloc junk b).drop g.length).reverse).length := by
    have : g.length ≤ b := by rw [h1, at_length]; omega
    simp only [List.length_reverse, List.length_append, List.length_drop, alloc_length]
    omega
  by_cases hfit : k * b + b ≤ t.1.length
  · obtain ⟨d', e, l, v⟩ := memcpy_get (dst := t.1) (src := (g ++ (alloc junk b).drop g.length).reverse) (dOff := k * b) (sOff := 0) (n := b) (by omega) hfit
    rw [e, bind_ok]
    exact .pure ⟨by show d'.length = n; omega, _, h3⟩
  · refine .inr (.inr (.inr ?_))
    unfold memcpy
    rw [if_pos (by omega), if_neg hfit]
    rfl

theorem numPix_tame (w h d : Nat) : Tame (numPix w h d) (fun _ => True) := by
  unfold numPix
  split
  · exact .inr (.inr (.inl rfl))
  split
  · exact .inr (.inr (.inl rfl))
  · exact .pure trivial

theorem texOf_len (junk : Nat → UInt8) (w h d type : Nat) : (texOf junk w h d type).data.length = (texOf junk w h d type).size := by
  unfold texOf
  exact alloc_length _ _

theorem load_tame (L : Laws2 o At) (E : EofLaw o At) (junk : Nat → UInt8) (norm : Nat → List UInt8 → Nat → UInt8) (cur : Loaded) {bs : List UInt8} (h0 : 0 < bs.length) {fuel : Nat}
    (hf : bs.length + 1 < fuel) {s : σ} (hA : At s bs 0) :
    Tame (iLoadFitsInternal o junk norm fuel cur s) (fun r => (r.2.1 = cur ∨ (r.2.1.2 = none ∧ r.2.1.1.data.length = r.2.1.1.size)) ∧ ∃ q, At r.2.2 bs q) := by
  unfold iLoadFitsInternal
  refine (getHead_tame L E h0 hf hA).bind (fun r hr => ?_)
  obtain ⟨v, s'⟩ := r
  obtain ⟨⟨q, hA⟩, hb⟩ := hr
  simp only at hA hb ⊢
  cases v with
  | none => exact .pure ⟨.inl rfl, q, hA⟩
  | some v =>
    obtain ⟨w, h, d, type, b⟩ := v
    obtain ⟨b0, b8⟩ := hb w h d type b rfl
    simp only
    refine (numPix_tame w h d).bind (fun n _ => ?_)
    split
    · refine (Tame.of (into_len L _ 1 (texOf junk w h d type).size hA (by rw [Nat.one_mul]; exact u32_lt _) (by rw [Nat.one_mul, texOf_len]))).bind (fun r hr => ?_)
      exact .pure ⟨.inr ⟨rfl, by show r.2.1.length = (texOf junk w h d type).size; rw [hr.1, texOf_len]⟩, hr.2⟩
    · refine (Tame.loop (fun r : List UInt8 × σ => r.1.length = (texOf junk w h d type).size ∧ ∃ q, At r.2 bs q) ⟨texOf_len _ _ _ _ _, q, hA⟩
        (fun k t ht => sample_tame L junk b0 b8 t ht)).bind (fun r hr => ?_)
      split
      · exact .pure ⟨.inr ⟨rfl, by show (alloc (norm b r.1) r.1.length).length = (texOf junk w h d type).size; rw [alloc_length, hr.1]⟩, hr.2⟩
      · exact .pure ⟨.inr ⟨rfl, hr.1⟩, hr.2⟩

/-! ### What goes wrong -/

theorem loop_error {α : Type} {f : Nat → α → C α} (I : Nat → α → Prop) {k n : Nat} {s : α} {e : Fault} (h0 : I 0 s) (hs : ∀ i t, i < k → I i t → Holds (f i t) (I (i + 1)))
    (he : ∀ t, I k t → f k t = .error e) (hk : k < n) : loopN n f s = .error e := by
  obtain ⟨m, rfl⟩ : ∃ m, n = k + 1 + m := ⟨n - (k + 1), by omega⟩
  induction m with
  | zero =>
    rw [Nat.add_zero, loopN_succ]
    exact bind_err (Holds.loop I h0 hs) he
  | succ m ih =>
    rw [show k + 1 + (m + 1) = k + 1 + m + 1 by omega, loopN_succ, ih (by omega), bind_error]

theorem mod_chain (w h d b : Nat) : u32 (u32 (u32 (u32 w * b) * h) * d) = u32 (w * h * d * b) := by
  unfold u32
  rw [Nat.mod_mul_mod, Nat.mod_mul_mod, Nat.mul_assoc (w * b % 4294967296), Nat.mod_mul_mod, show w * b * (h * d) = w * h * d * b by simp only [Nat.mul_comm, Nat.mul_left_comm]]

theorem big_size (junk : Nat → UInt8) {w h d : Nat} (hw : 0 < w) (hh : 0 < h) (hd : 0 < d) (h1 : 1073741824 ≤ w * h * d) (h2 : w * h * d < 2147483648) :
    (texOf junk w h d IL_INT).size = (w * h * d - 1073741824) * 4 := by
  have a : ∀ n, 0 < n → atLeast1 n = n := fun n h => by unfold atLeast1; rw [if_neg (by omega)]
  have hb : Utility.ilGetBpcType IL_INT = 4 := by decide
  have : (texOf junk w h d IL_INT).size = u32 (u32 (u32 (u32 w * 4) * h) * d) := by
    simp only [texOf, geometry, a w hw, a h hh, a d hd, hb, Nat.mul_one]
  rw [this, mod_chain]
  unfold u32
  omega

theorem big_err (L : Laws2 o At) (E : EofLaw o At) (junk : Nat → UInt8) (norm : Nat → List UInt8 → Nat → UInt8) (cur : Loaded) {d : Doc} (hd : d.Cards 4)
    (h1 : 1073741824 ≤ d.dim 0 * d.dim 1 * d.dim 2) (h2 : d.dim 0 * d.dim 1 * d.dim 2 < 2147483648) {bs tail : List UInt8} (hbs : bs = d.header ++ tail) (h0 : tail ≠ []) {fuel : Nat}
    (hf : bs.length < fuel) {s : σ} (hA : At s bs 0) : iLoadFitsInternal o junk norm fuel cur s = .error .oobWrite := by
  have p0 := dim_pos hd.pos 0
  have p1 := dim_pos hd.pos 1
  have p2 := dim_pos hd.pos 2
  unfold iLoadFitsInternal
  refine bind_err (getHead_ok L E hd (type := IL_INT) rfl hbs h0 hf hA) (fun r hr => ?_)
  obtain ⟨v, s'⟩ := r
  obtain ⟨g1, g2⟩ := hr
  simp only at g1 g2
  subst g1
  simp only
  have hnp : numPix (d.dim 0) (d.dim 1) (d.dim 2) = .ok (d.dim 0 * d.dim 1 * d.dim 2) := by
    have : d.dim 0 * d.dim 1 ≤ d.dim 0 * d.dim 1 * d.dim 2 := Nat.le_mul_of_pos_right _ p2
    unfold numPix
    rw [if_neg (by omega), if_neg (by omega)]
    rfl
  rw [hnp, bind_ok, if_neg (by decide)]
  have hsz := big_size junk p0 p1 p2 h1 h2
  have hlen := texOf_len junk (d.dim 0) (d.dim 1) (d.dim 2) IL_INT
  rw [hsz] at hlen
  have hle : d.header.length ≤ bs.length := by rw [hbs, List.length_append]; omega
  have : loopN (d.dim 0 * d.dim 1 * d.dim 2) (sample o junk 4) ((texOf junk (d.dim 0) (d.dim 1) (d.dim 2) IL_INT).data, s') = .error .oobWrite := by
    refine loop_error (fun k t => Stored At junk bs d.header.length 4 (d.dim 0 * d.dim 1 * d.dim 2 - 1073741824) k t) (k := d.dim 0 * d.dim 1 * d.dim 2 - 1073741824) ⟨hlen, ?_, fun i c hi => by omega⟩
      (fun k t hk h => sample_ok L (by decide) (by decide) hk h) (fun t ht => ?_) (by omega)
    · rw [Nat.zero_mul, Nat.add_zero, Nat.min_eq_left hle]
      exact g2
    · unfold sample
      refine bind_err (L.read 4 1 ht.pos (by decide) (by decide)) (fun r hr => ?_)
      obtain ⟨g, m, s2⟩ := r
      obtain ⟨k1, -, -⟩ := hr
      simp only at k1 ⊢
      have hgl : g.length ≤ 4 := by rw [k1, at_length]; exact Nat.min_le_left _ _
      have htl := ht.len
      generalize d.dim 0 * d.dim 1 * d.dim 2 - 1073741824 = N at htl ⊢
      unfold memcpy
      rw [if_pos (by simp only [List.length_reverse, List.length_append, List.length_drop, alloc_length]; omega), if_neg (by omega), bind_error]
  rw [this, bind_error]

theorem uninit_err (L : Laws2 o At) (E : EofLaw o At) (junk : Nat → UInt8) (norm : Nat → List UInt8 → Nat → UInt8) (cur : Loaded) {note tail : List UInt8} {n : Num} {b type : Nat} {others : List (List UInt8)}
    (hnote : note.length = 50) (hn : n.Is (8 * b)) (ht : intType b = some type) (ho : ∀ c ∈ others, Other c) {bs : List UInt8}
    (hbs : bs = first note ++ n.bytes "BITPIX" ++ others.flatten ++ last ++ tail) (h0 : tail ≠ []) {fuel : Nat} (hf : bs.length < fuel) {s : σ} (hA : At s bs 0) :
    iLoadFitsInternal o junk norm fuel cur s = .error .uninit := by
  obtain ⟨-, b0, b8⟩ := bpc_int ht
  have hr : Runs Head.init ([first note, n.bytes "BITPIX"] ++ others) ⟨true, (8 * b : Nat), none, none, none, none⟩ :=
    Runs.append (h1 := ⟨true, (8 * b : Nat), none, none, none, none⟩) ⟨first_length hnote, _, card_first _ _, num_length hn rfl, _, card_bitpix rfl hn (by omega) (by omega), rfl⟩ (runs_others ho _)
  have hlen := runs_length hr
  have htl : 0 < tail.length := List.length_pos_iff.mpr h0
  have hll : ([first note, n.bytes "BITPIX"] ++ others).length = others.length + 2 := by simp
  have e : bs = ([first note, n.bytes "BITPIX"] ++ others).flatten ++ last ++ tail := by rw [hbs]; simp [List.append_assoc]
  have hbl : bs.length = ([first note, n.bytes "BITPIX"] ++ others).flatten.length + 80 + tail.length := by rw [e, List.length_append, List.length_append, last_length]
  unfold iLoadFitsInternal
  have : getHead o fuel s = .error .uninit := by
    unfold getHead
    refine bind_err (cards_ok L E _ fuel ⟨Head.init, s, true, true⟩ 0 _ rfl hr hA (next_drop (r := tail) (by rw [List.drop_zero]; exact e)) (by omega)) (fun t hT => ?_)
    obtain ⟨t1, t2, t3⟩ := hT
    rw [Nat.zero_add] at t3
    rw [if_neg (by rw [t2]; decide)]
    obtain ⟨e1, e2⟩ := E t3 (by omega) (by omega)
    simp only
    rw [if_neg (by rw [e1]; simp; omega)]
    refine bind_err (L.seekCur _ e2) (fun r hr => ?_)
    rw [t1]
    simp only
    rw [typeOf_int ht]
    rfl
  rw [this, bind_error]

end DevIL.Fits
