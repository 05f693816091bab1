import Verif.Lemmas.Pnm
/-! Lemmas about the text form of Netpbm files. -/
set_option autoImplicit false
namespace DevIL.Pnm
open DevIL.Lump DevIL.PnmSpec DevIL.Image DevIL.Utility

/-! ### Printing -/

theorem ofNat_digit {n : Nat} (h : n < 10) : 48 ≤ UInt8.ofNat (48 + n) ∧ UInt8.ofNat (48 + n) ≤ 57 ∧ (UInt8.ofNat (48 + n)).toNat - 48 = n := by
  have e : (UInt8.ofNat (48 + n)).toNat = 48 + n := by simp; omega
  refine ⟨?_, ?_, by omega⟩
  · rw [UInt8.le_iff_toNat_le, e]; simp
  · rw [UInt8.le_iff_toNat_le, e]
    show 48 + n ≤ 57
    omega

theorem number_append (a : List UInt8) (d : UInt8) : number (a ++ [d]) = number a * 10 + (d.toNat - 48) := by
  induction a with
  | nil => simp [number]
  | cons x a ih =>
    show (x.toNat - 48) * 10 ^ (a ++ [d]).length + number (a ++ [d]) = ((x.toNat - 48) * 10 ^ a.length + number a) * 10 + (d.toNat - 48)
    rw [ih, List.length_append, List.length_singleton, Nat.pow_succ]
    generalize number a = n
    generalize 10 ^ a.length = p
    generalize x.toNat - 48 = v
    generalize d.toNat - 48 = u
    grind

theorem dec_spec (k : Nat) : ∀ n, n < 10 ^ (k + 1) → IsNumber (dec (k + 1) n) ∧ number (dec (k + 1) n) = n ∧ (dec (k + 1) n).length ≤ k + 1 := by
  induction k with
  | zero =>
    intro n hn
    have h := ofNat_digit (n := n) (by omega)
    unfold dec
    rw [if_pos (by omega)]
    refine ⟨⟨by simp, fun d hd => by rw [List.mem_singleton] at hd; subst hd; exact ⟨h.1, h.2.1⟩⟩, ?_, by simp⟩
    simp [number]
    omega
  | succ k ih =>
    intro n hn
    unfold dec
    by_cases h10 : n < 10
    · have h := ofNat_digit (n := n) h10
      rw [if_pos h10]
      refine ⟨⟨by simp, fun d hd => by rw [List.mem_singleton] at hd; subst hd; exact ⟨h.1, h.2.1⟩⟩, ?_, by simp⟩
      simp [number]
      omega
    · have h := ofNat_digit (n := n % 10) (by omega)
      rw [if_neg h10]
      rw [Nat.pow_succ] at hn
      obtain ⟨i1, i2, i3⟩ := ih (n / 10) (by omega)
      refine ⟨⟨by simp, ?_⟩, ?_, by simp only [List.length_append, List.length_singleton]; omega⟩
      · intro d hd
        rw [List.mem_append] at hd
        rcases hd with hd | hd
        · exact i1.2 d hd
        · simp only [List.mem_cons, List.not_mem_nil, or_false] at hd
          subst hd
          exact ⟨h.1, h.2.1⟩
      · rw [number_append, i2, h.2.2]
        omega

theorem printD_spec {n : Nat} (h : n < 2147483648) : IsNumber (printD n) ∧ number (printD n) = n ∧ (printD n).length ≤ 10 := by
  unfold printD
  rw [if_pos h]
  exact dec_spec 9 n (by omega)

theorem printD_byte (b : UInt8) : (printD b.toNat).length ≤ 3 := by
  have h := b.toNat_lt
  unfold printD
  rw [if_pos (by omega)]
  unfold dec
  split
  · simp
  · unfold dec
    split
    · simp
    · unfold dec
      rw [if_pos (by omega)]
      simp

/-- The text of some values. -/
def text (vs : List UInt8) : List UInt8 := vs.flatMap fun v => printD v.toNat ++ [32]

theorem text_cons (v : UInt8) (vs : List UInt8) : text (v :: vs) = printD v.toNat ++ 32 :: text vs := by
  simp [text]

theorem text_append (a b : List UInt8) : text (a ++ b) = text a ++ text b := by simp [text]

theorem text_length_ge (vs : List UInt8) : vs.length ≤ (text vs).length := by
  induction vs with
  | nil => simp
  | cons v vs ih => rw [text_cons]; simp only [List.length_append, List.length_cons]; omega

theorem text_mem {vs : List UInt8} {c : UInt8} (h : c ∈ text vs) : c = 32 ∨ (48 ≤ c ∧ c ≤ 57) := by
  unfold text at h
  rw [List.mem_flatMap] at h
  obtain ⟨v, _, h⟩ := h
  rw [List.mem_append] at h
  rcases h with h | h
  · have := v.toNat_lt
    exact Or.inr ((printD_spec (by omega)).1.2 c h)
  · simp only [List.mem_cons, List.not_mem_nil, or_false] at h
    exact Or.inl h

/-! ### A line -/

theorem rd_drop {line : List UInt8} {i : Nat} {c : UInt8} {r : List UInt8} (h : line.drop i = c :: r) : rd line i = .ok c := by
  apply rd_of_some
  have := congrArg (fun l : List UInt8 => l[0]?) h
  simpa using this

theorem drop_add {line ds r : List UInt8} {i : Nat} (h : line.drop i = ds ++ r) : line.drop (i + ds.length) = r := by
  rw [← List.drop_drop, h]
  simp

theorem skipWhile_spec {p : UInt8 → Bool} {line r : List UInt8} {c : UInt8} (hp : p c = false) {s : List UInt8} : ∀ {fuel i : Nat},
    line.drop i = s ++ c :: r → (∀ b ∈ s, p b = true) → s.length < fuel → skipWhile p line fuel i = .ok (i + s.length) := by
  induction s with
  | nil =>
    intro fuel i h _ hf
    simp only [List.length_nil] at hf
    obtain ⟨f, rfl⟩ : ∃ f, fuel = f + 1 := ⟨fuel - 1, by omega⟩
    unfold skipWhile
    rw [rd_drop h, bind_ok, if_neg (by simp [hp])]
    rfl
  | cons b s ih =>
    intro fuel i h hs hf
    simp only [List.length_cons] at hf
    obtain ⟨f, rfl⟩ : ∃ f, fuel = f + 1 := ⟨fuel - 1, by omega⟩
    unfold skipWhile
    rw [rd_drop h, bind_ok, if_pos (hs b (by simp)), ih (fuel := f) (i := i + 1) (drop_add (ds := [b]) h) (fun x hx => hs x (by simp [hx])) (by omega)]
    simp only [List.length_cons]
    congr 1
    omega

theorem copyWord_spec {ds : List UInt8} : ∀ {line word r : List UInt8} {c : UInt8} {fuel n i : Nat}, line.drop i = ds ++ c :: r →
    (∀ d ∈ ds, isalnum d = true) → isalnum c = false → ds.length < fuel → n + ds.length < word.length →
    copyWord line fuel word n i = .ok (splice word n (ds ++ [0]), i + ds.length) := by
  induction ds with
  | nil =>
    intro line word r c fuel n i h _ hc hf hn
    simp only [List.length_nil] at hf hn
    obtain ⟨f, rfl⟩ : ∃ f, fuel = f + 1 := ⟨fuel - 1, by omega⟩
    unfold copyWord
    rw [rd_drop h, bind_ok, if_neg (by simp [hc]), wr_splice (by omega)]
    rfl
  | cons d ds ih =>
    intro line word r c fuel n i h ha hc hf hn
    simp only [List.length_cons] at hf hn
    obtain ⟨f, rfl⟩ : ∃ f, fuel = f + 1 := ⟨fuel - 1, by omega⟩
    unfold copyWord
    rw [rd_drop h, bind_ok, if_pos (ha d (by simp)), wr_splice (by omega), bind_ok,
      ih (fuel := f) (n := n + 1) (i := i + 1) (word := splice word n [d]) (drop_add (ds := [d]) h) (fun x hx => ha x (by simp [hx])) hc (by omega)
        (by rw [splice_length (by simp; omega)]; omega)]
    have e : splice (splice word n [d]) (n + 1) (ds ++ [0]) = splice word n (d :: ds ++ [0]) := splice_splice (o := [d]) (by omega)
    rw [e]
    simp only [List.length_cons]
    congr 2
    omega

theorem blank_not_alnum {c : UInt8} (h : Blank c) : isalnum c = false ∧ c ≠ 0 ∧ c ≠ 10 ∧ c ≠ 35 := by
  rcases h with rfl | rfl | rfl | rfl | rfl <;> decide

theorem row_head {vs bs : List UInt8} (h : Row vs bs) : (vs = [] ∧ bs = []) ∨ ∃ b t, bs = b :: t ∧ isalnum b = true := by
  cases h with
  | nil => exact Or.inl ⟨rfl, rfl⟩
  | last d v hd hn =>
    obtain ⟨b, t, e, _⟩ := number_head hd
    exact Or.inr ⟨b, t, e, alnum_number hd b (by rw [e]; simp)⟩
  | cons d s v vs bs hd hn hs hb hr =>
    obtain ⟨b, t, e, _⟩ := number_head hd
    exact Or.inr ⟨b, t ++ s ++ bs, by rw [e]; simp, alnum_number hd b (by rw [e]; simp)⟩

theorem row_length {vs bs : List UInt8} (h : Row vs bs) : vs.length ≤ bs.length := by
  induction h with
  | nil => simp
  | last d v hd hn =>
    obtain ⟨b, t, e, _⟩ := number_head hd
    rw [e]; simp
  | cons d s v vs bs hd hn hs hb hr ih =>
    obtain ⟨b, t, e, _⟩ := number_head hd
    rw [e]; simp only [List.length_append, List.length_cons]; omega

theorem row_mem {vs bs : List UInt8} (h : Row vs bs) : ∀ c ∈ bs, c ≠ 0 ∧ c ≠ 10 ∧ c ≠ 35 := by
  have hdig : ∀ d : List UInt8, IsNumber d → ∀ c ∈ d, c ≠ 0 ∧ c ≠ 10 ∧ c ≠ 35 := by
    intro d hd c hc
    have := (hd.2 c hc).1
    refine ⟨?_, ?_, ?_⟩ <;> (rintro rfl; exact absurd this (by decide))
  induction h with
  | nil => simp
  | last d v hd hn => exact hdig d hd
  | cons d s v vs bs hd hn hs hb hr ih =>
    intro c hc
    rw [List.mem_append, List.mem_append] at hc
    rcases hc with (hc | hc) | hc
    · exact hdig d hd c hc
    · exact (blank_not_alnum (hb c hc)).2
    · exact ih c hc

/-- One step of the loop: blanks, a number, blanks. -/
theorem lineStep {line word data lead d s r : List UInt8} {v c : UInt8} {i k fuel : Nat} (hlen : line.length = 180)
    (h : line.drop i = lead ++ (d ++ (s ++ c :: r))) (hlead : ∀ b ∈ lead, Blank b) (hd : IsNumber d) (hn : number d = v.toNat)
    (hs : ∀ b ∈ s, Blank b) (hsc : ∀ b t, s ++ c :: r = b :: t → isalnum b = false) (hc : (!isalnum c && decide (c ≠ 0)) = false)
    (hw : word.length = 180) (hk : k < data.length) :
    ∃ word', lineLoop line false (fuel + 1) ⟨word, data, i, k⟩ =
        lineLoop line false fuel ⟨word', splice data k [v], i + lead.length + d.length + s.length, k + 1⟩ ∧ word'.length = 180 := by
  have hv := v.toNat_lt
  obtain ⟨b, t, eb, _⟩ := number_head hd
  have hba := isalnum_of_digit (hd.2 b (by rw [eb]; simp))
  have hl : lead.length + (d.length + (s.length + (r.length + 1))) ≤ 180 := by
    have := congrArg List.length h
    simp only [List.length_drop, List.length_append, List.length_cons] at this
    omega
  have h2 : line.drop (i + lead.length) = d ++ (s ++ c :: r) := drop_add h
  have h3 : line.drop (i + lead.length + d.length) = s ++ c :: r := drop_add h2
  have hw1 : HasWord (splice word 0 (d ++ [0])) d := hasWord_splice hw (by omega)
  -- the first byte
  obtain ⟨b0, r0, e0, hb0⟩ : ∃ b0 r0, line.drop i = b0 :: r0 ∧ ¬ (b0 = 0 ∨ b0 = 10) := by
    cases hle : lead with
    | nil =>
      refine ⟨b, t ++ (s ++ c :: r), by rw [h, hle, eb]; rfl, ?_⟩
      rintro (rfl | rfl) <;> exact absurd hba (by decide)
    | cons x xs =>
      have := blank_not_alnum (hlead x (by rw [hle]; simp))
      exact ⟨x, xs ++ (d ++ (s ++ c :: r)), by rw [h, hle]; rfl, by rintro (h | h) <;> simp_all⟩
  obtain ⟨x, xs, ex⟩ : ∃ x xs, s ++ c :: r = x :: xs := by
    cases s with
    | nil => exact ⟨c, r, rfl⟩
    | cons x xs => exact ⟨x, _, rfl⟩
  refine ⟨splice word 0 (d ++ [0]), ?_, hw1.1⟩
  conv_lhs => unfold lineLoop
  dsimp only
  rw [rd_drop e0, bind_ok, if_neg hb0, skipWhile_spec (c := b) (r := t ++ (s ++ c :: r)) (s := lead) (by simp [hba])
      (by rw [h, eb]; rfl) (fun y hy => by simp [(blank_not_alnum (hlead y hy)).1]) (by omega), bind_ok,
    copyWord_spec (c := x) (r := xs) (by rw [h2, ex]) (alnum_number hd) (hsc x xs ex) (by omega) (by omega), bind_ok]
  dsimp only
  rw [atoi_word hw1 hd.2 (by omega), bind_ok, hn]
  have ev : UInt8.ofNat v.toNat = v := by simp
  rw [ev, wr_splice hk, bind_ok, skipWhile_spec hc h3 (fun y hy => by
    have := blank_not_alnum (hs y hy)
    simp [this.1, this.2.1]) (by omega), bind_ok]
  rfl

/-- The loop over a line of numbers. -/
theorem lineLoop_row {vs bs : List UInt8} (hr : Row vs bs) : ∀ {line word data tl lead : List UInt8} {i k fuel : Nat}, line.length = 180 →
    line.drop i = lead ++ (bs ++ 0 :: tl) → (∀ b ∈ lead, Blank b) → (lead ≠ [] → vs ≠ []) →
    word.length = 180 → k + vs.length ≤ data.length → vs.length < fuel →
    ∃ word' i', lineLoop line false fuel ⟨word, data, i, k⟩ = .ok ⟨word', splice data k vs, i', k + vs.length⟩ ∧ word'.length = 180 := by
  have hend : ∀ {line word data tl : List UInt8} {i k fuel : Nat}, line.drop i = 0 :: tl → word.length = 180 → 0 < fuel →
      lineLoop line false fuel ⟨word, data, i, k⟩ = .ok ⟨word, data, i, k⟩ := by
    intro line word data tl i k fuel h hw hf
    obtain ⟨f, rfl⟩ : ∃ f, fuel = f + 1 := ⟨fuel - 1, by omega⟩
    unfold lineLoop
    dsimp only
    rw [rd_drop h, bind_ok, if_pos (by simp)]
    rfl
  induction hr with
  | nil =>
    intro line word data tl lead i k fuel hlen h hlead hne hw _ hf
    have : lead = [] := by
      cases lead with
      | nil => rfl
      | cons a t => exact absurd rfl (hne (by simp))
    subst this
    exact ⟨word, i, by rw [hend (tl := tl) (by simpa using h) hw (by omega)]; simp, hw⟩
  | last d v hd hn =>
    intro line word data tl lead i k fuel hlen h hlead hne hw hk hf
    simp only [List.length_cons, List.length_nil] at hk hf
    obtain ⟨f, rfl⟩ : ∃ f, fuel = f + 1 := ⟨fuel - 1, by omega⟩
    obtain ⟨word', e, hw'⟩ := lineStep (v := v) (word := word) (data := data) (s := []) (k := k) (fuel := f) hlen h hlead hd hn (by simp)
      (by intro b t ht; simp only [List.nil_append, List.cons.injEq] at ht; rw [← ht.1]; decide) (by decide) hw (by omega)
    refine ⟨word', i + lead.length + d.length + ([] : List UInt8).length, ?_, hw'⟩
    rw [e, hend (tl := tl) (by rw [List.length_nil, Nat.add_zero]; exact drop_add (drop_add h)) hw' (by omega)]
    rfl
  | cons d s v vs bs hd hn hs hb hr ih =>
    intro line word data tl lead i k fuel hlen h hlead hne hw hk hf
    simp only [List.length_cons] at hk hf
    obtain ⟨f, rfl⟩ : ∃ f, fuel = f + 1 := ⟨fuel - 1, by omega⟩
    obtain ⟨c, r, ec, hc⟩ : ∃ c r, bs ++ 0 :: tl = c :: r ∧ (!isalnum c && decide (c ≠ 0)) = false := by
      rcases row_head hr with ⟨_, e⟩ | ⟨b, t, e, hb⟩
      · exact ⟨0, tl, by rw [e]; rfl, by decide⟩
      · exact ⟨b, t ++ 0 :: tl, by rw [e]; rfl, by simp [hb]⟩
    have h1 : line.drop i = lead ++ (d ++ (s ++ c :: r)) := by rw [h, ← ec]; simp
    obtain ⟨word', e, hw'⟩ := lineStep (v := v) (word := word) (data := data) (s := s) (k := k) (fuel := f) hlen h1 hlead hd hn hb
      (by
        intro b t ht
        cases s with
        | nil => exact absurd rfl hs
        | cons x xs =>
          simp only [List.cons_append, List.cons.injEq] at ht
          rw [← ht.1]
          exact (blank_not_alnum (hb x (by simp))).1) hc hw (by omega)
    have h4 : line.drop (i + lead.length + d.length + s.length) = bs ++ 0 :: tl := by rw [ec]; exact drop_add (drop_add (drop_add h1))
    obtain ⟨word2, i2, e2, hw2⟩ := ih (word := word') (data := splice data k [v]) (lead := []) (i := i + lead.length + d.length + s.length) (k := k + 1)
      (fuel := f) hlen h4 (by simp) (by simp) hw' (by rw [splice_length (by simp; omega)]; omega) (by omega)
    refine ⟨word2, i2, ?_, hw2⟩
    rw [e, e2, show splice (splice data k [v]) (k + 1) vs = splice data k (v :: vs) from splice_splice (o := [v]) (by omega)]
    simp only [List.length_cons]
    congr 2
    omega

/-! ### Lines of the input -/

theorem iFgets_line {ws : List UInt8} : ∀ {buf rest : List UInt8} {fuel n : Nat} {l : R}, At l (ws ++ 10 :: rest) → (∀ c ∈ ws, c ≠ 0 ∧ c ≠ 10) →
    n + ws.length < 180 → buf.length = 180 → ws.length < fuel →
    iFgets 180 fuel buf n l = .ok (true, splice buf n (ws ++ [0]), adv l (ws.length + 1)) := by
  induction ws with
  | nil =>
    intro buf rest fuel n l hat _ hn hb hf
    simp only [List.length_nil] at hf hn
    obtain ⟨f, rfl⟩ : ∃ f, fuel = f + 1 := ⟨fuel - 1, by omega⟩
    unfold iFgets
    rw [At.getc hat, bind_ok]
    dsimp only
    rw [if_pos (by simp), wr_splice (by omega), bind_ok]
    rfl
  | cons d ws ih =>
    intro buf rest fuel n l hat hc hn hb hf
    simp only [List.length_cons] at hf hn
    obtain ⟨f, rfl⟩ : ∃ f, fuel = f + 1 := ⟨fuel - 1, by omega⟩
    have hd := hc d (by simp)
    unfold iFgets
    rw [At.getc hat, bind_ok]
    dsimp only
    rw [if_neg (by simp [hd.1, hd.2]; omega), show (some d).getD 0 = d from rfl, wr_splice (by omega), bind_ok,
      ih (At.adv_cons hat) (fun x hx => hc x (by simp [hx])) (by omega) (by rw [splice_length (by simp; omega)]; omega) (by omega)]
    rw [show splice (splice buf n [d]) (n + 1) (ws ++ [0]) = splice buf n (d :: ws ++ [0]) from splice_splice (o := [d]) (by omega), adv_adv]
    simp only [List.length_cons]
    congr 4
    omega

theorem iFgets_end {ws : List UInt8} : ∀ {buf : List UInt8} {fuel n : Nat} {l : R}, At l ws → (∀ c ∈ ws, c ≠ 0 ∧ c ≠ 10) →
    n + ws.length < 180 → buf.length = 180 → ws.length < fuel → 0 < n + ws.length →
    ∃ l', iFgets 180 fuel buf n l = .ok (true, splice buf n (ws ++ [0]), l') := by
  induction ws with
  | nil =>
    intro buf fuel n l hat _ hn hb hf h0
    simp only [List.length_nil] at hf hn h0
    obtain ⟨f, rfl⟩ : ∃ f, fuel = f + 1 := ⟨fuel - 1, by omega⟩
    have hlen := hat.len
    have hp := hat.good.pos
    simp only [List.length_nil] at hlen
    refine ⟨{ l with pos := l.size - 1 }, ?_⟩
    unfold iFgets
    rw [getc_end hat.good (by omega), bind_ok]
    dsimp only
    rw [if_pos (by simp), wr_splice (by omega), bind_ok]
    have : decide (True ∧ n = 0) = false := by simp; omega
    simp only [this]
    rfl
  | cons d ws ih =>
    intro buf fuel n l hat hc hn hb hf h0
    simp only [List.length_cons] at hf hn
    obtain ⟨f, rfl⟩ : ∃ f, fuel = f + 1 := ⟨fuel - 1, by omega⟩
    have hd := hc d (by simp)
    obtain ⟨l', e⟩ := ih (buf := splice buf n [d]) (fuel := f) (n := n + 1) (l := adv l 1) (At.adv_cons hat) (fun x hx => hc x (by simp [hx])) (by omega)
      (by rw [splice_length (by simp; omega)]; omega) (by omega) (by omega)
    refine ⟨l', ?_⟩
    unfold iFgets
    rw [At.getc hat, bind_ok]
    dsimp only
    rw [if_neg (by simp [hd.1, hd.2]; omega), show (some d).getD 0 = d from rfl, wr_splice (by omega), bind_ok, e]
    rw [show splice (splice buf n [d]) (n + 1) (ws ++ [0]) = splice buf n (d :: ws ++ [0]) from splice_splice (o := [d]) (by omega)]

theorem line_mem {vs bs : List UInt8} (h : Line vs bs) : ∀ c ∈ bs, c ≠ 0 ∧ c ≠ 10 := by
  intro c hc
  rcases h.2 with ⟨_, t, rfl, h0, h1⟩ | ⟨lead, row, rfl, hl, _, hr⟩
  · rw [List.mem_cons] at hc
    rcases hc with rfl | hc
    · decide
    · exact ⟨fun h => h0 (h ▸ hc), fun h => h1 (h ▸ hc)⟩
  · rw [List.mem_append] at hc
    rcases hc with hc | hc
    · have := blank_not_alnum (hl c hc)
      exact ⟨this.2.1, this.2.2.1⟩
    · have := row_mem hr c hc
      exact ⟨this.1, this.2.1⟩

theorem rd_head {ws buf : List UInt8} (hw : ws.length < buf.length) : (splice buf 0 (ws ++ [0])).drop 0 = ws ++ 0 :: buf.drop (ws.length + 1) := by
  unfold splice
  simp

/-- What the loop over the lines does with one. -/
theorem oneLine {vs bs buf word data : List UInt8} {k i fuel : Nat} {size : Int} {l : R} (h : Line vs bs) (hb : buf.length = 180) (hw : word.length = 180)
    (hd : k + vs.length ≤ data.length) :
    ∃ word' i', word'.length = 180 ∧ (do
        let c ← rd (splice buf 0 (bs ++ [0])) 0
        if c = 35 then lines false size fuel (splice buf 0 (bs ++ [0])) ⟨word, data, i, k⟩ l
        else do
          let s ← lineLoop (splice buf 0 (bs ++ [0])) false 182 ⟨word, data, 0, k⟩
          lines false size fuel (splice buf 0 (bs ++ [0])) s l) =
      lines false size fuel (splice buf 0 (bs ++ [0])) ⟨word', splice data k vs, i', k + vs.length⟩ l := by
  have hl := h.1
  have h0 := rd_head (ws := bs) (buf := buf) (by omega)
  rcases h.2 with ⟨rfl, t, rfl, _⟩ | ⟨lead, row, rfl, hle, hne, hr⟩
  · refine ⟨word, i, hw, ?_⟩
    rw [rd_drop (c := 35) h0, bind_ok, if_pos rfl]
    simp
  · have hrl := row_length hr
    rw [List.length_append] at hl
    obtain ⟨word', i', e, hw'⟩ := lineLoop_row hr (line := splice buf 0 (lead ++ row ++ [0])) (word := word) (data := data) (i := 0) (k := k)
      (fuel := 182) (tl := buf.drop ((lead ++ row).length + 1)) (lead := lead)
      (by rw [splice_length (by simp only [List.length_append, List.length_cons, List.length_nil]; omega)]; exact hb)
      (by rw [h0]; simp) hle hne hw hd (by omega)
    obtain ⟨c, r, ec, hc⟩ : ∃ c r, (splice buf 0 (lead ++ row ++ [0])).drop 0 = c :: r ∧ c ≠ 35 := by
      rw [h0]
      cases hx : lead ++ row with
      | nil => exact ⟨0, _, rfl, by decide⟩
      | cons c r =>
        refine ⟨c, _, rfl, ?_⟩
        have hm : c ∈ lead ++ row := by rw [hx]; simp
        rw [List.mem_append] at hm
        rcases hm with hm | hm
        · exact (blank_not_alnum (hle c hm)).2.2.2
        · exact (row_mem hr c hm).2.2
    refine ⟨word', i', hw', ?_⟩
    rw [rd_drop ec, bind_ok, if_neg hc, e, bind_ok]

/-- The lines of a text file. -/
theorem lines_spec {lv lb rest : List UInt8} (hlast : Line lv lb) (hlv : lv ≠ []) (hrest : rest = [] ∨ ∃ r, rest = 10 :: r)
    {fs : List (List UInt8 × List UInt8)} : ∀ {fuel k i : Nat} {buf word data : List UInt8} {l : R},
    At l (fs.flatMap (fun f => f.2 ++ [10]) ++ lb ++ rest) → (∀ f ∈ fs, Line f.1 f.2) → buf.length = 180 → word.length = 180 →
    k + (fs.flatMap (·.1) ++ lv).length = data.length → (fs.flatMap (fun (f : List UInt8 × List UInt8) => f.2 ++ [10]) ++ lb).length + 2 < fuel →
    ∃ l', lines false (data.length : Nat) fuel buf ⟨word, data, i, k⟩ l = .ok (true, splice data k (fs.flatMap (·.1) ++ lv), l') := by
  have hpos : 0 < lv.length := List.length_pos_iff.2 hlv
  induction fs with
  | nil =>
    intro fuel k i buf word data l hat _ hb hw hd hf
    simp only [List.flatMap_nil, List.nil_append] at hat hd hf ⊢
    obtain ⟨f, rfl⟩ : ∃ f, fuel = f + 1 := ⟨fuel - 1, by omega⟩
    have hlb := hlast.1
    have hlb0 : 0 < lb.length := by
      rcases hlast.2 with ⟨h, _⟩ | ⟨lead, row, rfl, _, _, hr⟩
      · exact absurd h hlv
      · have := row_length hr
        rw [List.length_append]; omega
    obtain ⟨l', e1⟩ : ∃ l', iFgets 180 f buf 0 l = .ok (true, splice buf 0 (lb ++ [0]), l') := by
      rcases hrest with rfl | ⟨r, rfl⟩
      · exact iFgets_end (by simpa using hat) (line_mem hlast) (by omega) hb (by omega) (by omega)
      · exact ⟨_, iFgets_line hat (line_mem hlast) (by omega) hb (by omega)⟩
    obtain ⟨word', i', _, e2⟩ := oneLine (k := k) (i := i) (fuel := f) (size := (data.length : Nat)) (l := l') hlast hb hw (data := data) (by omega)
    refine ⟨l', ?_⟩
    unfold lines
    rw [if_neg (by dsimp only; omega), e1, bind_ok]
    dsimp only
    rw [if_neg (by simp), e2]
    obtain ⟨g, rfl⟩ : ∃ g, f = g + 1 := ⟨f - 1, by omega⟩
    unfold lines
    rw [if_pos (by dsimp only; omega)]
    rfl
  | cons x fs ih =>
    intro fuel k i buf word data l hat hx hb hw hd hf
    obtain ⟨f, rfl⟩ : ∃ f, fuel = f + 1 := ⟨fuel - 1, by omega⟩
    have hxl := hx x (by simp)
    have hxb := hxl.1
    have hat1 : At l (x.2 ++ 10 :: (fs.flatMap (fun f => f.2 ++ [10]) ++ lb ++ rest)) := by simpa using hat
    simp only [List.flatMap_cons, List.append_assoc, List.length_append, List.length_cons, List.length_nil] at hd hf
    have e1 := iFgets_line (buf := buf) (fuel := f) (n := 0) hat1 (line_mem hxl) (by omega) hb (by omega)
    obtain ⟨word', i', hw', e2⟩ := oneLine (k := k) (i := i) (fuel := f) (size := (data.length : Nat)) (l := adv l (x.2.length + 1)) hxl hb hw
      (data := data) (by omega)
    have hat2 : At (adv l (x.2.length + 1)) (fs.flatMap (fun f => f.2 ++ [10]) ++ lb ++ rest) := by
      have := At.adv (bs := x.2 ++ [10]) (rest := fs.flatMap (fun (f : List UInt8 × List UInt8) => f.2 ++ [10]) ++ lb ++ rest) (by simpa using hat)
      simpa using this
    obtain ⟨l', e4⟩ := ih (fuel := f) (k := k + x.1.length) (i := i') (buf := splice buf 0 (x.2 ++ [0])) (word := word') (data := splice data k x.1) hat2
      (fun g hg => hx g (by simp [hg])) (by rw [splice_length (by simp; omega)]; exact hb) hw'
      (by rw [splice_length (by omega), List.length_append]; omega) (by rw [List.length_append]; omega)
    rw [splice_length (by omega), splice_splice (by omega)] at e4
    refine ⟨l', ?_⟩
    unfold lines
    rw [if_neg (by dsimp only; omega), e1, bind_ok]
    dsimp only
    rw [if_neg (by simp), e2, e4]
    simp

/-- The text of values, as the saver writes it, is a row. -/
theorem row_text (vs : List UInt8) : Row vs (text vs) := by
  induction vs with
  | nil => exact .nil
  | cons v vs ih =>
    have := v.toNat_lt
    obtain ⟨h1, h2, _⟩ := printD_spec (n := v.toNat) (by omega)
    have := Row.cons (printD v.toNat) [32] v vs (text vs) h1 h2 (by simp) (by intro c hc; rw [List.mem_singleton] at hc; exact Or.inl hc) ih
    rw [text_cons]
    simpa using this

theorem line_text {vs : List UInt8} (h : (text vs).length < 180) : Line vs (text vs) :=
  ⟨h, Or.inr ⟨[], text vs, rfl, by simp, by simp, row_text vs⟩⟩

end DevIL.Pnm
