import Verif.Model.Pnm
import Verif.Spec.Pnm
import Verif.Lemmas.Load
/-! Lemmas about the Netpbm loader and saver. -/
set_option autoImplicit false
namespace DevIL.Pnm
open DevIL.Lump DevIL.PnmSpec DevIL.Image DevIL.Utility

theorem isalnum_of_digit {d : UInt8} (h : 48 ≤ d ∧ d ≤ 57) : isalnum d = true := by
  unfold isalnum
  simp [h.1, h.2]

/-- A byte that ends a word. -/
def Ends (c : UInt8) : Prop := c = 10 ∨ c = 35 ∨ c = 32

theorem inner_spec {ws : List UInt8} : ∀ {fuel : Nat} {word : List UInt8} {n : Nat} {l : R} {c : UInt8} {rest : List UInt8},
    At l (ws ++ c :: rest) → (∀ d ∈ ws, isalnum d = true) → Ends c → n + ws.length ≤ 180 → word.length = 180 → ws.length < fuel →
    inner fuel word n l = .ok ⟨splice word n ws, n + ws.length, some c, adv l (ws.length + 1), false⟩ := by
  induction ws with
  | nil =>
    intro fuel word n l c rest hat _ he _ _ hf
    obtain ⟨f, rfl⟩ : ∃ f, fuel = f + 1 := ⟨fuel - 1, by omega⟩
    unfold inner
    rw [hat.getc, bind_ok]
    dsimp only
    rw [if_pos (by rcases he with rfl | rfl | rfl <;> simp)]
    simp
  | cons d ws ih =>
    intro fuel word n l c rest hat hd he hn hw hf
    simp only [List.length_cons] at hn hf
    obtain ⟨f, rfl⟩ : ∃ f, fuel = f + 1 := ⟨fuel - 1, by omega⟩
    have hda := hd d (by simp)
    unfold inner
    rw [hat.getc, bind_ok]
    dsimp only
    have h10 : d ≠ 10 := by rintro rfl; exact absurd hda (by decide)
    have h35 : d ≠ 35 := by rintro rfl; exact absurd hda (by decide)
    have h32 : d ≠ 32 := by rintro rfl; exact absurd hda (by decide)
    rw [if_neg (by simp [h10, h35, h32]), if_neg (show ¬ n ≥ 180 by omega), if_neg (by simp [hda])]
    rw [show (some d).getD 0 = d from rfl, wr_splice (by omega), bind_ok,
      ih (At.adv_cons hat) (fun x hx => hd x (by simp [hx])) he (by omega) (by rw [splice_length (by simp; omega)]; exact hw) (by omega)]
    have e : splice (splice word n [d]) (n + 1) ws = splice word n (d :: ws) := splice_splice (o := [d]) (by omega)
    rw [e, adv_adv]
    simp only [List.length_cons]
    congr 2
    · omega
    · congr 1; omega

theorem readUntil_spec {p : Option UInt8 → Bool} {ws : List UInt8} : ∀ {fuel : Nat} {l : R} {c : UInt8} {rest : List UInt8},
    At l (ws ++ c :: rest) → (∀ d ∈ ws, p (some d) = false) → p (some c) = true → ws.length < fuel →
    readUntil p fuel l = .ok (some c, adv l (ws.length + 1)) := by
  induction ws with
  | nil =>
    intro fuel l c rest hat _ hp hf
    obtain ⟨f, rfl⟩ : ∃ f, fuel = f + 1 := ⟨fuel - 1, by omega⟩
    unfold readUntil
    rw [hat.getc, bind_ok]
    dsimp only
    rw [if_pos hp]
    rfl
  | cons d ws ih =>
    intro fuel l c rest hat hd hp hf
    simp only [List.length_cons] at hf
    obtain ⟨f, rfl⟩ : ∃ f, fuel = f + 1 := ⟨fuel - 1, by omega⟩
    unfold readUntil
    rw [hat.getc, bind_ok]
    dsimp only
    rw [if_neg (by simp [hd d]), ih (At.adv_cons hat) (fun x hx => hd x (by simp [hx])) hp (by omega), adv_adv]
    simp only [List.length_cons]
    congr 3
    omega

theorem seek_back {l : R} (h : Good (adv l 1)) : seek (adv l 1) (-1) SEEK_CUR = .ok (true, l) := by
  have hp := h.pos
  have hlt := h.lt
  simp only [adv_pos, adv_size] at hp hlt
  have e : ofInt (((adv l 1).pos : Int) + -1) = l.pos := by
    simp only [adv_pos]
    unfold ofInt
    omega
  unfold seek seekTo
  rw [if_neg (by decide), if_pos rfl, e, if_neg (by simp only [adv_size]; omega)]
  rfl

/-- Spaces at the front of a gap are skipped by the code together with what stands before them. -/
def dropSpaces (g : List Item) : List Item := g.dropWhile (· = .space)

theorem gap_cons (i : Item) (g : List Item) : gap (i :: g) = i.bytes ++ gap g := rfl

/-- The spaces a gap starts with, and the rest of it. -/
theorem gap_split (g : List Item) : ∃ n, gap g = List.replicate n 32 ++ gap (dropSpaces g) := by
  induction g with
  | nil => exact ⟨0, rfl⟩
  | cons i g ih =>
    unfold dropSpaces
    by_cases h : i = .space
    · subst h
      obtain ⟨n, e⟩ := ih
      refine ⟨n + 1, ?_⟩
      rw [gap_cons, e, List.dropWhile_cons_of_pos (by simp)]
      rw [List.replicate_succ]
      rfl
    · refine ⟨0, ?_⟩
      rw [List.dropWhile_cons_of_neg (by simpa using h)]
      rfl

/-- What remains after the spaces, followed by something that is no space, does not start with a space. -/
theorem dropSpaces_head {g : List Item} {b : UInt8} {rest : List UInt8} (hb : b ≠ 32) :
    ∃ c r, gap (dropSpaces g) ++ b :: rest = c :: r ∧ c ≠ 32 := by
  have key : ∀ g : List Item, (∀ i, g.head? = some i → i ≠ .space) → ∃ c r, gap g ++ b :: rest = c :: r ∧ c ≠ 32 := by
    intro g hg
    cases g with
    | nil => exact ⟨b, rest, rfl, hb⟩
    | cons i g =>
      have := hg i rfl
      cases i with
      | space => exact absurd rfl this
      | newline => exact ⟨10, _, rfl, by decide⟩
      | comment t => exact ⟨35, _, rfl, by decide⟩
  refine key _ (fun i hi => ?_)
  rintro rfl
  unfold dropSpaces at hi
  have := List.head?_dropWhile_not (p := fun i => decide (i = Item.space)) g
  rw [hi] at this
  simp at this

/-- After a terminator: the rest of the comment, if it is one, and spaces. -/
theorem after_spec {fuel : Nat} {l : R} {i : Item} {g : List Item} {b : UInt8} {rest : List UInt8}
    (hat : At l (gap (i :: g) ++ b :: rest)) (hi : i.Ok) (hb : b ≠ 32) (hf : (gap (i :: g)).length + 1 < fuel) :
    ∃ (c : UInt8) (t l2 : List UInt8) (l' : R), Ends c ∧ gap (i :: g) ++ b :: rest = c :: t ∧ At l' (gap (dropSpaces g) ++ b :: rest) ∧
      (do
        let l ← skipComment fuel (some c) (adv l 1)
        let (c, l) ← readUntil (fun c => decide (c ≠ some 32)) fuel l
        let (_, l) ← seek l (-1) SEEK_CUR
        pure (c, l) : C (Option UInt8 × R)) = .ok (l2.head?, l') ∧ l2 ≠ [] ∧ l'.size = l.size ∧ l.pos < l'.pos := by
  obtain ⟨n, hn⟩ := gap_split g
  obtain ⟨c2, r2, e2, hc2⟩ := dropSpaces_head (g := g) (rest := rest) hb
  -- the state after the terminator
  have main : ∀ (k : Nat) (c : UInt8), Ends c → At (adv l (k + 1)) (List.replicate n 32 ++ c2 :: r2) → n < fuel →
      skipComment fuel (some c) (adv l 1) = .ok (adv l (k + 1)) →
      (do
        let l ← skipComment fuel (some c) (adv l 1)
        let (c, l) ← readUntil (fun c => decide (c ≠ some 32)) fuel l
        let (_, l) ← seek l (-1) SEEK_CUR
        pure (c, l) : C (Option UInt8 × R)) = .ok ([c2].head?, adv l (k + 1 + n)) ∧ At (adv l (k + 1 + n)) (c2 :: r2) := by
    intro k c _ ha hnf hs
    have hat2 : At (adv (adv l (k + 1)) n) (c2 :: r2) := by
      have := At.adv ha
      rw [List.length_replicate] at this
      exact this
    rw [adv_adv] at hat2
    refine ⟨?_, hat2⟩
    rw [hs, bind_ok, readUntil_spec (ws := List.replicate n 32) ha (by
      intro d hd
      rw [List.mem_replicate] at hd
      rw [hd.2]; decide) (by simpa using hc2) (by rw [List.length_replicate]; exact hnf), bind_ok]
    dsimp only
    rw [List.length_replicate, adv_adv, ← Nat.add_assoc, ← adv_adv l (k + 1 + n) 1, seek_back (At.adv_cons hat2).good]
    rfl
  rw [gap_cons] at hf hat ⊢
  rw [hn, List.append_assoc, List.append_assoc, e2] at hat
  rw [hn] at hf
  simp only [List.length_append, List.length_replicate] at hf
  cases i with
  | space =>
    have h1 : At (adv l 1) (List.replicate n 32 ++ c2 :: r2) := At.adv_cons hat
    obtain ⟨e, hl⟩ := main 0 32 (by unfold Ends; decide) h1 (by omega) (by unfold skipComment; rw [if_neg (by decide)]; rfl)
    exact ⟨32, _, [c2], adv l (0 + 1 + n), by unfold Ends; decide, rfl, by rw [e2]; exact hl, e, by simp, rfl, by simp only [adv_pos]; omega⟩
  | newline =>
    have h1 : At (adv l 1) (List.replicate n 32 ++ c2 :: r2) := At.adv_cons hat
    obtain ⟨e, hl⟩ := main 0 10 (by unfold Ends; decide) h1 (by omega) (by unfold skipComment; rw [if_neg (by decide)]; rfl)
    exact ⟨10, _, [c2], adv l (0 + 1 + n), by unfold Ends; decide, rfl, by rw [e2]; exact hl, e, by simp, rfl, by simp only [adv_pos]; omega⟩
  | comment t =>
    have ht : ∀ d ∈ t, d ≠ 10 := fun d hd h => hi (h ▸ hd)
    have hat' : At l (35 :: (t ++ 10 :: (List.replicate n 32 ++ c2 :: r2))) := by
      simpa [Item.bytes] using hat
    have hc1 := At.adv_cons hat'
    have h1 : At (adv l (t.length + 1 + 1)) (List.replicate n 32 ++ c2 :: r2) := by
      have h := At.adv (bs := 35 :: (t ++ [10])) (rest := List.replicate n 32 ++ c2 :: r2) (l := l) (by simpa using hat')
      simpa using h
    have hlen : (Item.comment t).bytes.length = t.length + 2 := by simp [Item.bytes]
    obtain ⟨e, hl⟩ := main (t.length + 1) 35 (by unfold Ends; decide) h1 (by omega) (by
      unfold skipComment
      rw [if_pos rfl, readUntil_spec hc1 (by intro d hd; simpa using ht d hd) (by simp) (by omega), bind_ok]
      dsimp only
      rw [adv_adv]
      show Except.ok _ = _
      congr 2
      omega)
    exact ⟨35, _, [c2], adv l (t.length + 1 + 1 + n), by unfold Ends; decide, rfl, by rw [e2]; exact hl, e, by simp, rfl,
      by simp only [adv_pos]; omega⟩

/-- `SmallBuff` holds the word `ws`. -/
def HasWord (word ws : List UInt8) : Prop := word.length = 180 ∧ ∃ t, word = ws ++ 0 :: t

theorem hasWord_splice {word ws : List UInt8} (hw : word.length = 180) (hl : ws.length < 180) :
    HasWord (splice word 0 (ws ++ [0])) ws := by
  refine ⟨by rw [splice_length (by simp; omega), hw], word.drop (0 + (ws ++ [0]).length), ?_⟩
  unfold splice
  simp

/-- A word and what follows it. -/
theorem outer_word {fuel : Nat} {word ws : List UInt8} {l : R} {i : Item} {g : List Item} {b : UInt8} {rest : List UInt8}
    (hat : At l (ws ++ (gap (i :: g) ++ b :: rest))) (hne : ws ≠ []) (ha : ∀ d ∈ ws, isalnum d = true) (hl : ws.length < 180)
    (hw : word.length = 180) (hi : i.Ok) (hb : b ≠ 32) (hf : (ws ++ gap (i :: g)).length + 2 < fuel) :
    ∃ word' l', outer false fuel word 0 l = .ok (true, word', l') ∧ HasWord word' ws ∧ At l' (gap (dropSpaces g) ++ b :: rest) ∧
      l'.size = l.size := by
  obtain ⟨f, rfl⟩ : ∃ f, fuel = f + 1 := ⟨fuel - 1, by omega⟩
  rw [List.length_append] at hf
  have hat1 : At (adv l ws.length) (gap (i :: g) ++ b :: rest) := At.adv hat
  obtain ⟨c, t, l2, l', hc, et, hat2, e, hl2, hs, _⟩ := after_spec (fuel := f) hat1 hi hb (by omega)
  have hpos : 0 < ws.length := List.length_pos_iff.mpr hne
  refine ⟨_, l', ?_, hasWord_splice hw hl, hat2, hs⟩
  unfold outer
  rw [et] at hat
  rw [inner_spec hat ha hc (by omega) hw (by omega), bind_ok]
  dsimp only
  rw [if_neg (by simp), if_neg (by simp), Nat.zero_add, wr_splice (by rw [splice_length (by omega)]; omega), bind_ok]
  have es : splice (splice word 0 ws) ws.length [0] = splice word 0 (ws ++ [0]) := by
    have := splice_splice (d := word) (o := ws) (o' := [0]) (q := 0) (by omega)
    rw [Nat.zero_add] at this
    exact this
  rw [es, if_neg (by simp)]
  rw [adv_adv] at e
  simp only [if_pos hpos]
  obtain ⟨x, xs, rfl⟩ : ∃ x xs, l2 = x :: xs := by
    cases l2 with
    | nil => exact absurd rfl hl2
    | cons x xs => exact ⟨x, xs, rfl⟩
  revert e
  cases skipComment f (some c) (adv l (ws.length + 1)) with
  | error _ => intro e; exact nomatch e
  | ok l3 =>
    simp only [bind_ok]
    cases readUntil (fun c => decide (c ≠ some 32)) f l3 with
    | error _ => intro e; exact nomatch e
    | ok r =>
      obtain ⟨c3, l4⟩ := r
      simp only [bind_ok]
      cases seek l4 (-1) SEEK_CUR with
      | error _ => intro e; exact nomatch e
      | ok r =>
        obtain ⟨o, l5⟩ := r
        intro e
        simp only [bind_ok, pure_eq_ok, Except.ok.injEq, Prod.mk.injEq] at e
        rw [e.1, e.2]
        rfl

/-- A word behind a gap. -/
theorem outer_gap (k : Nat) : ∀ {gs : List Item} {fuel : Nat} {word ws : List UInt8} {l : R} {i : Item} {g : List Item} {b : UInt8} {rest : List UInt8},
    gs.length ≤ k → At l (gap gs ++ (ws ++ (gap (i :: g) ++ b :: rest))) → (∀ i ∈ gs, i.Ok) → ws ≠ [] → (∀ d ∈ ws, isalnum d = true) →
    ws.length < 180 → word.length = 180 → i.Ok → b ≠ 32 → (gap gs ++ (ws ++ gap (i :: g))).length + 2 < fuel →
    ∃ word' l', outer false fuel word 0 l = .ok (true, word', l') ∧ HasWord word' ws ∧ At l' (gap (dropSpaces g) ++ b :: rest) ∧
      l'.size = l.size := by
  induction k with
  | zero =>
    intro gs fuel word ws l i g b rest hk hat _ hne ha hl hw hi hb hf
    obtain rfl : gs = [] := List.length_eq_zero_iff.mp (by omega)
    exact outer_word hat hne ha hl hw hi hb hf
  | succ k ih =>
    intro gs fuel word ws l i g b rest hk hat hok hne ha hl hw hi hb hf
    cases gs with
    | nil => exact outer_word hat hne ha hl hw hi hb hf
    | cons j gs =>
      obtain ⟨f, rfl⟩ : ∃ f, fuel = f + 1 := ⟨fuel - 1, by omega⟩
      obtain ⟨x, xs, rfl⟩ : ∃ x xs, ws = x :: xs := by
        cases ws with
        | nil => exact absurd rfl hne
        | cons x xs => exact ⟨x, xs, rfl⟩
      have hx : x ≠ 32 := by
        rintro rfl
        exact absurd (ha 32 (by simp)) (by decide)
      rw [List.length_append] at hf
      obtain ⟨c, t, l2, l', hc, et, hat2, e, hl2, hs, _⟩ := after_spec (fuel := f) (l := l) (i := j) (g := gs) (b := x) hat (hok j (by simp)) hx (by omega)
      have hlen : (gap (dropSpaces gs)).length + 1 ≤ (gap (j :: gs)).length := by
        obtain ⟨n, hn⟩ := gap_split gs
        rw [gap_cons, hn]
        have : 0 < j.bytes.length := by cases j <;> simp [Item.bytes]
        simp only [List.length_append]
        omega
      have hdl : (dropSpaces gs).length ≤ gs.length := by
        unfold dropSpaces
        exact (List.dropWhile_sublist _).length_le
      obtain ⟨word', l'', e2, h1, h2, h3⟩ := ih (gs := dropSpaces gs) (fuel := f) (word := splice word 0 [0]) (ws := x :: xs) (l := l') (i := i) (g := g) (b := b)
        (rest := rest) (by simp only [List.length_cons] at hk; omega) hat2
        (fun y hy => hok y (by simp [((List.dropWhile_sublist _).subset hy : y ∈ gs)])) hne ha hl (by rw [splice_length (by simp; omega)]; exact hw)
        hi hb (by rw [List.length_append]; omega)
      refine ⟨word', l'', ?_, h1, h2, by rw [h3, hs]⟩
      unfold outer
      have hat0 : At l ([] ++ c :: t) := by
        rw [List.nil_append, ← et]
        exact hat
      rw [inner_spec hat0 (by simp) hc (by simp) hw (by simp only [List.length_nil]; omega), bind_ok]
      dsimp only
      rw [if_neg (by simp), if_neg (by simp), splice_nil, wr_splice (by simp; omega), bind_ok, if_neg (by simp)]
      simp only [List.length_nil, Nat.zero_add, if_neg (show ¬ (0 > 0) by decide)]
      revert e
      cases skipComment f (some c) (adv l 1) with
      | error _ => intro e; exact nomatch e
      | ok l3 =>
        simp only [bind_ok]
        cases readUntil (fun c => decide (c ≠ some 32)) f l3 with
        | error _ => intro e; exact nomatch e
        | ok r =>
          obtain ⟨c3, l4⟩ := r
          simp only [bind_ok]
          cases seek l4 (-1) SEEK_CUR with
          | error _ => intro e; exact nomatch e
          | ok r =>
            obtain ⟨o, l5⟩ := r
            intro e
            simp only [bind_ok, pure_eq_ok, Except.ok.injEq, Prod.mk.injEq] at e
            rw [e.2]
            exact e2

theorem not_eof {l : R} {b : UInt8} {rest : List UInt8} (h : At l (b :: rest)) : eof l = false := by
  have := h.len
  have h2 := h.1.ne
  simp only [List.length_cons] at this
  unfold eof
  rw [if_pos (by omega)]
  simp only [decide_eq_false_iff_not]
  omega

/-- Reading a word of the header. -/
theorem getWord {gs : List Item} {fuel : Nat} {word ws : List UInt8} {l : R} {i : Item} {g : List Item} {b : UInt8} {rest : List UInt8}
    (hat : At l (gap gs ++ (ws ++ (gap (i :: g) ++ b :: rest)))) (hok : ∀ i ∈ gs, i.Ok) (hne : ws ≠ []) (ha : ∀ d ∈ ws, isalnum d = true)
    (hl : ws.length < 180) (hw : word.length = 180) (hi : i.Ok) (hb : b ≠ 32) (hf : l.size + 2 < fuel) :
    ∃ word' l', iGetWord fuel false word l = .ok (true, word', l') ∧ HasWord word' ws ∧ At l' (gap (dropSpaces g) ++ b :: rest) ∧
      l'.size = l.size := by
  obtain ⟨word', l', e, h⟩ := outer_gap gs.length (Nat.le_refl _) (fuel := fuel) (word := word) hat hok hne ha hl hw hi hb (by
    have := hat.len
    simp only [List.length_append] at this ⊢
    omega)
  refine ⟨word', l', ?_, h⟩
  unfold iGetWord
  have : ∃ c t, gap gs ++ (ws ++ (gap (i :: g) ++ b :: rest)) = c :: t := by
    cases hx : gap gs ++ (ws ++ (gap (i :: g) ++ b :: rest)) with
    | nil => simp at hx
    | cons c t => exact ⟨c, t, rfl⟩
  obtain ⟨c, t, ec⟩ := this
  rw [ec] at hat
  rw [not_eof hat]
  exact e

/-- Reading the last word of the header. -/
theorem getLast {fuel : Nat} {word ws : List UInt8} {l : R} {c : UInt8} {rest : List UInt8}
    (hat : At l (ws ++ c :: rest)) (hne : ws ≠ []) (ha : ∀ d ∈ ws, isalnum d = true) (hl : ws.length < 180) (hw : word.length = 180)
    (hc : Ends c) (hf : l.size + 2 < fuel) :
    ∃ word' l', iGetWord fuel true word l = .ok (true, word', l') ∧ HasWord word' ws ∧ At l' rest ∧ l'.size = l.size := by
  obtain ⟨f, rfl⟩ : ∃ f, fuel = f + 1 := ⟨fuel - 1, by omega⟩
  have hlen := hat.len
  simp only [List.length_append, List.length_cons] at hlen
  have hpos : 0 < ws.length := List.length_pos_iff.mpr hne
  refine ⟨_, adv l (ws.length + 1), ?_, hasWord_splice hw hl, ?_, rfl⟩
  · unfold iGetWord
    have hx : ∃ x t, ws ++ c :: rest = x :: t := by
      cases hx : ws ++ c :: rest with
      | nil => simp at hx
      | cons c t => exact ⟨c, t, rfl⟩
    obtain ⟨x, t, ex⟩ := hx
    rw [not_eof (ex ▸ hat)]
    rw [if_neg (by simp)]
    unfold outer
    rw [inner_spec hat ha hc (by omega) hw (by omega), bind_ok]
    dsimp only
    rw [if_neg (by simp), if_neg (by simp), Nat.zero_add, wr_splice (by rw [splice_length (by omega)]; omega), bind_ok]
    have es : splice (splice word 0 ws) ws.length [0] = splice word 0 (ws ++ [0]) := by
      have := splice_splice (d := word) (o := ws) (o' := [0]) (q := 0) (by omega)
      rw [Nat.zero_add] at this
      exact this
    rw [es, if_pos rfl, pure_eq_ok]
    simp only [ne_eq, Except.ok.injEq, Prod.mk.injEq, decide_eq_true_eq, and_true]
    omega
  · have := At.adv (bs := ws ++ [c]) (rest := rest) (l := l) (by simpa using hat)
    simpa using this

/-! ### Numbers -/

theorem val_eq (ds : List UInt8) : ∀ a : Nat, ds.foldl (fun a d => a * 10 + (d.toNat - 48)) a = a * 10 ^ ds.length + number ds := by
  induction ds with
  | nil => intro a; simp [number]
  | cons d ds ih =>
    intro a
    rw [List.foldl_cons, ih]
    show _ = a * 10 ^ (ds.length + 1) + ((d.toNat - 48) * 10 ^ ds.length + number ds)
    rw [Nat.pow_succ]
    generalize number ds = n
    generalize 10 ^ ds.length = p
    generalize d.toNat - 48 = v
    grind

theorem atoi_word {word ds : List UInt8} (h : HasWord word ds) (hd : ∀ d ∈ ds, 48 ≤ d ∧ d ≤ 57) (hn : number ds < 2147483648) :
    atoi word = .ok (number ds) := by
  obtain ⟨_, t, rfl⟩ := h
  have e : (ds ++ 0 :: t).takeWhile isdigit = ds := by
    rw [List.takeWhile_append_of_pos (by intro d hx; unfold isdigit; simp [hd d hx])]
    simp [isdigit]
  unfold atoi
  simp only [e]
  rw [if_neg (by simp)]
  have hv : val ds = number ds := by
    have := val_eq ds 0
    rw [Nat.zero_mul, Nat.zero_add] at this
    exact this
  rw [hv, if_neg (by omega)]
  rfl

theorem number_head {w : List UInt8} (h : IsNumber w) : ∃ b t, w = b :: t ∧ b ≠ 32 := by
  cases w with
  | nil => exact absurd rfl h.1
  | cons b t =>
    refine ⟨b, t, rfl, ?_⟩
    rintro rfl
    exact absurd (h.2 32 (by simp)).1 (by decide)

theorem alnum_number {w : List UInt8} (h : IsNumber w) : ∀ d ∈ w, isalnum d = true := fun d hd => isalnum_of_digit (h.2 d hd)

/-- The header is read as it is meant. -/
theorem header_spec {fuel : Nat} {magic : UInt8} {g1 g2 g3 : List Item} {w h m rest word : List UInt8} {last : UInt8} {l : R}
    (hat : At l (header magic g1 w g2 h g3 m last ++ rest)) (hfit : Fits g1 w g2 h g3 m)
    (hm : magic = 50 ∨ magic = 51 ∨ magic = 53 ∨ magic = 54) (hlast : last = 10 ∨ last = 32)
    (h0 : 0 < number w ∧ 0 < number h ∧ 0 < number m)
    (hw : number w < 2147483648) (hh : number h < 2147483648) (hmx : number m < 2147483648) (hwl : word.length = 180) (hf : l.size + 2 < fuel) :
    ∃ word1 l1 word2 l2, iGetWord fuel false word l = .ok (true, word1, l1) ∧ typeOf word1 = magic.toNat - 48 ∧
      numbers fuel (magic.toNat - 48) word1 l1 =
        .ok (some ⟨magic.toNat - 48, number w, number h, number m, bppOf (magic.toNat - 48) (number m)⟩, word2, l2) ∧
      At l2 rest ∧ word2.length = 180 ∧ l2.size = l.size := by
  obtain ⟨i1, g1', rfl⟩ : ∃ i g, g1 = i :: g := by
    cases g1 with
    | nil => exact absurd rfl hfit.g1
    | cons i g => exact ⟨i, g, rfl⟩
  obtain ⟨i2, g2', rfl⟩ : ∃ i g, g2 = i :: g := by
    cases g2 with
    | nil => exact absurd rfl hfit.g2
    | cons i g => exact ⟨i, g, rfl⟩
  obtain ⟨i3, n3, rfl⟩ := hfit.g3
  obtain ⟨bw, tw, ew, hbw⟩ := number_head hfit.wn
  obtain ⟨bh, th, eh, hbh⟩ := number_head hfit.hn
  obtain ⟨bm, tm, em, hbm⟩ := number_head hfit.mn
  have hok := hfit.gaps
  -- the magic number
  have hat1 : At l (gap [] ++ ([80, magic] ++ (gap (i1 :: g1') ++ bw :: (tw ++ (gap (i2 :: g2') ++ (h ++ (gap (i3 :: List.replicate n3 .space) ++
      (m ++ last :: rest))))))) ) := by
    rw [show gap [] = [] from rfl, List.nil_append]
    have : header magic (i1 :: g1') w (i2 :: g2') h (i3 :: List.replicate n3 .space) m last ++ rest = [80, magic] ++ (gap (i1 :: g1') ++ bw ::
        (tw ++ (gap (i2 :: g2') ++ (h ++ (gap (i3 :: List.replicate n3 .space) ++ (m ++ last :: rest)))))) := by
      rw [ew]
      unfold header
      simp
    rw [this] at hat
    exact hat
  have hma : isalnum magic = true := by rcases hm with rfl | rfl | rfl | rfl <;> decide
  obtain ⟨word1, l1, e1, hw1, a1, s1⟩ := getWord hat1 (by simp) (by simp) (by
    intro d hd
    simp only [List.mem_cons, List.not_mem_nil, or_false] at hd
    rcases hd with rfl | rfl
    · decide
    · exact hma) (by simp) hwl (hok i1 (by simp)) hbw hf
  -- the width
  have hat2 : At l1 (gap (dropSpaces g1') ++ (w ++ (gap (i2 :: g2') ++ bh :: (th ++ (gap (i3 :: List.replicate n3 .space) ++
      (m ++ last :: rest)))))) := by
    rw [ew]
    rw [eh] at a1
    simpa using a1
  obtain ⟨word2, l2, e2, hw2, a2, s2⟩ := getWord (fuel := fuel) hat2 (fun i hi => hok i (by
    have : i ∈ g1' := (List.dropWhile_sublist _).subset hi
    simp [this])) hfit.wn.1 (alnum_number hfit.wn) hfit.wl hw1.1 (hok i2 (by simp)) hbh (by omega)
  -- the height
  have hat3 : At l2 (gap (dropSpaces g2') ++ (h ++ (gap (i3 :: List.replicate n3 .space) ++ bm :: (tm ++ last :: rest)))) := by
    rw [eh]
    rw [em] at a2
    simpa using a2
  obtain ⟨word3, l3, e3, hw3, a3, s3⟩ := getWord (fuel := fuel) hat3 (fun i hi => hok i (by
    have : i ∈ g2' := (List.dropWhile_sublist _).subset hi
    simp [this])) hfit.hn.1 (alnum_number hfit.hn) hfit.hl hw2.1 (hok i3 (by simp)) hbm (by omega)
  -- the largest value
  have hds : dropSpaces (List.replicate n3 Item.space) = [] := by
    unfold dropSpaces
    clear hat hfit hok hat1 a2 hat3 a3 a1 hat2
    induction n3 with
    | zero => rfl
    | succ n ih => rw [List.replicate_succ, List.dropWhile_cons_of_pos (by simp), ih]
  have hat4 : At l3 (m ++ last :: rest) := by
    rw [hds, show gap [] = [] from rfl, List.nil_append] at a3
    rw [em]
    simpa using a3
  obtain ⟨word4, l4, e4, hw4, a4, s4⟩ := getLast (fuel := fuel) hat4 hfit.mn.1 (alnum_number hfit.mn) hfit.ml hw3.1 (by
    unfold Ends
    rcases hlast with rfl | rfl <;> simp) (by omega)
  refine ⟨word1, l1, word4, l4, e1, ?_, ?_, a4, hw4.1, by omega⟩
  · obtain ⟨_, t, rfl⟩ := hw1
    rcases hm with rfl | rfl | rfl | rfl <;> rfl
  · have ht : ¬ (magic.toNat - 48 = 1 ∨ magic.toNat - 48 = 4) := by rcases hm with rfl | rfl | rfl | rfl <;> decide
    unfold numbers
    rw [e2, bind_ok]
    dsimp only
    rw [if_neg (by simp), atoi_word hw2 hfit.wn.2 hw, bind_ok, if_neg (by omega), e3, bind_ok]
    dsimp only
    rw [if_neg (by simp), atoi_word hw3 hfit.hn.2 hh, bind_ok, if_neg (by omega), if_neg ht, e4, bind_ok]
    dsimp only
    rw [if_neg (by simp), atoi_word hw4 hfit.mn.2 hmx, bind_ok, if_neg (by omega)]
    rfl

end DevIL.Pnm
