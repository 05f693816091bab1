import Verif.Lemmas.HdrRead
/-! The header of Radiance pictures. -/
set_option autoImplicit false
namespace DevIL.Hdr

open DevIL.Detect DevIL.DetectSpec DevIL.Image DevIL.Games
open DevIL.HdrSpec (Piece Line IsLine)
open DevIL.PnmSpec (IsNumber number)
open DevIL.Pnm (isdigit val)

variable {σ : Type} {o : Ops σ} {At : σ → List UInt8 → Nat → Prop}

/-! ### Looking for the empty line -/

/-- No empty line in `t`, read after the byte `a`; at its end, a line begins. -/
def Quiet : UInt8 → List UInt8 → Prop
  | a, [] => a = 10
  | a, b :: t => ¬(b = 10 ∧ a = 10) ∧ Quiet b t

theorem skip_spec (L : Laws o At) {bs : List UInt8} (t : List UInt8) : ∀ (a : UInt8) (s : σ) (p fuel : Nat), Quiet a t → At s bs p → Next bs p (t ++ [10]) → t.length < fuel →
    Holds (skip o fuel a s) (fun r => ∃ s', r = some s' ∧ At s' bs (p + t.length + 1)) := by
  induction t with
  | nil =>
    intro a s p fuel hq hat hn hf
    obtain ⟨fuel, rfl⟩ : ∃ f, fuel = f + 1 := ⟨fuel - 1, by omega⟩
    unfold skip
    refine (read1 L hat hn.head).bind (fun r hr => ?_)
    obtain ⟨g, n, s1⟩ := r
    obtain ⟨rfl, h1⟩ := hr
    have hq : a = 10 := hq
    simp only []
    rw [if_pos ⟨trivial, hq⟩]
    exact Holds.pure ⟨s1, rfl, h1⟩
  | cons b t ih =>
    intro a s p fuel hq hat hn hf
    rw [List.cons_append] at hn
    obtain ⟨fuel, rfl⟩ : ∃ f, fuel = f + 1 := ⟨fuel - 1, by omega⟩
    unfold skip
    refine (read1 L hat (Next.head (b := b) (g := t ++ [10]) hn)).bind (fun r hr => ?_)
    obtain ⟨g, n, s1⟩ := r
    obtain ⟨rfl, h1⟩ := hr
    simp only []
    rw [if_neg hq.1]
    refine (ih b s1 (p + 1) fuel hq.2 h1 (Next.tail (b := b) (g := t ++ [10]) hn) (by rw [List.length_cons] at hf; omega)).mono (fun r hr => ?_)
    obtain ⟨s', h2, h3⟩ := hr
    refine ⟨s', h2, ?_⟩
    rw [List.length_cons]
    have e : p + (t.length + 1) + 1 = p + 1 + t.length + 1 := by omega
    rw [e]; exact h3

theorem quiet_line (t : List UInt8) (ht : Quiet 10 t) (l : List UInt8) (hl : 10 ∉ l) : ∀ a, a ≠ 10 → Quiet a (l ++ 10 :: t) := by
  induction l with
  | nil => intro a ha; exact ⟨fun h => ha h.2, ht⟩
  | cons b l ih =>
    intro a ha
    have hb : b ≠ 10 := fun e => hl (by rw [e]; exact List.mem_cons_self)
    exact ⟨fun h => hb h.1, ih (fun h => hl (List.mem_cons_of_mem _ h)) b hb⟩

theorem quiet_lines (ls : List (List UInt8)) (h : ∀ l ∈ ls, IsLine l) : Quiet 10 (ls.flatMap (· ++ [10])) := by
  induction ls with
  | nil => rfl
  | cons l ls ih =>
    have hl := h l List.mem_cons_self
    rw [List.flatMap_cons, List.append_assoc]
    obtain ⟨h1, h2⟩ := hl
    match l, h1, h2 with
    | b :: l, _, h2 =>
      have hb : b ≠ 10 := fun e => h2 (by rw [e]; exact List.mem_cons_self)
      exact ⟨fun h => hb h.1, quiet_line _ (ih (fun l hl => h l (List.mem_cons_of_mem _ hl))) l (fun h => h2 (List.mem_cons_of_mem _ h)) b hb⟩

/-- The rest of a line, then lines: after its first byte, no empty line. -/
theorem quiet_rest (ls : List (List UInt8)) (h : ∀ l ∈ ls, IsLine l) (l : List UInt8) (hl : 10 ∉ l) :
    ∃ a t, l ++ 10 :: ls.flatMap (· ++ [10]) = a :: t ∧ Quiet a t := by
  match l, hl with
  | [], _ => exact ⟨10, _, rfl, quiet_lines ls h⟩
  | b :: l, hl =>
    have hb : b ≠ 10 := fun e => hl (by rw [e]; exact List.mem_cons_self)
    exact ⟨b, _, rfl, quiet_line _ (quiet_lines ls h) l (fun h => hl (List.mem_cons_of_mem _ h)) b hb⟩

/-! ### The line with the dimensions -/

theorem dimline_spec (L : Laws o At) {bs : List UInt8} (t : List UInt8) : ∀ (a : UInt8) (buff done : List UInt8) (s : σ) (p fuel : Nat), 10 ∉ a :: t → At s bs p → Next bs p (t ++ [10]) →
    buff.length = 81 → buff.take done.length = done → done.length + t.length < 80 → t.length + 1 < fuel →
    Holds (line o fuel buff done.length a s) (fun r => ∃ b' s', r = some (b', done.length + t.length + 1, s') ∧ b'.length = 81 ∧
      b'.take (done.length + t.length + 1) = done ++ a :: t ∧ At s' bs (p + t.length + 1)) := by
  induction t with
  | nil =>
    intro a buff done s p fuel hq hat hn hl hd hc hf
    obtain ⟨fuel, rfl⟩ : ∃ f, fuel = f + 1 := ⟨fuel - 1, by omega⟩
    obtain ⟨fuel, rfl⟩ : ∃ f, fuel = f + 1 := ⟨fuel - 1, by rw [List.length_nil] at hf; omega⟩
    have ha : a ≠ 10 := fun e => hq (by rw [e]; exact List.mem_cons_self)
    unfold line
    rw [if_neg ha, if_neg (by rw [List.length_nil] at hc; omega), wr_of_lt (by omega), bind_ok]
    refine (read1 L hat hn.head).bind (fun r hr => ?_)
    obtain ⟨g, n, s1⟩ := r
    obtain ⟨rfl, h1⟩ := hr
    simp only []
    unfold line
    rw [if_pos rfl]
    refine Holds.pure ⟨_, s1, rfl, by rw [List.length_set, hl], ?_, h1⟩
    rw [List.length_nil, Nat.add_zero, List.take_succ_eq_append_getElem (by rw [List.length_set]; omega), List.getElem_set_self, List.take_set_of_le (Nat.le_refl _), hd]
  | cons b t ih =>
    intro a buff done s p fuel hq hat hn hl hd hc hf
    rw [List.length_cons] at hc hf
    rw [List.cons_append] at hn
    obtain ⟨fuel, rfl⟩ : ∃ f, fuel = f + 1 := ⟨fuel - 1, by omega⟩
    have ha : a ≠ 10 := fun e => hq (by rw [e]; exact List.mem_cons_self)
    unfold line
    rw [if_neg ha, if_neg (by omega), wr_of_lt (by omega), bind_ok]
    refine (read1 L hat (Next.head (b := b) (g := t ++ [10]) hn)).bind (fun r hr => ?_)
    obtain ⟨g, n, s1⟩ := r
    obtain ⟨rfl, h1⟩ := hr
    simp only []
    have el : done.length + 1 = (done ++ [a]).length := by simp
    rw [el]
    refine (ih b (buff.set done.length a) (done ++ [a]) s1 (p + 1) fuel (fun h => hq (List.mem_cons_of_mem _ h)) h1 (Next.tail (b := b) (g := t ++ [10]) hn) (by rw [List.length_set, hl]) ?_
      (by rw [← el]; omega) (by omega)).mono (fun r hr => ?_)
    · rw [← el, List.take_succ_eq_append_getElem (by rw [List.length_set]; omega), List.getElem_set_self, List.take_set_of_le (Nat.le_refl _), hd]
    · obtain ⟨b', s', g1, g2, g3, g4⟩ := hr
      have e1 : (done ++ [a]).length + t.length + 1 = done.length + (t.length + 1) + 1 := by rw [← el]; omega
      have e2 : p + 1 + t.length + 1 = p + (t.length + 1) + 1 := by omega
      rw [e1] at g1 g3
      rw [e2] at g4
      refine ⟨b', s', g1, g2, ?_, g4⟩
      rw [List.length_cons, g3]
      simp

theorem val_number (ds : List UInt8) : val ds = number ds := by
  have := Pnm.val_eq ds 0
  rw [Nat.zero_mul, Nat.zero_add] at this
  exact this

theorem digits_spec {ds : List UInt8} (h : IsNumber ds) (hn : number ds < 2147483648) (c : UInt8) (hc : isdigit c = false) (t : List UInt8) :
    digits false (ds ++ c :: t) = .ok (some (number ds, c :: t)) := by
  have hd : ∀ d ∈ ds, isdigit d = true := fun d hd => by
    have := h.2 d hd
    unfold isdigit
    rw [decide_eq_true this.1, decide_eq_true this.2]; rfl
  have e1 : (ds ++ c :: t).takeWhile isdigit = ds := by
    rw [List.takeWhile_append_of_pos hd]
    simp [hc]
  have e2 : (ds ++ c :: t).dropWhile isdigit = c :: t := by
    rw [List.dropWhile_append_of_pos hd]
    simp [hc]
  unfold digits
  simp only [e1, e2]
  rw [if_neg h.1, val_number, if_neg (by omega)]
  rfl

theorem digits_end {ds : List UInt8} (h : IsNumber ds) (hn : number ds < 2147483648) :
    digits false ds = .ok (some (number ds, [])) := by
  have hd : ∀ d ∈ ds, isdigit d = true := fun d hd => by
    have := h.2 d hd
    unfold isdigit
    rw [decide_eq_true this.1, decide_eq_true this.2]; rfl
  have e1 : ds.takeWhile isdigit = ds := by
    have := List.takeWhile_append_of_pos (l₂ := []) hd
    rwa [List.append_nil, List.takeWhile_nil, List.append_nil] at this
  have e2 : ds.dropWhile isdigit = [] := by
    have := List.dropWhile_append_of_pos (l₂ := []) hd
    rwa [List.append_nil, List.dropWhile_nil] at this
  unfold digits
  simp only [e1, e2]
  rw [if_neg h.1, val_number, if_neg (by omega)]
  rfl

theorem scanD_space {ds : List UInt8} (h : IsNumber ds) (t : List UInt8) : scanD (32 :: (ds ++ t)) = digits false (ds ++ t) := by
  obtain ⟨h1, h2⟩ := h
  match ds, h1, h2 with
  | d :: ds, _, h2 =>
    obtain ⟨g1, g2⟩ := h2 d List.mem_cons_self
    have hd : space d = false ∧ d ≠ 45 ∧ d ≠ 43 := by
      have : ∀ n : Fin 256, 48 ≤ n.val → n.val ≤ 57 → space (UInt8.ofNat n.val) = false ∧ UInt8.ofNat n.val ≠ 45 ∧ UInt8.ofNat n.val ≠ 43 := by decide +kernel
      have := this ⟨d.toNat, d.toNat_lt⟩ (UInt8.le_iff_toNat_le.mp g1) (UInt8.le_iff_toNat_le.mp g2)
      simp only [UInt8.ofNat_toNat] at this
      exact this
    unfold scanD
    have e : (32 :: (d :: ds ++ t)).dropWhile space = d :: (ds ++ t) := by
      show (32 :: d :: (ds ++ t)).dropWhile space = _
      rw [List.dropWhile_cons_of_pos (by decide), List.dropWhile_cons_of_neg (by rw [hd.1]; decide)]
    rw [e]
    simp only []
    rw [if_neg hd.2.1, if_neg hd.2.2]
    rfl

/-- The dimensions are read from the line. -/
theorem dims_spec {h w : List UInt8} (hh : IsNumber h) (hw : IsNumber w) (nh : number h < 2147483648) (nw : number w < 2147483648) :
    dims ([45, 89, 32] ++ h ++ [32, 43, 88, 32] ++ w) = .ok (some (number h), some (number w)) := by
  have e : [45, 89, 32] ++ h ++ [32, 43, 88, 32] ++ w = 45 :: 89 :: 32 :: (h ++ 32 :: 43 :: 88 :: 32 :: (w ++ [])) := by simp
  rw [e]
  have w1 : ∀ t, word2 (45 :: 89 :: t) = some t := fun t => rfl
  have w2 : ∀ t, word2 (32 :: 43 :: 88 :: t) = some t := fun t => rfl
  unfold dims
  rw [w1]
  simp only []
  rw [scanD_space hh, digits_spec hh nh 32 rfl, bind_ok]
  simp only []
  rw [w2]
  simp only []
  rw [scanD_space hw, List.append_nil, digits_end hw nw, bind_ok]
  rfl

/-! ### The header -/

/-- What follows the first ten bytes of the header: `a :: t`, quiet; the line with the dimensions. -/
theorem head_read (L : Laws2 o At) (junk : Nat → UInt8) {bs : List UInt8} {s : σ} (hat : At s bs 0) (fuel : Nat) (hf : bs.length < fuel) (sig : List UInt8) (hsig : sig.length = 10)
    (a : UInt8) (t : List UInt8) (hq : Quiet a t) {h w : List UInt8} (hh : IsNumber h) (hw : IsNumber w) (nh : number h < 2147483648) (nw : number w < 2147483648)
    (hlen : h.length + w.length ≤ 73)
    (hn : Next bs 0 (sig ++ (a :: (t ++ 10 :: ([45, 89, 32] ++ h ++ [32, 43, 88, 32] ++ w ++ [10]))))) :
    Holds (iGetHdrHead o junk fuel s) (fun r => ∃ s', r = some (⟨sig, some (number w), some (number h)⟩, s') ∧ At s' bs (t.length + h.length + w.length + 20)) := by
  have hfit := hn.fit.resolve_right (by simp)
  have hd10 : 10 ∉ [45, 89, 32] ++ h ++ [32, 43, 88, 32] ++ w := by
    have nd : ∀ {l : List UInt8}, IsNumber l → 10 ∉ l := fun hl hm => absurd (hl.2 10 hm).1 (by decide)
    have := nd hh
    have := nd hw
    simp only [List.mem_append]
    rintro (((h | h) | h) | h)
    · revert h; decide
    · contradiction
    · revert h; decide
    · contradiction
  have hd0 : ∀ b ∈ [45, 89, 32] ++ h ++ [32, 43, 88, 32] ++ w, b ≠ 0 := by
    have nd : ∀ {l : List UInt8}, IsNumber l → ∀ b ∈ l, b ≠ 0 := fun hl b hm e => by
      subst e; exact absurd (hl.2 0 hm).1 (by decide)
    simp only [List.mem_append]
    rintro b (((h | h) | h) | h)
    · revert h b; decide
    · exact nd hh b h
    · revert h b; decide
    · exact nd hw b h
  generalize hD : [45, 89, 32] ++ h ++ [32, 43, 88, 32] ++ w = D at hn hfit hd10 hd0
  have hDl : D.length = h.length + w.length + 7 := by
    rw [← hD]; simp only [List.length_append, List.length_cons, List.length_nil]; omega
  obtain ⟨d, D', rfl⟩ : ∃ d D', D = d :: D' := by
    match D, hDl with
    | d :: D', _ => exact ⟨d, D', rfl⟩
  rw [List.length_cons] at hDl
  simp only [List.length_append, List.length_cons, List.length_nil, hsig, hDl] at hfit
  unfold iGetHdrHead
  refine (into_full L (alloc junk 10) 1 10 hat (by decide) (by decide) (by rw [alloc_length]) (by omega)).bind (fun r hr => ?_)
  obtain ⟨n, sg, s1⟩ := r
  obtain ⟨-, h2, h3⟩ := hr
  simp only [] at h2 h3 ⊢
  have hsg : sg = sig := by
    rw [h2]
    have := hn.left
    unfold Next at this
    rw [hsig] at this
    exact this
  subst hsg
  have n1 := hn.right
  rw [hsig, Nat.zero_add] at n1
  refine (read1 L.toLaws h3 n1.head).bind (fun r hr => ?_)
  obtain ⟨g, m, s2⟩ := r
  obtain ⟨rfl, h4⟩ := hr
  simp only [] at h4 ⊢
  have n2 : Next bs 11 ((t ++ [10]) ++ (d :: (D' ++ [10]))) := by
    have := n1.tail
    rw [List.append_assoc]
    exact this
  refine (skip_spec L.toLaws t a s2 11 fuel hq h4 n2.left (by omega)).bind (fun r hr => ?_)
  obtain ⟨s3, rfl, h5⟩ := hr
  have n3 := n2.right
  rw [List.length_append, List.length_singleton, ← Nat.add_assoc] at n3
  simp only []
  refine (read1 L.toLaws h5 n3.head).bind (fun r hr => ?_)
  obtain ⟨g, m, s4⟩ := r
  obtain ⟨rfl, h6⟩ := hr
  simp only [] at h6 ⊢
  refine (dimline_spec L.toLaws D' d (alloc junk 81) [] s4 _ fuel hd10 h6 n3.tail (alloc_length _ _) rfl (by simp only [List.length_nil]; omega) (by omega)).bind (fun r hr => ?_)
  obtain ⟨b', s5, rfl, h7, h8, h9⟩ := hr
  simp only [List.length_nil, Nat.zero_add, List.nil_append] at h8 h9 ⊢
  rw [wr_of_lt (by omega), bind_ok]
  have htw : (b'.set (D'.length + 1) 0).takeWhile (fun x => decide (x ≠ 0)) = d :: D' := by
    have e : b'.set (D'.length + 1) 0 = (d :: D') ++ 0 :: b'.drop (D'.length + 2) := by
      rw [List.set_eq_take_append_cons_drop, if_pos (by omega), h8]
    rw [e, List.takeWhile_append_of_pos (fun b hb => decide_eq_true (hd0 b hb))]
    simp
  rw [htw, ← hD, dims_spec hh hw nh nw, bind_ok]
  refine Holds.pure ⟨s5, rfl, ?_⟩
  have e : t.length + h.length + w.length + 20 = 11 + t.length + 1 + 1 + D'.length + 1 := by omega
  rw [e]; exact h9

end DevIL.Hdr
