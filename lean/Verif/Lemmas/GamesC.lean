import Verif.Lemmas.GamesB
/-! PIX and CUT. -/
set_option autoImplicit false
namespace DevIL.Games

open DevIL.Lump (SEEK_SET SEEK_CUR SEEK_END)
open DevIL.Detect DevIL.DetectSpec DevIL.GamesSpec DevIL.Image

variable {σ : Type} {o : Ops σ} {At : σ → List UInt8 → Nat → Prop}

/-! ### Bytes at a position -/

/-- These bytes come next. -/
def Next (bs : List UInt8) (p : Nat) (g : List UInt8) : Prop := at_ bs p g.length = g

theorem Next.fit {bs : List UInt8} {p : Nat} {g : List UInt8} (h : Next bs p g) : p + g.length ≤ bs.length ∨ g = [] := by
  have := congrArg List.length h
  rw [at_length] at this
  rcases g with _ | ⟨b, g⟩
  · exact Or.inr rfl
  · left; simp only [List.length_cons] at *; omega

theorem Next.left {bs : List UInt8} {p : Nat} {g k : List UInt8} (h : Next bs p (g ++ k)) : Next bs p g := by
  have := congrArg (List.take g.length) h
  rw [List.take_left'] at this
  · have e : at_ bs p g.length = List.take g.length (at_ bs p (g ++ k).length) := by
      unfold at_
      rw [List.take_take, Nat.min_eq_left (by simp)]
    exact e.trans this
  · rfl

theorem Next.right {bs : List UInt8} {p : Nat} {g k : List UInt8} (h : Next bs p (g ++ k)) : Next bs (p + g.length) k := by
  have := congrArg (List.drop g.length) h
  rw [List.drop_left'] at this
  · unfold Next
    rw [← this]
    unfold at_
    rw [List.drop_take, List.drop_drop, List.length_append, Nat.add_sub_cancel_left, List.length_take, List.length_drop]
    have hl := congrArg List.length h
    rw [at_length, List.length_append] at hl
    congr 1
    rw [Nat.min_eq_left (by omega)]
  · rfl

theorem Next.head {bs : List UInt8} {p : Nat} {b : UInt8} {g : List UInt8} (h : Next bs p (b :: g)) : bs[p]? = some b := by
  have := congrArg (fun l => l[0]?) h
  simpa [at_] using this

theorem Next.tail {bs : List UInt8} {p : Nat} {b : UInt8} {g : List UInt8} (h : Next bs p (b :: g)) : Next bs (p + 1) g :=
  Next.right (g := [b]) h

theorem next_drop {bs : List UInt8} {p : Nat} {g r : List UInt8} (h : bs.drop p = g ++ r) : Next bs p g := by
  unfold Next at_
  rw [h, List.take_left']
  rfl

/-! ### PIX -/

theorem pixPut_loop (a b c : UInt8) (n : Nat) : ∀ (i : Nat) (d : List UInt8), i + 3 * n ≤ d.length →
    loopN n (fun _ => pixPut a b c) (i, d) = .ok (i + 3 * n, d.take i ++ ((List.replicate n [a, b, c]).flatten ++ d.drop (i + 3 * n))) := by
  induction n with
  | zero => intro i d _; simp
  | succ n ih =>
    intro i d h
    rw [loopN_succ, ih i d (by omega), bind_ok]
    have hX : (d.take i ++ (List.replicate n [a, b, c]).flatten).length = i + 3 * n := by
      simp; omega
    have hD : d.drop (i + 3 * n) = d[i + 3 * n] :: d[i + 3 * n + 1] :: d[i + 3 * n + 2] :: d.drop (i + 3 * n + 3) := by
      rw [List.drop_eq_getElem_cons (by omega), List.drop_eq_getElem_cons (by omega), List.drop_eq_getElem_cons (by omega)]
    have hR : (List.replicate (n + 1) [a, b, c]).flatten = (List.replicate n [a, b, c]).flatten ++ [a, b, c] := by
      rw [List.replicate_succ', List.flatten_append]; simp
    rw [← List.append_assoc, hD]
    unfold pixPut
    rw [wr_of_lt (by simp; omega), bind_ok, wr_of_lt (by simp; omega), bind_ok, wr_of_lt (by simp; omega), bind_ok]
    have s0 : ∀ (X : List UInt8) (k : Nat) (v x : UInt8) (Y : List UInt8), X.length = k → (X ++ x :: Y).set k v = X ++ v :: Y := by
      intro X k v x Y h
      rw [List.set_append_right _ _ (by omega), h, Nat.sub_self, List.set_cons_zero]
    show Except.ok (_, _) = _
    congr 2
    simp only []
    rw [s0 _ _ _ _ _ hX]
    have a1 : ∀ (X : List UInt8) (x : UInt8) (Y : List UInt8), X ++ x :: Y = (X ++ [x]) ++ Y := fun X x Y => by simp
    rw [a1 _ a, s0 _ _ _ _ _ (by simp; omega), a1 _ b, s0 _ _ _ _ _ (by simp; omega), hR]
    simp [Nat.mul_add, Nat.add_assoc]

theorem runPixels_cons (r : Run) (rs : List Run) : runPixels (r :: rs) = (List.replicate r.n.toNat [r.a, r.b, r.c]).flatten ++ runPixels rs := rfl

theorem pix_loop (L : Laws2 o At) {bs : List UInt8} {size : Nat} (rs : List Run) : ∀ (s : PixS σ) (p fuel : Nat), At s.inp bs p → s.failed = false →
    s.data.length = size → s.i + (runPixels rs).length ≤ size → Next bs p (runBytes rs) →
    (s.i + (runPixels rs).length < size → bs.length < p + (runBytes rs).length + 4) → rs.length + 1 < fuel →
    Holds (whileF (fun s : PixS σ => !s.failed && decide (s.i < size)) (pixStep o) fuel s) (fun r => (∃ q, At r.inp bs q) ∧ r.data.length = size ∧
      (s.i + (runPixels rs).length < size → r.failed = true) ∧
      (s.i + (runPixels rs).length = size → r.failed = false ∧ r.data = s.data.take s.i ++ runPixels rs)) := by
  induction rs with
  | nil =>
    intro s p fuel hat hf hd hi hn hend hfuel
    simp only [runPixels, runBytes, List.flatMap_nil, List.length_nil, Nat.add_zero] at *
    cases fuel with
    | zero => omega
    | succ fuel =>
    unfold whileF
    by_cases hlt : s.i < size
    · have hend := hend hlt
      rw [if_pos (by simp [hf, hlt])]
      -- the step fails
      have step : Holds (pixStep o s) (fun r => (∃ q, At r.inp bs q) ∧ r.failed = true ∧ r.data = s.data) := by
        unfold pixStep
        have hread : ∀ (t : σ) (q : Nat), At t bs q → bs.length < q + 3 → Holds (o.read t 1 3) (fun r => r.2.1 ≠ 3 ∧ ∃ q, At r.2.2 bs q) := by
          intro t q hq hlt
          refine (read_any L.toLaws 3 hq (by decide)).mono (fun r hr => ⟨?_, _, hr.2.2⟩)
          rw [hr.2.1, at_length]; omega
        by_cases hp : p < bs.length
        · refine (L.getc hat).bind (fun r hr => ?_)
          obtain ⟨-, h2⟩ := hr.2 hp
          refine (hread _ _ h2 (by omega)).bind (fun r' hr' => ?_)
          show Holds (if r'.2.1 ≠ 3 then _ else _) _
          rw [if_pos hr'.1]
          exact Holds.pure ⟨hr'.2, rfl, rfl⟩
        · refine (L.getcEnd hat (by omega)).bind (fun r hr => ?_)
          obtain ⟨-, q, hq, h2⟩ := hr
          refine (hread _ _ h2 (by omega)).bind (fun r' hr' => ?_)
          show Holds (if r'.2.1 ≠ 3 then _ else _) _
          rw [if_pos hr'.1]
          exact Holds.pure ⟨hr'.2, rfl, rfl⟩
      refine step.bind (fun t ht => ?_)
      cases fuel with
      | zero => omega
      | succ fuel =>
        unfold whileF
        rw [if_neg (by simp [ht.2.1])]
        exact Holds.ok ⟨ht.1, by rw [ht.2.2, hd], fun _ => ht.2.1, fun h => by omega⟩
    · rw [if_neg (by simp [hlt])]
      refine Holds.ok ⟨⟨p, hat⟩, hd, fun h => by omega, fun h => ⟨hf, ?_⟩⟩
      rw [List.take_of_length_le (by omega), List.append_nil]
  | cons r rs ih =>
    intro s p fuel hat hf hd hi hn hend hfuel
    cases fuel with
    | zero => omega
    | succ fuel =>
    have hnb : Next bs p (r.n :: ([r.a, r.b, r.c] ++ runBytes rs)) := hn
    have hbl : (runBytes (r :: rs)).length = 4 + (runBytes rs).length := by
      show ([r.n, r.a, r.b, r.c] ++ runBytes rs).length = _
      simp; omega
    rw [hbl] at hend
    rw [runPixels_cons] at hi hend ⊢
    have hrl : ((List.replicate r.n.toNat [r.a, r.b, r.c]).flatten).length = 3 * r.n.toNat := by simp; omega
    rw [List.length_append, hrl] at hi hend ⊢
    unfold whileF
    by_cases hlt : s.i < size
    · rw [if_pos (by simp [hf, hlt])]
      have step : Holds (pixStep o s) (fun t => At t.inp bs (p + 4) ∧ t.failed = false ∧ t.i = s.i + 3 * r.n.toNat ∧
          t.data = s.data.take s.i ++ ((List.replicate r.n.toNat [r.a, r.b, r.c]).flatten ++ s.data.drop (s.i + 3 * r.n.toNat))) := by
        unfold pixStep
        refine (getc_full L.toLaws hat hnb.head).bind (fun u hu => ?_)
        obtain ⟨u1, u2⟩ := u
        obtain ⟨rfl, hu⟩ := hu
        have hn3 := hnb.tail.left
        have hfit3 : p + 1 + 3 ≤ bs.length := by
          rcases hn3.fit with h | h
          · exact h
          · cases h
        refine (read_full L.toLaws 1 3 hu (by decide) (by decide) (by omega)).bind (fun v hv => ?_)
        obtain ⟨hv1, hv2, hv3⟩ := hv
        have hv1 : v.1 = [r.a, r.b, r.c] := hv1.trans hn3
        show Holds (if v.2.1 ≠ 3 then _ else _) _
        rw [if_neg (by omega), hv1]
        show Holds (loopN r.n.toNat (fun _ => pixPut r.a r.b r.c) (s.i, s.data) >>= _) _
        rw [pixPut_loop _ _ _ _ _ _ (by omega), bind_ok]
        exact Holds.pure ⟨hv3, rfl, rfl, rfl⟩
      refine step.bind (fun t ht => ?_)
      obtain ⟨h1, h2, h3, h4⟩ := ht
      have hl4 : t.data.length = size := by
        rw [h4]; simp only [List.length_append, List.length_take, List.length_drop, hrl]; omega
      refine (ih t (p + 4) fuel h1 h2 hl4 (by omega) (Next.right (g := [r.n, r.a, r.b, r.c]) hn) (fun h => by have := hend (by omega); omega)
        (by simp only [List.length_cons] at hfuel; omega)).mono (fun v hv => ?_)
      obtain ⟨hv1, hv2, hv3, hv4⟩ := hv
      refine ⟨hv1, hv2, fun h => hv3 (by omega), fun h => ?_⟩
      obtain ⟨w1, w2⟩ := hv4 (by omega)
      refine ⟨w1, ?_⟩
      rw [w2, h3, h4, ← List.append_assoc, List.take_left' (by simp only [List.length_append, List.length_take, hrl]; omega), List.append_assoc]
    · rw [if_neg (by simp [hlt])]
      have hz : r.n.toNat = 0 := by omega
      have hz2 : runPixels rs = [] := List.eq_nil_of_length_eq_zero (by omega)
      refine Holds.ok ⟨⟨p, hat⟩, hd, fun h => by omega, fun h => ⟨hf, ?_⟩⟩
      rw [hz2, hz, List.take_of_length_le (by omega)]
      simp

theorem runBytes_length (rs : List Run) : (runBytes rs).length = 4 * rs.length := by
  induction rs with
  | nil => rfl
  | cons r rs ih =>
    show ([r.n, r.a, r.b, r.c] ++ runBytes rs).length = _
    rw [List.length_append, ih]
    simp; omega

theorem pix_spec (L : Laws2 o At) (junk : Nat → UInt8) (cur : Loaded) (fuel : Nat) {s : σ} {bs : List UInt8} (hs : At s bs 0)
    (hfuel : bs.length < fuel) (h10 : 10 ≤ bs.length) (hw : 0 < beAt bs 0 2) (hh : 0 < beAt bs 2 2) (h24 : beAt bs 8 2 = 24)
    (hfit : beAt bs 0 2 * beAt bs 2 2 * 3 < 2 ^ 32) (rs : List Run) (hn : Next bs 10 (runBytes rs))
    (hpx : (runPixels rs).length ≤ beAt bs 0 2 * beAt bs 2 2 * 3)
    (hend : (runPixels rs).length < beAt bs 0 2 * beAt bs 2 2 * 3 → bs.length < 10 + (runBytes rs).length + 4) :
    Holds (iLoadPixInternal o junk fuel cur s) (fun r => (r.1 = true ↔ (runPixels rs).length = beAt bs 0 2 * beAt bs 2 2 * 3) ∧
      r.2.1.1.data.length = r.2.1.1.size ∧
      (r.1 = true → r.2.1.2 = none ∧ Shows r.2.1.1 (beAt bs 0 2) (beAt bs 2 2) 3 IL_BGR
        (fun x y c => (runPixels rs)[(y * beAt bs 0 2 + x) * 3 + c]?)) ∧ ∃ q, At r.2.2 bs q) := by
  unfold iLoadPixInternal
  refine (head_spec L.toLaws junk bs [u16, u16, u16, u16, u16] _ 0 hs (by decide)).bind (fun r hr => ?_)
  obtain ⟨-, hpos, hf⟩ := hr
  obtain ⟨h, t⟩ := r
  have hat : At t bs 10 := hpos (by show 0 + 10 ≤ _; omega)
  have e0 : fbe h 0 = beAt bs 0 2 := by
    have := hf 0 u16 rfl (by show 0 + 0 + 2 ≤ _; omega)
    show be (fld h 0) = _
    rw [this]; rfl
  have e1 : fbe h 1 = beAt bs 2 2 := by
    have := hf 1 u16 rfl (by show 0 + 2 + 2 ≤ _; omega)
    show be (fld h 1) = _
    rw [this]; rfl
  have e4 : fbe h 4 = 24 := by
    have := hf 4 u16 rfl (by show 0 + 8 + 2 ≤ _; omega)
    show be (fld h 4) = _
    rw [this]; exact h24
  simp only [e0, e1, e4]
  generalize beAt bs 0 2 = w at *
  generalize beAt bs 2 2 = h' at *
  rw [if_neg (by omega), if_neg (by simp)]
  obtain ⟨h1, h2, h3, h4, h5, h6, h7, h8, h9⟩ := tex_fields junk w h' 3 IL_BGR hw hh (by decide) hfit
  have hbl := runBytes_length rs
  have hnf : 10 + (runBytes rs).length ≤ bs.length := by
    rcases hn.fit with h | h
    · exact h
    · rw [h]; simpa using h10
  have hloop := pix_loop L (size := (tex junk w h' 3 IL_BGR).size) rs ⟨0, (tex junk w h' 3 IL_BGR).data, t, false⟩ 10 fuel hat rfl (tex_len _ _ _ _ _)
    (by rw [h9]; simpa using hpx) hn (by rw [h9]; intro h; exact hend (by simpa using h)) (by omega)
  refine hloop.bind (fun r hr => ?_)
  obtain ⟨hr1, hr2, hr3, hr4⟩ := hr
  simp only [Nat.zero_add, h9] at hr3 hr4
  by_cases hfull : (runPixels rs).length = w * h' * 3
  · obtain ⟨w1, w2⟩ := hr4 hfull
    simp only [w1]
    refine Holds.pure ⟨⟨fun _ => hfull, fun _ => rfl⟩, hr2, fun _ => ⟨rfl, ?_⟩, hr1⟩
    refine shows_tex junk w h' 3 IL_BGR hw hh (by decide) hfit r.data (by rw [hr2, h9]) _ (fun x y c hx hy hcc => ?_)
    rw [w2]
    simp
  · have hfail := hr3 (by omega)
    simp only [hfail]
    exact Holds.pure ⟨⟨fun h => (by simp at h), fun h => absurd h hfull⟩, hr2, fun h => (by simp at h), hr1⟩

end DevIL.Games
