import Verif.Lemmas.GamesC
/-! CUT. -/
set_option autoImplicit false
namespace DevIL.Games

open DevIL.Lump (SEEK_SET SEEK_CUR SEEK_END)
open DevIL.Detect DevIL.DetectSpec DevIL.GamesSpec DevIL.Image

variable {σ : Type} {o : Ops σ} {At : σ → List UInt8 → Nat → Prop}

/-- What the loop meets: pieces, and ends of rows with the length of the next row. -/
inductive Tok where
  | piece (p : Piece)
  | eol (a b : UInt8)

def Tok.bytes : Tok → List UInt8
  | .piece p => p.bytes
  | .eol a b => [0, a, b]

def Tok.pixels : Tok → List UInt8
  | .piece p => p.pixels
  | .eol _ _ => []

def Tok.Ok : Tok → Prop
  | .piece p => p.Ok
  | .eol _ _ => True

theorem getb_full (L : Laws o At) {s : σ} {bs : List UInt8} {p : Nat} (h : At s bs p) {b : UInt8} (hb : bs[p]? = some b) :
    Holds (getb o s) (fun r => r.1 = b ∧ At r.2 bs (p + 1)) := by
  refine (getc_full L h hb).bind (fun r hr => ?_)
  obtain ⟨c, t⟩ := r
  obtain ⟨rfl, h2⟩ := hr
  exact Holds.pure ⟨rfl, h2⟩

theorem run_loop (v : UInt8) (i n : Nat) (d : List UInt8) (h : i + n ≤ d.length) :
    loopN n (fun j d => wr d (i + j) v) d = .ok (d.take i ++ (List.replicate n v ++ d.drop (i + n))) := by
  induction n with
  | zero => simp
  | succ n ih =>
    rw [loopN_succ, ih (by omega), bind_ok]
    have hX : (d.take i ++ List.replicate n v).length = i + n := by simp; omega
    rw [← List.append_assoc, List.drop_eq_getElem_cons (by omega), wr_of_lt (by simp; omega)]
    congr 1
    rw [List.set_append_right _ _ (by omega), hX, Nat.sub_self, List.set_cons_zero, List.replicate_succ']
    simp [Nat.add_assoc]

theorem lit_loop (L : Laws o At) {bs : List UInt8} (px : List UInt8) : ∀ (s : CutS σ) (p : Nat), At s.inp bs p → Next bs p px → s.i + px.length ≤ s.data.length →
    Holds (loopN px.length (fun _ s => do
      let (b, t) ← getb o s.inp
      let d ← wr s.data s.i b
      pure ⟨s.i + 1, d, t⟩) s) (fun t => At t.inp bs (p + px.length) ∧ t.i = s.i + px.length ∧
        t.data = s.data.take s.i ++ (px ++ s.data.drop (s.i + px.length))) := by
  intro s p hat hn hi
  have key := Holds.loop (n := px.length) (s := s) (f := fun _ s => do
      let (b, t) ← getb o s.inp
      let d ← wr s.data s.i b
      pure ⟨s.i + 1, d, t⟩) (fun k (t : CutS σ) => At t.inp bs (p + k) ∧ t.i = s.i + k ∧ t.data = s.data.take s.i ++ (px.take k ++ s.data.drop (s.i + k)))
    ⟨hat, rfl, by simp⟩ (fun k t hk ht => ?_)
  · refine key.mono (fun t ht => ⟨ht.1, ht.2.1, ?_⟩)
    have := ht.2.2
    rwa [List.take_length] at this
  · obtain ⟨h1, h2, h3⟩ := ht
    have hb : bs[p + k]? = some px[k] := by
      have e : px = px.take k ++ (px[k] :: px.drop (k + 1)) := by
        rw [← List.drop_eq_getElem_cons hk, List.take_append_drop]
      rw [e] at hn
      have := hn.right.head
      rw [List.length_take, Nat.min_eq_left (by omega)] at this
      exact this
    refine (getb_full L h1 hb).bind (fun r hr => ?_)
    obtain ⟨c, u⟩ := r
    obtain ⟨rfl, hu⟩ := hr
    have hlt : t.i < t.data.length := by rw [h2, h3]; simp; omega
    show Holds (wr t.data t.i px[k] >>= _) _
    rw [wr_of_lt hlt, bind_ok]
    refine Holds.pure ⟨hu, by show t.i + 1 = _; omega, ?_⟩
    show t.data.set t.i _ = _
    have hX : (s.data.take s.i ++ px.take k).length = s.i + k := by simp; omega
    rw [h3, h2, ← List.append_assoc, List.drop_eq_getElem_cons (i := s.i + k) (by omega), List.set_append_right _ _ (by omega), hX, Nat.sub_self,
      List.set_cons_zero, List.take_succ_eq_append_getElem hk]
    simp only [List.append_assoc, List.cons_append, List.nil_append, Nat.add_assoc]

theorem byte_run (n : Nat) (h : n < 128) : (UInt8.ofNat (n + 128) = 0 ↔ False) ∧ (UInt8.ofNat (n + 128) &&& 128 ≠ 0) ∧ (UInt8.ofNat (n + 128) &&& 127).toNat = n := by
  have : ∀ k : Fin 128, (UInt8.ofNat (k.val + 128) = 0 ↔ False) ∧ (UInt8.ofNat (k.val + 128) &&& 128 ≠ 0) ∧ (UInt8.ofNat (k.val + 128) &&& 127).toNat = k.val := by decide
  exact this ⟨n, h⟩

theorem byte_lit (n : Nat) (h0 : 0 < n) (h : n < 128) : UInt8.ofNat n ≠ 0 ∧ (UInt8.ofNat n &&& 128 = 0) ∧ (UInt8.ofNat n).toNat = n := by
  have : ∀ k : Fin 128, 0 < k.val → UInt8.ofNat k.val ≠ 0 ∧ (UInt8.ofNat k.val &&& 128 = 0) ∧ (UInt8.ofNat k.val).toNat = k.val := by decide
  exact this ⟨n, h⟩ h0

theorem cut_step (L : Laws2 o At) {bs : List UInt8} (k : Tok) (hk : k.Ok) (s : CutS σ) (p : Nat) (hat : At s.inp bs p) (hn : Next bs p k.bytes)
    (hi : s.i + k.pixels.length ≤ s.data.length) :
    Holds (cutStep o s) (fun t => At t.inp bs (p + k.bytes.length) ∧ t.i = s.i + k.pixels.length ∧
      t.data = s.data.take s.i ++ (k.pixels ++ s.data.drop (s.i + k.pixels.length))) := by
  unfold cutStep
  match k, hk with
  | .eol a b, _ =>
    have hn : Next bs p [0, a, b] := hn
    refine (getb_full L.toLaws hat hn.head).bind (fun r hr => ?_)
    obtain ⟨c, t⟩ := r
    obtain ⟨rfl, h1⟩ := hr
    refine (getb_full L.toLaws h1 hn.tail.head).bind (fun r hr => ?_)
    refine (getb_full L.toLaws hr.2 hn.tail.tail.head).bind (fun r hr => ?_)
    refine Holds.pure ⟨hr.2, rfl, ?_⟩
    show s.data = _
    simp [Tok.pixels]
  | .piece (.run n v), hk =>
    have hk : n < 128 := hk
    have hn : Next bs p [UInt8.ofNat (n + 128), v] := hn
    obtain ⟨b1, b2, b3⟩ := byte_run n hk
    refine (getb_full L.toLaws hat hn.head).bind (fun r hr => ?_)
    obtain ⟨c, t⟩ := r
    obtain ⟨rfl, h1⟩ := hr
    show Holds (if UInt8.ofNat (n + 128) = 0 then _ else if UInt8.ofNat (n + 128) &&& 128 ≠ 0 then _ else _) _
    rw [if_neg (fun h => b1.mp h), if_pos b2]
    refine (getb_full L.toLaws h1 hn.tail.head).bind (fun r hr => ?_)
    obtain ⟨c, t⟩ := r
    obtain ⟨rfl, h2⟩ := hr
    show Holds (loopN (UInt8.ofNat (n + 128) &&& 127).toNat (fun j d => wr d (s.i + j) c) s.data >>= _) _
    have hl : (Tok.piece (.run n c)).pixels.length = n := by simp [Tok.pixels, Piece.pixels]
    rw [hl] at hi ⊢
    rw [b3, run_loop c s.i n s.data hi, bind_ok]
    exact Holds.pure ⟨h2, rfl, rfl⟩
  | .piece (.lit px), hk =>
    have hk : 0 < px.length ∧ px.length < 128 := hk
    have hn : Next bs p (UInt8.ofNat px.length :: px) := hn
    obtain ⟨b1, b2, b3⟩ := byte_lit px.length hk.1 hk.2
    refine (getb_full L.toLaws hat hn.head).bind (fun r hr => ?_)
    obtain ⟨c, t⟩ := r
    obtain ⟨rfl, h1⟩ := hr
    show Holds (if UInt8.ofNat px.length = 0 then _ else if UInt8.ofNat px.length &&& 128 ≠ 0 then _ else _) _
    rw [if_neg b1, if_neg (fun h => h b2)]
    show Holds (loopN (UInt8.ofNat px.length).toNat _ _) _
    rw [b3]
    refine (lit_loop L.toLaws px { s with inp := t } (p + 1) h1 hn.tail hi).mono (fun u hu => ⟨?_, hu.2⟩)
    have := hu.1
    have e : p + (Tok.piece (Piece.lit px)).bytes.length = p + 1 + px.length := by
      show p + (UInt8.ofNat px.length :: px).length = _
      simp only [List.length_cons]; omega
    rw [e]; exact this

theorem cut_loop (L : Laws2 o At) {bs : List UInt8} {size : Nat} (ks : List Tok) : ∀ (s : CutS σ) (p fuel : Nat), (∀ k ∈ ks, k.Ok) → At s.inp bs p →
    s.data.length = size → s.i + (ks.flatMap Tok.pixels).length = size → Next bs p (ks.flatMap Tok.bytes) → ks.length < fuel →
    Holds (whileF (fun s : CutS σ => decide (s.i < size)) (cutStep o) fuel s) (fun r => (∃ q, At r.inp bs q) ∧
      r.data = s.data.take s.i ++ ks.flatMap Tok.pixels) := by
  induction ks with
  | nil =>
    intro s p fuel _ hat hd hi _ hfuel
    cases fuel with
    | zero => simp at hfuel
    | succ fuel =>
    simp only [List.flatMap_nil, List.length_nil, Nat.add_zero] at hi
    unfold whileF
    rw [if_neg (by simp; omega)]
    refine Holds.ok ⟨⟨p, hat⟩, ?_⟩
    rw [List.take_of_length_le (by omega)]; simp
  | cons k ks ih =>
    intro s p fuel hok hat hd hi hn hfuel
    cases fuel with
    | zero => simp at hfuel
    | succ fuel =>
    simp only [List.flatMap_cons, List.length_append] at hi hn ⊢
    unfold whileF
    by_cases hlt : s.i < size
    · rw [if_pos (by simp [hlt])]
      refine (cut_step L k (hok k List.mem_cons_self) s p hat hn.left (by omega)).bind (fun t ht => ?_)
      obtain ⟨h1, h2, h3⟩ := ht
      have hl : t.data.length = size := by
        rw [h3]; simp only [List.length_append, List.length_take, List.length_drop]; omega
      refine (ih t _ fuel (fun k hk => hok k (List.mem_cons_of_mem _ hk)) h1 hl (by omega) hn.right (by simp at hfuel; omega)).mono (fun r hr => ⟨hr.1, ?_⟩)
      rw [hr.2, h2, h3, ← List.append_assoc, List.take_left' (by simp only [List.length_append, List.length_take]; omega), List.append_assoc]
    · rw [if_neg (by simp [hlt])]
      have e1 : k.pixels = [] := List.eq_nil_of_length_eq_zero (by omega)
      have e2 : ks.flatMap Tok.pixels = [] := List.eq_nil_of_length_eq_zero (by omega)
      refine Holds.ok ⟨⟨p, hat⟩, ?_⟩
      rw [e1, e2, List.take_of_length_le (by omega)]; simp

/-- The rows of a picture as the loop meets them. -/
def toks : List (UInt8 × UInt8 × List Piece) → List Tok
  | [] => []
  | [r] => r.2.2.map Tok.piece
  | r :: r' :: rs => r.2.2.map Tok.piece ++ Tok.eol r'.1 r'.2.1 :: toks (r' :: rs)

theorem toks_bytes (r : UInt8 × UInt8 × List Piece) (rs : List (UInt8 × UInt8 × List Piece)) :
    (r :: rs).flatMap rowBytes = r.1 :: r.2.1 :: ((toks (r :: rs)).flatMap Tok.bytes ++ [0]) := by
  induction rs generalizing r with
  | nil => simp [rowBytes, toks, List.flatMap_map, Tok.bytes]
  | cons r' rs ih =>
    rw [List.flatMap_cons, ih r']
    simp [rowBytes, toks, List.flatMap_map, Tok.bytes]

theorem toks_pixels (rs : List (UInt8 × UInt8 × List Piece)) : (toks rs).flatMap Tok.pixels = rs.flatMap (fun r => r.2.2.flatMap Piece.pixels) := by
  induction rs with
  | nil => rfl
  | cons r rs ih =>
    cases rs with
    | nil => simp [toks, List.flatMap_map, Tok.pixels]
    | cons r' rs =>
      rw [List.flatMap_cons, ← ih]
      simp [toks, List.flatMap_map, Tok.pixels]

theorem toks_ok (rs : List (UInt8 × UInt8 × List Piece)) (h : ∀ r ∈ rs, ∀ p ∈ r.2.2, p.Ok) : ∀ k ∈ toks rs, k.Ok := by
  induction rs with
  | nil => simp [toks]
  | cons r rs ih =>
    cases rs with
    | nil =>
      intro k hk
      simp only [toks, List.mem_map] at hk
      obtain ⟨p, hp, rfl⟩ := hk
      exact h r List.mem_cons_self p hp
    | cons r' rs =>
      intro k hk
      simp only [toks, List.mem_append, List.mem_map, List.mem_cons] at hk
      rcases hk with ⟨p, hp, rfl⟩ | rfl | hk
      · exact h r List.mem_cons_self p hp
      · trivial
      · exact ih (fun r hr => h r (List.mem_cons_of_mem _ hr)) k hk

theorem bytes_pos (k : Tok) (h : k.Ok) : 0 < k.bytes.length := by
  match k, h with
  | .eol _ _, _ => simp [Tok.bytes]
  | .piece (.run n v), _ => simp [Tok.bytes, Piece.bytes]
  | .piece (.lit px), _ => simp [Tok.bytes, Piece.bytes]

theorem toks_len (ks : List Tok) (h : ∀ k ∈ ks, k.Ok) : ks.length ≤ (ks.flatMap Tok.bytes).length := by
  induction ks with
  | nil => simp
  | cons k ks ih =>
    have := ih (fun k hk => h k (List.mem_cons_of_mem _ hk))
    have h2 := bytes_pos k (h k List.mem_cons_self)
    simp only [List.flatMap_cons, List.length_append, List.length_cons]
    omega

theorem cut_spec (L : Laws2 o At) (junk : Nat → UInt8) (cur : Loaded) (fuel : Nat) {s : σ} {bs : List UInt8} (hs : At s bs 0) (hfuel : bs.length < fuel)
    (hw : 0 < leAt bs 0 2) (hh : 0 < leAt bs 2 2) (hfit : leAt bs 0 2 * leAt bs 2 2 < 2 ^ 31) (rows : List (UInt8 × UInt8 × List Piece))
    (hok : ∀ r ∈ rows, ∀ p ∈ r.2.2, p.Ok) (hpx : (rows.flatMap (fun r => r.2.2.flatMap Piece.pixels)).length = leAt bs 0 2 * leAt bs 2 2)
    (hn : Next bs 6 (rows.flatMap rowBytes)) :
    Holds (iLoadCutInternal o junk fuel cur s) (fun r => r.1 = true ∧ r.2.1.2 = none ∧ Shows r.2.1.1 (leAt bs 0 2) (leAt bs 2 2) 1 IL_COLOUR_INDEX
      (fun x y _ => (rows.flatMap (fun r => r.2.2.flatMap Piece.pixels))[y * leAt bs 0 2 + x]?) ∧ ∃ q, At r.2.2 bs q) := by
  unfold iLoadCutInternal
  obtain ⟨r0, rs, rfl⟩ : ∃ r0 rs, rows = r0 :: rs := by
    cases rows with
    | nil =>
      simp only [List.flatMap_nil, List.length_nil] at hpx
      have := Nat.mul_pos hw hh
      omega
    | cons r rs => exact ⟨r, rs, rfl⟩
  rw [toks_bytes] at hn
  have hn8 : Next bs 8 ((toks (r0 :: rs)).flatMap Tok.bytes ++ [0]) := hn.tail.tail
  have h8 : 8 < bs.length := by
    rcases hn8.fit with h | h
    · simp only [List.length_append, List.length_cons] at h; omega
    · simp at h
  have hlen : 8 + ((toks (r0 :: rs)).flatMap Tok.bytes).length + 1 ≤ bs.length := by
    rcases hn8.fit with h | h
    · simp only [List.length_append, List.length_cons, List.length_nil] at h; omega
    · simp at h
  refine (head_spec L.toLaws junk bs [u16, u16, u32f] _ 0 hs (by decide)).bind (fun r hr => ?_)
  obtain ⟨-, hpos, hf⟩ := hr
  obtain ⟨h, t⟩ := r
  have hat : At t bs 8 := hpos (by show 0 + 8 ≤ _; omega)
  have e0 : fle h 0 = leAt bs 0 2 := by
    have := hf 0 u16 rfl (by show 0 + 0 + 2 ≤ _; omega)
    show le (fld h 0) = _
    rw [this]; rfl
  have e1 : fle h 1 = leAt bs 2 2 := by
    have := hf 1 u16 rfl (by show 0 + 2 + 2 ≤ _; omega)
    show le (fld h 1) = _
    rw [this]; rfl
  rw [← toks_pixels] at hpx ⊢
  simp only [e0, e1]
  generalize leAt bs 0 2 = w at *
  generalize leAt bs 2 2 = h' at *
  rw [if_neg (by omega), if_neg (by omega)]
  obtain ⟨h1, h2, h3, h4, h5, h6, h7, h8, h9⟩ := tex_fields junk w h' 1 IL_COLOUR_INDEX hw hh (by decide) (by omega)
  have hks := toks_ok _ hok
  have htl := toks_len _ hks
  have hdl : (tex junk w h' 1 IL_COLOUR_INDEX).data.length = w * h' := by rw [tex_len, h9, Nat.mul_one]
  refine (cut_loop L (size := w * h') (toks (r0 :: rs)) ⟨0, (tex junk w h' 1 IL_COLOUR_INDEX).data, t⟩ 8 fuel hks hat hdl (by simpa using hpx) hn8.left
    (by omega)).bind (fun r hr => ?_)
  obtain ⟨hr1, hr2⟩ := hr
  simp only [List.take_zero, List.nil_append] at hr2
  refine Holds.pure ⟨rfl, rfl, ?_, hr1⟩
  refine shows_tex junk w h' 1 IL_COLOUR_INDEX hw hh (by decide) (by omega) r.data (by rw [hr2, hpx, Nat.mul_one]) _ (fun x y c hx hy hcc => ?_)
  have hc0 : c = 0 := by omega
  subst hc0
  rw [hr2, Nat.mul_one, Nat.add_zero]

end DevIL.Games
