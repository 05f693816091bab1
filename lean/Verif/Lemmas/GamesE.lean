import Verif.Lemmas.GamesD
/-! Doom. -/
set_option autoImplicit false
namespace DevIL.Games

open DevIL.Lump (SEEK_SET SEEK_CUR SEEK_END)
open DevIL.Detect DevIL.DetectSpec DevIL.GamesSpec DevIL.Image

variable {σ : Type} {o : Ops σ} {At : σ → List UInt8 → Nat → Prop}

theorem read1 (L : Laws o At) {s : σ} {bs : List UInt8} {p : Nat} (h : At s bs p) {b : UInt8} (hb : bs[p]? = some b) :
    Holds (o.read s 1 1) (fun r => r.1 = [b] ∧ At r.2.2 bs (p + 1)) := by
  have hp : p < bs.length := by
    rcases Nat.lt_or_ge p bs.length with h | h
    · exact h
    · rw [List.getElem?_eq_none h] at hb; cases hb
  refine (L.read 1 1 h (by decide) (by decide)).mono (fun r hr => ?_)
  obtain ⟨h1, -, h3⟩ := hr
  rw [Nat.one_mul, at_one hp] at h1
  rw [List.getElem?_eq_getElem hp] at hb
  cases hb
  rw [h1] at h3
  exact ⟨h1, h3⟩

/-- The block as columns. -/
structure Cols (d : List UInt8) (w h : Nat) (f : Nat → Nat → UInt8) : Prop where
  len : d.length = w * h
  get : ∀ x y, x < w → y < h → d[y * w + x]? = some (f x y)

theorem row_lt {w h x y : Nat} (hx : x < w) (hy : y < h) : y * w + x < w * h := by
  have := pix_lt (k := 1) (c := 0) hx hy (by decide)
  omega

theorem row_inj {w x y x' y' : Nat} (hx : x < w) (hx' : x' < w) (h : y * w + x = y' * w + x') : x = x' ∧ y = y' := by
  have e1 : (y * w + x) % w = (y' * w + x') % w := by rw [h]
  have e2 : (y * w + x) / w = (y' * w + x') / w := by rw [h]
  rw [Nat.add_comm, Nat.add_mul_mod_self_right, Nat.add_comm (y' * w), Nat.add_mul_mod_self_right, Nat.mod_eq_of_lt hx, Nat.mod_eq_of_lt hx'] at e1
  rw [Nat.add_comm, Nat.add_mul_div_right _ _ (by omega), Nat.add_comm (y' * w), Nat.add_mul_div_right _ _ (by omega), Nat.div_eq_of_lt hx,
    Nat.div_eq_of_lt hx'] at e2
  omega

theorem Cols.set {d : List UInt8} {w h : Nat} {f : Nat → Nat → UInt8} (c : Cols d w h f) {x y : Nat} (hx : x < w) (v : UInt8) :
    Cols (d.set (y * w + x) v) w h (fun a b => if a = x ∧ b = y then v else f a b) := by
  refine ⟨by rw [List.length_set]; exact c.len, fun a b ha hb => ?_⟩
  by_cases e : a = x ∧ b = y
  · obtain ⟨rfl, rfl⟩ := e
    rw [if_pos ⟨rfl, rfl⟩, List.getElem?_set_self (by rw [c.len]; exact row_lt ha hb)]
  · rw [if_neg e, List.getElem?_set_ne (fun h => e ?_), c.get a b ha hb]
    obtain ⟨h1, h2⟩ := row_inj hx ha h
    exact ⟨h1.symm, h2.symm⟩

theorem Cols.congr {d : List UInt8} {w h : Nat} {f g : Nat → Nat → UInt8} (c : Cols d w h f) (e : ∀ x y, x < w → y < h → f x y = g x y) : Cols d w h g :=
  ⟨c.len, fun x y hx hy => by rw [c.get x y hx hy, e x y hx hy]⟩

theorem doomRow_loop (L : Laws o At) {bs : List UInt8} {w h col : Nat} (hcol : col < w) (top : Nat) (px : List UInt8) (f : Nat → Nat → UInt8)
    (s : DoomS σ) (p : Nat) (hat : At s.inp bs p) (hfin : s.fin = none) (hd : Cols s.data w h f) (hn : Next bs p px) :
    Holds (loopN px.length (doomRow o w (h : Int) col top) s) (fun t => At t.inp bs (p + px.length) ∧ t.fin = none ∧
      Cols t.data w h (fun x y => if x = col ∧ top ≤ y then px.getD (y - top) (f x y) else f x y)) := by
  have key := Holds.loop (n := px.length) (s := s) (f := doomRow o w (h : Int) col top)
    (fun k (t : DoomS σ) => At t.inp bs (p + k) ∧ t.fin = none ∧
      Cols t.data w h (fun x y => if x = col ∧ top ≤ y then (px.take k).getD (y - top) (f x y) else f x y))
    ⟨hat, hfin, hd.congr (fun x y _ _ => by simp)⟩ (fun k t hk ht => ?_)
  · refine key.mono (fun t ht => ?_)
    rw [List.take_length] at ht
    exact ht
  · obtain ⟨h1, h2, h3⟩ := ht
    have hb : bs[p + k]? = some px[k] := by
      have e : px = px.take k ++ (px[k] :: px.drop (k + 1)) := by
        rw [← List.drop_eq_getElem_cons hk, List.take_append_drop]
      rw [e] at hn
      have := hn.right.head
      rw [List.length_take, Nat.min_eq_left (by omega)] at this
      exact this
    unfold doomRow
    rw [h2, if_neg (by simp)]
    refine (read1 L h1 hb).bind (fun r hr => ?_)
    obtain ⟨g, n, u⟩ := r
    obtain ⟨rfl, hu⟩ := hr
    simp only []
    have hg : ∀ v y, (px.take (k + 1)).getD (y - top) v = if y = k + top ∨ y < top ∧ k = 0 then px[k] else (px.take k).getD (y - top) v := by
      intro v y
      simp only [List.getD_eq_getElem?_getD, List.getElem?_take]
      by_cases e : y = k + top ∨ y < top ∧ k = 0
      · rw [if_pos e, if_pos (by omega), show y - top = k by omega, List.getElem?_eq_getElem hk]; rfl
      · rw [if_neg e]
        by_cases e2 : y - top < k
        · rw [if_pos e2, if_pos (by omega)]
        · rw [if_neg e2, if_neg (by omega)]
    by_cases hin : ((k + top : Nat) : Int) < (h : Int)
    · rw [if_pos hin, wr_of_lt (by rw [h3.len]; exact row_lt hcol (by omega)), bind_ok]
      refine Holds.pure ⟨hu, rfl, (h3.set hcol px[k]).congr (fun x y hx hy => ?_)⟩
      by_cases e : x = col ∧ y = k + top
      · rw [if_pos e, if_pos ⟨e.1, by omega⟩, hg, if_pos (Or.inl e.2)]
      · rw [if_neg e]
        by_cases e2 : x = col ∧ top ≤ y
        · rw [if_pos e2, if_pos e2, hg, if_neg (by rcases e2 with ⟨e3, e4⟩; rintro (h | h); exact e ⟨e3, h⟩; omega)]
        · rw [if_neg e2, if_neg e2]
    · rw [if_neg hin]
      refine Holds.pure ⟨hu, rfl, h3.congr (fun x y hx hy => ?_)⟩
      by_cases e2 : x = col ∧ top ≤ y
      · rw [if_pos e2, if_pos e2, hg, if_neg (by omega)]
      · rw [if_neg e2, if_neg e2]

theorem doomPost_spec (L : Laws o At) {bs : List UInt8} {w h col : Nat} (hcol : col < w) (q : Post) (hq : q.Ok) (f : Nat → Nat → UInt8)
    (s : DoomS σ) (p : Nat) (hat : At s.inp bs p) (hfin : s.fin = none) (hd : Cols s.data w h f) (hn : Next bs p q.bytes) :
    Holds (doomPost o w (h : Int) col s) (fun t => At t.inp bs (p + q.bytes.length) ∧ t.fin = none ∧
      Cols t.data w h (fun x y => if x = col ∧ q.top.toNat ≤ y then q.px.getD (y - q.top.toNat) (f x y) else f x y)) := by
  obtain ⟨top, px, a, b⟩ := q
  obtain ⟨hq1, hq2⟩ := hq
  simp only at hq1 hq2
  have hn : Next bs p (top :: UInt8.ofNat px.length :: a :: (px ++ [b])) := hn
  have hl : (UInt8.ofNat px.length).toNat = px.length := by
    rw [UInt8.toNat_ofNat']; omega
  unfold doomPost
  refine (read1 L hat hn.head).bind (fun r hr => ?_)
  obtain ⟨g, n, u⟩ := r
  obtain ⟨rfl, hu⟩ := hr
  simp only []
  rw [if_neg hq1]
  refine (read1 L hu hn.tail.head).bind (fun r hr => ?_)
  obtain ⟨g, n, u⟩ := r
  obtain ⟨rfl, hu⟩ := hr
  simp only []
  refine (read1 L hu hn.tail.tail.head).bind (fun r hr => ?_)
  obtain ⟨g, n, u⟩ := r
  obtain ⟨rfl, hu⟩ := hr
  simp only []
  rw [hl]
  have hn3 := hn.tail.tail.tail
  refine (doomRow_loop L hcol top.toNat px f { s with inp := u } _ hu hfin hd hn3.left).bind (fun r hr => ?_)
  obtain ⟨h1, h2, h3⟩ := hr
  rw [h2, if_neg (by simp)]
  refine (read1 L h1 hn3.right.head).bind (fun r' hr' => ?_)
  obtain ⟨g, n, u⟩ := r'
  obtain ⟨rfl, hu⟩ := hr'
  refine Holds.pure ⟨?_, rfl, h3⟩
  have e : p + (Post.bytes ⟨top, px, a, b⟩).length = p + 1 + 1 + 1 + px.length + 1 := by
    simp only [Post.bytes, List.length_cons, List.length_append, List.length_nil]; omega
  rw [e]; exact hu

theorem doomPosts (L : Laws o At) {bs : List UInt8} {w h col : Nat} (hcol : col < w) (ps : List Post) : ∀ (f : Nat → Nat → UInt8)
    (s : DoomS σ) (p fuel : Nat), (∀ q ∈ ps, q.Ok) → At s.inp bs p → s.fin = none → Cols s.data w h f → Next bs p (colBytes ps) → ps.length + 1 < fuel →
    Holds (whileF (fun s : DoomS σ => !s.fin.isSome) (doomPost o w (h : Int) col) fuel s) (fun t => (∃ q, At t.inp bs q) ∧ t.fin = some true ∧
      Cols t.data w h (fun x y => if x = col then colPx ps y (f x y) else f x y)) := by
  induction ps with
  | nil =>
    intro f s p fuel _ hat hfin hd hn hfuel
    obtain ⟨fuel, rfl⟩ : ∃ k, fuel = k + 2 := ⟨fuel - 2, by simp at hfuel; omega⟩
    have hn : Next bs p [255] := hn
    unfold whileF
    rw [if_pos (by simp [hfin])]
    refine Holds.bind (P := fun t => (∃ q, At t.inp bs q) ∧ t.fin = some true ∧ t.data = s.data) ?_ (fun t ht => ?_)
    · unfold doomPost
      refine (read1 L hat hn.head).bind (fun r hr => ?_)
      obtain ⟨g, n, u⟩ := r
      obtain ⟨rfl, hu⟩ := hr
      simp only []
      rw [if_pos trivial]
      exact Holds.pure ⟨⟨_, hu⟩, rfl, rfl⟩
    · unfold whileF
      rw [if_neg (by simp [ht.2.1])]
      refine Holds.ok ⟨ht.1, ht.2.1, ?_⟩
      rw [ht.2.2]
      exact hd.congr (fun x y _ _ => by simp [colPx])
  | cons q ps ih =>
    intro f s p fuel hok hat hfin hd hn hfuel
    cases fuel with
    | zero => omega
    | succ fuel =>
    have hn : Next bs p (q.bytes ++ colBytes ps) := by
      have e : colBytes (q :: ps) = q.bytes ++ colBytes ps := by simp [colBytes]
      rwa [e] at hn
    unfold whileF
    rw [if_pos (by simp [hfin])]
    refine (doomPost_spec L hcol q (hok q List.mem_cons_self) f s p hat hfin hd hn.left).bind (fun t ht => ?_)
    obtain ⟨h1, h2, h3⟩ := ht
    refine (ih _ t _ fuel (fun q hq => hok q (List.mem_cons_of_mem _ hq)) h1 h2 h3 hn.right (by simp at hfuel; omega)).mono (fun r hr => ⟨hr.1, hr.2.1, ?_⟩)
    refine hr.2.2.congr (fun x y hx hy => ?_)
    by_cases e : x = col
    · rw [if_pos e, if_pos e]
      simp only [e, true_and]
      rfl
    · rw [if_neg e, if_neg e, if_neg (fun h => e h.1)]

theorem doomCol_spec (L : Laws2 o At) (junk : Nat → UInt8) {bs : List UInt8} {w h col : Nat} (fuel : Nat) (hcol : col < w) (ps : List Post) (f : Nat → Nat → UInt8)
    (s : DoomS σ) (p : Nat) (hok : ∀ q ∈ ps, q.Ok) (hat : At s.inp bs p) (hfin : s.fin = none) (hd : Cols s.data w h f) (hp : p + 4 ≤ bs.length)
    (hn : Next bs (leAt bs p 4) (colBytes ps)) (hfuel : bs.length < fuel) :
    Holds (doomCol o junk fuel w (h : Int) 0 col s) (fun t => At t.inp bs (p + 4) ∧ t.fin = none ∧
      Cols t.data w h (fun x y => if x = col then colPx ps y (f x y) else f x y)) := by
  have hlen := L.len hat
  have hps : ps.length ≤ (ps.flatMap Post.bytes).length := by
    clear hok hn
    induction ps with
    | nil => simp
    | cons q ps ih => simp only [List.flatMap_cons, List.length_append, List.length_cons, Post.bytes] at ih ⊢; omega
  have hfit : leAt bs p 4 + (colBytes ps).length ≤ bs.length := by
    rcases hn.fit with h | h
    · exact h
    · simp [colBytes] at h
  have hcl : (colBytes ps).length = (ps.flatMap Post.bytes).length + 1 := by simp [colBytes]
  unfold doomCol
  rw [hfin, if_neg (by simp)]
  refine (head_spec L.toLaws junk bs [u32f] _ p hat (by decide)).bind (fun r hr => ?_)
  obtain ⟨-, hpos, hf⟩ := hr
  obtain ⟨g, t⟩ := r
  have ht : At t bs (p + 4) := hpos (by show p + 4 ≤ _; omega)
  have e0 : fle g 0 = leAt bs p 4 := by
    have := hf 0 u32f rfl (by show p + 0 + 4 ≤ _; omega)
    show le (fld g 0) = _
    rw [this]; rfl
  have etell : o.tell t = p + 4 := L.tellAt ht hp
  simp only [e0, etell]
  have t1 : Lump.toInt 0 + Lump.toInt (leAt bs p 4) = ((leAt bs p 4 : Nat) : Int) := by
    unfold Lump.toInt
    rw [if_pos (by omega), if_pos (by omega)]; simp
  have t2 : Lump.toInt (p + 4) = ((p + 4 : Nat) : Int) := by
    unfold Lump.toInt
    rw [if_pos (by omega)]
  rw [t1, t2]
  refine (L.seekAbs _ ht (by omega)).bind (fun r hr => ?_)
  refine (doomPosts L.toLaws hcol ps f ⟨s.data, r.2, none⟩ _ fuel hok hr rfl hd hn (by omega)).bind (fun t ht => ?_)
  obtain ⟨⟨q, hq⟩, h2, h3⟩ := ht
  rw [h2, if_neg (by simp)]
  refine (L.seekAbs _ hq hp).bind (fun r hr => ?_)
  exact Holds.pure ⟨hr, rfl, h3⟩

theorem table_copy (junk : Nat → UInt8) (table : List UInt8) (h : table.length = 768) : memcpy (alloc junk 768) 0 table 0 768 = .ok table := by
  have e := put_eq (alloc junk 768) table (by rw [alloc_length]; omega)
  rw [h] at e
  rw [e, List.drop_of_length_le (by rw [alloc_length]), List.append_nil]

/-- A picture all of whose columns can be found in the file. -/
theorem doom_spec (L : Laws2 o At) (junk : Nat → UInt8) (table : List UInt8) (htab : table.length = 768) (fuel : Nat) {s : σ} {bs : List UInt8}
    (hs : At s bs 0) (hfuel : bs.length < fuel) (hw : 0 < leAt bs 0 2) (hw2 : leAt bs 0 2 < 32768) (hh : 0 < leAt bs 2 2) (hh2 : leAt bs 2 2 < 32768)
    (hlen : 8 + 4 * leAt bs 0 2 ≤ bs.length) (cols : Nat → List Post) (hok : ∀ x, x < leAt bs 0 2 → ∀ q ∈ cols x, q.Ok)
    (hn : ∀ x, x < leAt bs 0 2 → Next bs (leAt bs (8 + 4 * x) 4) (colBytes (cols x))) :
    Holds (iLoadDoomInternal o junk table false fuel s) (fun r => r.1 = true ∧ HasPal r.2.1.2 table IL_PAL_RGB24 ∧
      Shows r.2.1.1 (leAt bs 0 2) (leAt bs 2 2) 1 IL_COLOUR_INDEX (fun x y _ => some (colPx (cols x) y 247)) ∧ ∃ q, At r.2.2 bs q) := by
  unfold iLoadDoomInternal
  rw [L.tellAt hs (by omega)]
  refine (head_spec L.toLaws junk bs [u16, u16, u16, u16] _ 0 hs (by decide)).bind (fun r hr => ?_)
  obtain ⟨-, hpos, hf⟩ := hr
  obtain ⟨g, t⟩ := r
  have ht : At t bs 8 := hpos (by show 0 + 8 ≤ _; omega)
  have e0 : fle g 0 = leAt bs 0 2 := by
    have := hf 0 u16 rfl (by show 0 + 0 + 2 ≤ _; omega)
    show le (fld g 0) = _
    rw [this]; rfl
  have e1 : fle g 1 = leAt bs 2 2 := by
    have := hf 1 u16 rfl (by show 0 + 2 + 2 ≤ _; omega)
    show le (fld g 1) = _
    rw [this]; rfl
  simp only [e0, e1]
  have hfit : leAt bs 0 2 * leAt bs 2 2 * 1 < 4294967296 := by
    have : leAt bs 0 2 * leAt bs 2 2 ≤ 32768 * 32768 := Nat.mul_le_mul (by omega) (by omega)
    omega
  generalize leAt bs 0 2 = w at *
  generalize leAt bs 2 2 = h' at *
  have s1 : short w = (w : Int) := by unfold short; rw [if_pos hw2]
  have s2 : short h' = (h' : Int) := by unfold short; rw [if_pos hh2]
  have o1 : Lump.ofInt (w : Int) = w := by unfold Lump.ofInt; omega
  have o2 : Lump.ofInt (h' : Int) = h' := by unfold Lump.ofInt; omega
  rw [s1, s2, o1, o2, table_copy junk table htab, bind_ok]
  simp only [Int.toNat_natCast]
  obtain ⟨h1, h2, h3, h4, h5, h6, h7, h8, h9⟩ := tex_fields junk w h' 1 IL_COLOUR_INDEX hw hh (by decide) hfit
  refine Holds.bind (P := fun t : DoomS σ => At t.inp bs (8 + 4 * w) ∧ t.fin = none ∧
      Cols t.data w h' (fun x y => if x < w then colPx (cols x) y 247 else 247)) ?_ (fun r hr => ?_)
  · refine Holds.loop (fun k (t : DoomS σ) => At t.inp bs (8 + 4 * k) ∧ t.fin = none ∧
      Cols t.data w h' (fun x y => if x < k then colPx (cols x) y 247 else 247)) ⟨ht, rfl, ?_, ?_⟩ (fun k t hk ht => ?_)
    · simp only [List.length_replicate, h9, Nat.mul_one]
    · intro x y hx hy
      rw [if_neg (by omega), List.getElem?_replicate, if_pos (by rw [h9, Nat.mul_one]; exact row_lt hx hy)]
    · obtain ⟨a1, a2, a3⟩ := ht
      refine (doomCol_spec L junk fuel hk (cols k) _ t _ (hok k hk) a1 a2 a3 (by omega) (hn k hk) hfuel).mono (fun u hu => ⟨hu.1, hu.2.1, ?_⟩)
      refine hu.2.2.congr (fun x y hx hy => ?_)
      by_cases e : x = k
      · subst e
        rw [if_pos rfl, if_neg (by omega), if_pos (by omega)]
      · rw [if_neg e]
        by_cases e2 : x < k
        · rw [if_pos e2, if_pos (by omega)]
        · rw [if_neg e2, if_neg (by omega)]
  · obtain ⟨a1, a2, a3⟩ := hr
    rw [a2, if_neg (by simp)]
    unfold doomEnd
    rw [if_neg (by simp)]
    refine Holds.pure ⟨rfl, ?_, ?_, _, a1⟩
    · show some _ = some _
      rw [htab]
    · refine shows_tex junk w h' 1 IL_COLOUR_INDEX hw hh (by decide) hfit r.data (by rw [a3.len, Nat.mul_one]) _ (fun x y c hx hy hcc => ?_)
      have hc0 : c = 0 := by omega
      subst hc0
      rw [Nat.mul_one, Nat.add_zero, a3.get x y hx hy, if_pos hx]

/-- A flat. -/
theorem flat_spec (L : Laws2 o At) (junk : Nat → UInt8) (table : List UInt8) (htab : table.length = 768) {s : σ} {bs : List UInt8} (hs : At s bs 0) :
    Holds (iLoadDoomFlatInternal o junk table false s) (fun r => r.2.1.1.data.length = r.2.1.1.size ∧ (r.1 = true ↔ 4096 ≤ bs.length) ∧
      (r.1 = true → HasPal r.2.1.2 table IL_PAL_RGB24 ∧ Shows r.2.1.1 64 64 1 IL_COLOUR_INDEX (fun x y _ => bs[y * 64 + x]?)) ∧ ∃ q, At r.2.2 bs q) := by
  unfold iLoadDoomFlatInternal
  rw [table_copy junk table htab, bind_ok]
  obtain ⟨h1, h2, h3, h4, h5, h6, h7, h8, h9⟩ := tex_fields junk 64 64 1 IL_COLOUR_INDEX (by decide) (by decide) (by decide) (by decide)
  have hl := tex_len junk 64 64 1 IL_COLOUR_INDEX
  rw [h9] at hl
  have sh := shows_tex junk 64 64 1 IL_COLOUR_INDEX (by decide) (by decide) (by decide) (by decide)
  generalize tex junk 64 64 1 IL_COLOUR_INDEX = m at *
  refine (into_spec L m.data 1 4096 hs (by decide) (by decide) (by omega)).bind (fun r hr => ?_)
  obtain ⟨a1, a2, a3⟩ := hr
  rw [Nat.one_mul] at a1 a2 a3
  rw [Nat.div_one, at_length, Nat.sub_zero] at a1
  have hdl : r.2.1.length = 64 * 64 * 1 := by
    rw [a2, List.length_append, List.length_drop, hl, at_length]; omega
  show Holds (if r.1 ≠ 4096 then _ else _) _
  by_cases hc : r.1 = 4096
  · rw [if_neg (fun h => h hc)]
    unfold doomEnd
    rw [if_neg (by simp)]
    refine Holds.pure ⟨by show r.2.1.length = _; rw [hdl, ← h9], ⟨fun _ => by omega, fun _ => rfl⟩, fun _ => ⟨?_, ?_⟩, _, a3⟩
    · show some _ = some _
      rw [htab]
    · refine sh r.2.1 hdl _ (fun x y c hx hy hcc => ?_)
      have hc0 : c = 0 := by omega
      subst hc0
      rw [a2, List.getElem?_append_left (by rw [at_length]; omega), at_get _ _ _ _ (by omega)]
      congr 1; omega
  · rw [if_pos hc]
    refine Holds.pure ⟨by show r.2.1.length = _; rw [hdl, ← h9], ⟨fun h => by simp at h, fun h => absurd (by omega) hc⟩, fun h => by simp at h, _, a3⟩

end DevIL.Games
