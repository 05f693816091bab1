import Verif.Lemmas.PsdF
set_option autoImplicit false
namespace DevIL.Psd
open DevIL.Games DevIL.Detect DevIL.Image DevIL.DetectSpec DevIL.DpxSpec DevIL.PsdSpec DevIL.Dpx
open DevIL.Lump (SEEK_CUR)

variable {σ : Type} {o : Ops σ} {At : σ → List UInt8 → Nat → Prop}

/-! ### The end of the input -/

/-- Asking whether the input is at its end. -/
def EofLaw (o : Ops σ) (At : σ → List UInt8 → Nat → Prop) : Prop :=
  ∀ {s all p}, At s all p → p ≤ all.length → 0 < all.length → (o.eof s).1 = decide (all.length ≤ p) ∧ At (o.eof s).2 all p

theorem fileEof : EofLaw fileOps FileAt := by
  rintro s all p ⟨rfl, hst, rfl, hl⟩ hp h0
  show (Cache.iEofFile s).1 = _ ∧ FileAt (Cache.iEofFile s).2 _ _
  unfold Cache.iEofFile Cache.iTellRFile
  rw [seek_end]
  simp only []
  have hu : u32 s.pos = s.pos := u32_of_lt (by omega)
  have ht : Lump.toInt (u32 s.pos) = s.pos := by rw [hu]; unfold Lump.toInt; rw [if_pos (by omega)]
  rw [seek_set _ _ (by exact hst), ht, if_neg (by omega)]
  refine ⟨?_, rfl, hst, ?_, hl⟩
  · show decide (u32 (Int.toNat s.pos) ≥ u32 s.data.length) = _
    rw [Int.toNat_natCast, hu, u32_of_lt (by omega)]
  · show Int.toNat s.pos = s.pos
    omega

theorem lumpEof : EofLaw lumpOps LumpAt := by
  rintro l all p ⟨hg, rfl, rfl, hl⟩ hp h0
  refine ⟨?_, hg, rfl, rfl, hl⟩
  show Lump.eof l = _
  have hs := hg.size
  unfold Lump.eof
  rw [if_pos (by omega)]
  rw [hs]

/-! ### Palettes -/

theorem palette_ok (junk : Nat → UInt8) (p : List UInt8) (e : Nat) (hp : p.length = 3 * e) :
    Holds (palette junk p) (fun q => q.length = 3 * e ∧ ∀ j c, j < e → c < 3 → q[3 * j + c]? = p[c * e + j]?) := by
  unfold palette
  have hdiv : p.length / 3 = e := by omega
  rw [hdiv, show p.length = e * 3 by omega, forStep_mul (by decide)]
  have key : Holds (loopN e (fun k (t : List UInt8 × Nat) => do
      let a ← rd p t.2
      let d ← wr t.1 (k * 3) a
      let b ← rd p (t.2 + e)
      let d ← wr d (k * 3 + 1) b
      let c ← rd p (t.2 + e * 2)
      let d ← wr d (k * 3 + 2) c
      pure (d, t.2 + 1)) (alloc junk (e * 3), 0)) (fun t => t.2 = e ∧ t.1.length = e * 3 ∧ ∀ j c, j < e → c < 3 → t.1[3 * j + c]? = p[c * e + j]?) := by
    refine Holds.loop (fun n (t : List UInt8 × Nat) => t.2 = n ∧ t.1.length = e * 3 ∧ ∀ j c, j < n → c < 3 → t.1[3 * j + c]? = p[c * e + j]?)
      ⟨rfl, alloc_length _ _, fun j c h => absurd h (by omega)⟩ (fun k t hk ht => ?_)
    obtain ⟨h1, h2, h3⟩ := ht
    rw [h1, rd_of_lt (by omega), bind_ok, wr_of_lt (by omega), bind_ok, rd_of_lt (by omega), bind_ok, wr_of_lt (by rw [List.length_set]; omega), bind_ok, rd_of_lt (by omega), bind_ok,
      wr_of_lt (by rw [List.length_set, List.length_set]; omega), bind_ok]
    refine Holds.pure ⟨rfl, by simp [h2], fun j c hj hc => ?_⟩
    show ((((t.1.set (k * 3) _).set (k * 3 + 1) _).set (k * 3 + 2) _))[3 * j + c]? = _
    simp only [List.getElem?_set, List.length_set]
    by_cases hjk : j = k
    · subst hjk
      have h0 : c = 0 ∨ c = 1 ∨ c = 2 := by omega
      rcases h0 with rfl | rfl | rfl
      · rw [if_neg (by omega), if_neg (by omega), if_pos (by omega), if_pos (by omega), List.getElem?_eq_getElem (by omega)]
        congr 2; omega
      · rw [if_neg (by omega), if_pos (by omega), if_pos (by omega), List.getElem?_eq_getElem (by omega)]
        congr 2; omega
      · rw [if_pos (by omega), if_pos (by omega), List.getElem?_eq_getElem (by omega)]
        congr 2; omega
    · rw [if_neg (by omega), if_neg (by omega), if_neg (by omega)]
      exact h3 j c (by omega) hc
  refine key.bind (fun r hr => Holds.pure ⟨by omega, hr.2.2⟩)

/-! ### Pictures with a palette -/

/-- What the theorems say of a picture with a palette: the image, and the palette of `e` entries. -/
def Indexed (good : Prop) (w h e : Nat) (colours : List UInt8) (px : Nat → Nat → Nat → Option UInt8) (ok : Bool) (r : Img × Option Pal) : Prop :=
  (ok = true ↔ good) ∧ (ok = true → Shows3 r.1 w h 1 1 1 IL_COLOUR_INDEX IL_UNSIGNED_BYTE (fun x y _ i => px x y i) ∧ ∃ p, r.2 = some p ∧ p.type = IL_PAL_RGB24 ∧ p.size = 3 * e ∧
    p.data.length = 3 * e ∧ ∀ j c, j < e → c < 3 → p.data[3 * j + c]? = colours[c * e + j]?)

theorem indexed_start (L : Laws2 o At) (E : EofLaw o At) (junk : Nat → UInt8) (fuel : Nat) (d : Doc) (hd : d.Ok) (comp : Nat) (hcomp : comp < 256) (body : List UInt8) {s : σ}
    (hs : At s (d.before comp ++ body) 0) (cur : Loaded) {e : Nat} (hdepth : d.depth = 8) (hmode : d.mode = 2) (hch : d.channels = 1) (hcol : d.colours.length = 3 * e)
    {good : Prop} {px : Nat → Nat → Nat → Option UInt8} (hgood : good → body ≠ [])
    (next : ∀ t, At t (d.before comp ++ body) (d.before comp).length →
      Holds (PsdGetData o junk fuel d.width d.height 2 1 1 (decide (comp ≠ 0)) (texOf junk d.width d.height 1 IL_COLOUR_INDEX (typeFor 1)) t) (fun r =>
        (r.1 = true ↔ good) ∧ r.2.1.length = (texOf junk d.width d.height 1 IL_COLOUR_INDEX (typeFor 1)).size ∧ (∃ q, At r.2.2 (d.before comp ++ body) q) ∧
        (r.1 = true → Shows3 { texOf junk d.width d.height 1 IL_COLOUR_INDEX (typeFor 1) with data := r.2.1, origin := IL_ORIGIN_UPPER_LEFT } d.width d.height 1 1 1 IL_COLOUR_INDEX (typeFor 1)
          (fun x y _ i => px x y i)))) :
    Holds (iLoadPsdInternal o junk fuel cur s) (fun r => Indexed good d.width d.height e d.colours px r.1 r.2.1 ∧ ∃ q, At r.2.2 (d.before comp ++ body) q) := by
  have hn : Next (d.before comp ++ body) 0 (d.before comp) := next_drop (r := body) (by simp)
  have hbody : (d.before comp ++ body).length = (d.before comp).length + body.length := List.length_append
  generalize hbs : d.before comp ++ body = bs at *
  have hplen : (d.before comp).length = 26 + (section_ d.colours).length + (section_ (d.resources.flatMap Resource.bytes)).length + (section_ d.layers).length + 2 := by
    simp only [Doc.before, Doc.head, List.length_append, List.length_cons, List.length_nil, List.length_replicate, num_length]
  have hle : (d.before comp).length ≤ bs.length := by omega
  rw [hplen] at hle next hbody
  have hlen := L.len hs
  unfold Doc.before at hn
  have p5 := hn.right; have q4 := hn.left
  have p4 := q4.right; have q3 := q4.left
  have p3 := q3.right; have q2 := q3.left
  have p2 := q2.right; have p1 := q2.left
  have hh : d.head.length = 26 := by simp [Doc.head]
  simp only [List.length_append, hh, Nat.zero_add] at p2 p3 p4 p5
  unfold iLoadPsdInternal
  refine (head_ok L junk d hd hs p1 (by omega) (by omega)).bind (fun r hr => ?_)
  obtain ⟨hd', t⟩ := r
  obtain ⟨h1, h2, h3, h4, h5, h6, h7⟩ := hr
  simp only [] at h1 h2 h3 h4 h5 h6 h7 ⊢
  rw [h1]
  simp only [Bool.not_true, Bool.false_eq_true, if_false]
  rw [if_neg (by omega), if_pos (by omega)]
  unfold readIndexed
  have sl1 := section_length d.colours
  have sl2 := section_length d.layers
  have sl3 := section_length (d.resources.flatMap Resource.bytes)
  refine (u32f_at L junk h7 p2.left (by omega)).bind (fun r hr => ?_)
  obtain ⟨f, t⟩ := r
  obtain ⟨hf, ht⟩ := hr
  simp only [] at hf ht ⊢
  rw [hf, if_neg (by omega)]
  refine (into_full L (alloc junk d.colours.length) 1 d.colours.length ht (by decide) (by omega) (by rw [alloc_length]; omega) (by omega)).bind (fun r hr => ?_)
  obtain ⟨n, p, t⟩ := r
  obtain ⟨i1, i2, i3⟩ := hr
  simp only [] at i1 i2 i3 ⊢
  have hp : p = d.colours := by
    have := p2.right
    rw [num_length] at this
    rw [i2, Nat.one_mul]
    exact this
  subst hp
  rw [if_neg (by omega)]
  rw [Nat.one_mul, show 26 + 4 + d.colours.length = 26 + (section_ d.colours).length by omega] at i3
  refine (section_ok L junk i3 p3).bind (fun r hr => ?_)
  obtain ⟨res, t⟩ := r
  obtain ⟨hres, ht⟩ := hr
  simp only [] at hres
  subst hres
  simp only []
  refine (u32f_at L junk ht p4.left (by omega)).bind (fun r hr => ?_)
  obtain ⟨f2, t⟩ := r
  obtain ⟨hf2, ht⟩ := hr
  simp only [] at hf2 ht ⊢
  obtain ⟨e1, e2⟩ := E ht (by omega) (by omega)
  rw [decide_eq_false (by omega)] at e1
  rw [e1]
  simp only [Bool.false_eq_true, if_false]
  rw [hf2]
  have hti : Lump.toInt d.layers.length = d.layers.length := by unfold Lump.toInt; rw [if_pos (by omega)]
  refine (L.seekCur (Lump.toInt d.layers.length) e2).bind (fun t ht => ?_)
  have ht2 := ht.2 (26 + (section_ d.colours).length + (section_ (d.resources.flatMap Resource.bytes)).length + (section_ d.layers).length) (by rw [hti]; omega) (by omega)
  refine (compression_ok L junk ht2 p5 hcomp).bind (fun r hr => ?_)
  obtain ⟨packed, t⟩ := r
  obtain ⟨hpk, ht⟩ := hr
  simp only [] at hpk ht
  subst hpk
  obtain ⟨e3, e4⟩ := E ht (by omega) (by omega)
  simp only [e3]
  refine Holds.ite (fun hc => Holds.pure ⟨⟨⟨fun h => (by cases h), fun h => ?_⟩, fun h => (by cases h)⟩, _, e4⟩) (fun _ => ?_)
  · have : 0 < body.length := List.length_pos_iff.mpr (hgood h)
    have hc := of_decide_eq_true hc
    omega
  · rw [h2, h3, h4, h5, if_neg (by omega)]
    refine (palette_ok junk d.colours e hcol).bind (fun q hq => ?_)
    refine (next _ e4).bind (fun r hr => ?_)
    obtain ⟨ok, dt, t⟩ := r
    obtain ⟨r1, r2, r3, r4⟩ := hr
    cases ok with
    | false => exact Holds.pure ⟨⟨r1, fun h => (by cases h)⟩, r3⟩
    | true =>
      show Holds (ParseResources _ _ >>= _) _
      rw [resources_ok d.resources hd.resources (by omega), bind_ok]
      exact Holds.pure ⟨⟨r1, fun _ => ⟨r4 rfl, _, rfl, rfl, hcol, hq.1, hq.2⟩⟩, r3⟩

theorem indexed_plain (L : Laws2 o At) (E : EofLaw o At) (junk : Nat → UInt8) (fuel : Nat) (d : Doc) (hd : d.Ok) (body : List UInt8) {s : σ}
    (hs : At s (d.before 0 ++ body) 0) (cur : Loaded) {e : Nat} (hdepth : d.depth = 8) (hmode : d.mode = 2) (hch : d.channels = 1) (hcol : d.colours.length = 3 * e)
    (hfit : d.width * d.height < 4294967296) :
    Holds (iLoadPsdInternal o junk fuel cur s) (fun r => Indexed (d.width * d.height ≤ body.length) d.width d.height e d.colours (plainPx d.width d.height 1 body) r.1 r.2.1 ∧
      ∃ q, At r.2.2 (d.before 0 ++ body) q) := by
  refine indexed_start L E junk fuel d hd 0 (by decide) body hs cur hdepth hmode hch hcol (fun h hb => ?_) (fun t ht => ?_)
  · have := Nat.mul_pos hd.width.1 hd.height.1
    rw [hb, List.length_nil] at h
    omega
  · have := plain_data L junk fuel ht d.width d.height 1 IL_COLOUR_INDEX 1 2 1 hd.width.1 hd.height.1 rfl (.inl rfl) (by simpa using hfit)
    rw [show d.width * d.height * (1 * 1) = d.width * d.height by omega] at this
    exact this

theorem indexed_packed (L : Laws2 o At) (E : EofLaw o At) (junk : Nat → UInt8) (fuel : Nat) (d : Doc) (hd : d.Ok) (table rest : List UInt8) (cs : List Code) {s : σ}
    (hs : At s (d.before 1 ++ (table ++ [cs].flatMap chanBytes ++ rest)) 0) (hf : (d.before 1 ++ (table ++ [cs].flatMap chanBytes ++ rest)).length < fuel) (cur : Loaded)
    {e : Nat} (hdepth : d.depth = 8) (hmode : d.mode = 2) (hch : d.channels = 1) (hcol : d.colours.length = 3 * e)
    (hfit : d.width * d.height < 4294967296) (ht : table.length = 2 * d.height) (hcs : Codes cs (d.height * d.width)) :
    Holds (iLoadPsdInternal o junk fuel cur s) (fun r => Indexed True d.width d.height e d.colours (packedPx d.width [cs]) r.1 r.2.1 ∧
      ∃ q, At r.2.2 (d.before 1 ++ (table ++ [cs].flatMap chanBytes ++ rest)) q) := by
  refine indexed_start L E junk fuel d hd 1 (by decide) _ hs cur hdepth hmode hch hcol (fun _ hb => ?_) (fun t ht' => ?_)
  · have := congrArg List.length hb
    have := hd.height.1
    simp only [List.length_append, List.length_nil] at *
    omega
  · exact packed_data L junk fuel hf ht' d.width d.height 1 IL_COLOUR_INDEX 2 1 hd.width.1 hd.height.1 (.inl rfl) (by rw [Nat.mul_one]; exact hfit) (by rw [ht, Nat.mul_one]) rfl
      (fun c hc => by rw [List.mem_singleton.mp hc]; exact hcs)

end DevIL.Psd
