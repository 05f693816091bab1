import Verif.Lemmas.Sun
/-! Lemmas for Sun raster files: whole files, any bytes, bits. -/
set_option autoImplicit false
namespace DevIL.Sun
open DevIL.Games DevIL.Detect DevIL.DetectSpec DevIL.GamesSpec DevIL.SunSpec

variable {σ : Type} {o : Ops σ} {At : σ → List UInt8 → Nat → Prop}

/-- What follows the header. -/
def body (o : Ops σ) (junk : Nat → UInt8) (file : Bool) (fuel : Nat) (cur : Loaded) (w h d t mt ml : Nat) (s : σ) : C (Bool × Loaded × σ) :=
  if d = 1 then load1 o junk file w h ml cur s
  else if d = 8 then load8 o junk fuel w h t mt ml s
  else if d = 24 then load24 o junk fuel w h t ml s
  else load32 o junk w h t ml s

theorem load_spec (L : Laws2 o At) (junk : Nat → UInt8) (file : Bool) (fuel : Nat) (cur : Loaded) {s : σ} {bs : List UInt8} (hs : At s bs 0)
    {w h d t mt ml : Nat} (H : Head bs w h d t mt ml) (hd : d = 1 ∨ d = 8 ∨ d = 24 ∨ d = 32) (ht : d = 1 ∨ d = 32 → t ≠ 2) {Q : Bool × Loaded × σ → Prop}
    (hQ : ∀ u, At u bs 32 → Holds (body o junk file fuel cur w h d t mt ml u) Q) : Holds (iLoadSunInternal o junk file fuel cur s) Q := by
  unfold iLoadSunInternal
  refine (sun_head L junk hs H.len).bind (fun r hr => ?_)
  obtain ⟨g, u⟩ := r
  obtain ⟨hat, e0, e1, e2, e3, e5, e6, e7⟩ := hr
  simp only at hat e0 e1 e2 e3 e5 e6 e7 ⊢
  rw [H.magic] at e0; rw [H.width] at e1; rw [H.height] at e2; rw [H.depth] at e3; rw [H.type] at e5; rw [H.mapType] at e6; rw [H.mapLen] at e7
  have hw := H.w0
  have hh := H.h0
  have h3 := H.type3
  have hm := H.map
  have hc : iCheckSun g = true := by
    unfold iCheckSun
    rw [e0, e1, e2, e3, e5, e6, e7]
    have a1 : (w == 0) = false := by simp; omega
    have a2 : (h == 0) = false := by simp; omega
    have a3 : (d != 1 && d != 8 && d != 24 && d != 32) = false := by rcases hd with rfl | rfl | rfl | rfl <;> rfl
    have a4 : decide (t > 3) = false := by simp; omega
    have a5 : decide (mt > 1) = false := by simp; omega
    have a6 : (decide (mt > 0) && ml == 0) = false := by
      rcases hm with ⟨rfl, rfl⟩ | ⟨rfl, h⟩
      · rfl
      · have : (ml == 0) = false := by simp; omega
        rw [this, Bool.and_false]
    have a7 : ((d == 1 || d == 32) && t == 2) = false := by
      by_cases h : d = 1 ∨ d = 32
      · have := ht h
        have : (t == 2) = false := by simpa using this
        rw [this, Bool.and_false]
      · have : (d == 1 || d == 32) = false := by
          rw [not_or] at h
          simp [h.1, h.2]
        rw [this, Bool.false_and]
    simp [a1, a2, a3, a4, a5, a6, a7]
  rw [hc, e1, e2, e3, e5, e6, e7]
  exact hQ u hat

/-- All bytes of the rows are there. -/
theorem rows_there {n h base len : Nat} (hall : base + (h - 1) * even n + n ≤ len) (y : Nat) (hy : y < h) : base + y * even n + n ≤ len := by
  have := Nat.mul_le_mul_right (even n) (show y ≤ h - 1 by omega)
  omega

theorem rows_raw (L : Laws2 o At) {bs : List UInt8} (m : Img) {n h fuel base type : Nat} {s : σ} (hs : At s bs base) (ht : type ≠ 2)
    (hm : m.height = h) (hb : m.bps = n) (hd : m.data.length = h * n) (hlt : h * n < 4294967296) (hall : base + (h - 1) * even n + n ≤ bs.length) :
    Holds (rows o fuel type n m s) (fun r => Done n (h * n) (fun y j => bs[base + y * even n + j]?) h r.1 ∧ ∃ q, At r.2 bs q) := by
  unfold rows
  rw [hm, hb, if_pos ht]
  exact raw_rows L hs hd hlt (rows_there hall)

theorem rows_rle (L : Laws2 o At) {bs : List UInt8} (m : Img) {n h w fuel p : Nat} {s : σ} (hs : At s bs p) (rs : List (List Part × UInt8)) (hlen : rs.length = h)
    (hm : m.height = h) (hb : m.bps = n) (hd : m.data.length = h * n) (hlt : h * n < 4294967296) (hok : ∀ r ∈ rs, ∀ k ∈ r.1, k.Ok)
    (hpx : ∀ r ∈ rs, (r.1.flatMap Part.pixels).length = n) (hn : Next bs p (rs.flatMap (packed n))) (hf : n < fuel) :
    Holds (rows o fuel 2 w m s) (fun r => Done n (h * n) (fun y j => (rs[y]?.bind (fun r => (r.1.flatMap Part.pixels)[j]?))) h r.1 ∧ ∃ q, At r.2 bs q) := by
  unfold rows
  rw [hm, hb, if_neg (by decide)]
  exact rle_rows L rs hlen hs hd hlt hok hpx hn hf

theorem raw8_spec (L : Laws2 o At) (junk : Nat → UInt8) (file : Bool) (fuel : Nat) (cur : Loaded) {s : σ} {bs : List UInt8} (hs : At s bs 0)
    {w h t : Nat} (H : Head bs w h 8 t 0 0) (ht : t ≠ 2) (hfit : w * h < 4294967296) (hall : 32 + (h - 1) * even w + w ≤ bs.length) :
    Holds (iLoadSunInternal o junk file fuel cur s) (fun r => (r.1 = true ∧ r.2.1.2 = none ∧
      Shows r.2.1.1 w h 1 IL_LUMINANCE (fun x y _ => bs[32 + y * even w + x]?)) ∧ ∃ q, At r.2.2 bs q) := by
  refine load_spec L junk file fuel cur hs H (by decide) (by omega) (fun u hu => ?_)
  have hw := H.w0
  have hh := H.h0
  obtain ⟨g1, g2, g3, g4, g5⟩ := tex_row junk w h 1 IL_LUMINANCE hw hh (by decide) (by omega)
  show Holds (load8 o junk fuel w h t 0 0 u) _
  unfold load8
  rw [if_pos rfl]
  rw [Nat.mul_one] at g3 g4 g5
  refine (rows_raw L _ (n := w) (h := h) hu ht g1 g3 g4 (by omega) hall).bind (fun r hr => Holds.pure ⟨⟨rfl, rfl, ?_⟩, hr.2⟩)
  have sh := shows_rows junk w h 1 IL_LUMINANCE hw hh (by decide) (by omega) r.1 _ (by rw [Nat.mul_one]; exact hr.1)
  refine { sh with px := fun x y c hx hy hc => ?_ }
  have hp := sh.px x y c hx hy hc
  rw [show x * 1 + c = x by omega] at hp
  exact hp

theorem raw24_spec (L : Laws2 o At) (junk : Nat → UInt8) (file : Bool) (fuel : Nat) (cur : Loaded) {s : σ} {bs : List UInt8} (hs : At s bs 0)
    {w h t mt ml : Nat} (H : Head bs w h 24 t mt ml) (ht : t ≠ 2) (hfit : w * h * 3 < 4294967296) (hall : 32 + ml + (h - 1) * even (w * 3) + w * 3 ≤ bs.length) :
    Holds (iLoadSunInternal o junk file fuel cur s) (fun r => (r.1 = true ∧ r.2.1.2 = none ∧
      Shows r.2.1.1 w h 3 (order t) (fun x y c => bs[32 + ml + y * even (w * 3) + (x * 3 + c)]?)) ∧ ∃ q, At r.2.2 bs q) := by
  refine load_spec L junk file fuel cur hs H (by decide) (by omega) (fun u hu => ?_)
  have hw := H.w0
  have hh := H.h0
  obtain ⟨g1, g2, g3, g4, g5⟩ := tex_row junk w h 3 (rgbOf t) hw hh (by decide) (by omega)
  show Holds (load24 o junk fuel w h t ml u) _
  unfold load24
  refine (skip_spec L (n := ml) hu (by omega)).bind (fun v hv => ?_)
  dsimp only
  refine (rows_raw L _ (n := w * 3) (h := h) hv ht g1 g3 g4 (by omega) hall).bind (fun r hr => Holds.pure ⟨⟨rfl, rfl, ?_⟩, hr.2⟩)
  exact shows_rows junk w h 3 (order t) hw hh (by decide) (by omega) r.1 _ hr.1

theorem map8_spec (L : Laws2 o At) (junk : Nat → UInt8) (file : Bool) (fuel : Nat) (cur : Loaded) {s : σ} {bs : List UInt8} (hs : At s bs 0)
    {w h t ml : Nat} (H : Head bs w h 8 t 1 ml) (ht : t ≠ 2) (hfit : w * h < 4294967296) (hall : 32 + ml + (h - 1) * even w + w ≤ bs.length) :
    Holds (iLoadSunInternal o junk file fuel cur s) (fun r => (r.1 = true ∧ HasPal r.2.1.2 (at_ bs 32 ml) IL_PAL_RGB24 ∧
      Shows r.2.1.1 w h 1 IL_COLOUR_INDEX (fun x y _ => bs[32 + ml + y * even w + x]?)) ∧ ∃ q, At r.2.2 bs q) := by
  refine load_spec L junk file fuel cur hs H (by decide) (by omega) (fun u hu => ?_)
  have hw := H.w0
  have hh := H.h0
  have hl := L.len hs
  obtain ⟨g1, g2, g3, g4, g5⟩ := tex_row junk w h 1 IL_COLOUR_INDEX hw hh (by decide) (by omega)
  show Holds (load8 o junk fuel w h t 1 ml u) _
  unfold load8
  rw [if_neg (by decide)]
  refine (into_full L (alloc junk ml) 1 ml hu (by decide) (by omega) (by rw [alloc_length, Nat.one_mul]) (by omega)).bind (fun a ha => ?_)
  obtain ⟨n, p, v⟩ := a
  obtain ⟨rfl, e, hv⟩ := ha
  rw [Nat.one_mul] at e hv
  dsimp only at e hv ⊢
  rw [if_neg (by simp)]
  rw [Nat.mul_one] at g3 g4 g5
  refine (rows_raw L _ (n := w) (h := h) hv ht g1 g3 g4 (by omega) hall).bind (fun r hr => Holds.pure ⟨⟨rfl, ?_, ?_⟩, hr.2⟩)
  · unfold HasPal
    rw [e, at_length, Nat.min_eq_left (by omega)]
  · have sh := shows_rows junk w h 1 IL_COLOUR_INDEX hw hh (by decide) (by omega) r.1 _ (by rw [Nat.mul_one]; exact hr.1)
    refine { sh with px := fun x y c hx hy hc => ?_ }
    have hp := sh.px x y c hx hy hc
    rw [show x * 1 + c = x by omega] at hp
    exact hp

theorem rle8_spec (L : Laws2 o At) (junk : Nat → UInt8) (file : Bool) (fuel : Nat) (cur : Loaded) {s : σ} {bs : List UInt8} (hs : At s bs 0)
    {w h : Nat} (H : Head bs w h 8 2 0 0) (hfit : w * h < 4294967296) (hf : w < fuel) (rs : List (List Part × UInt8)) (hlen : rs.length = h)
    (hok : ∀ r ∈ rs, ∀ k ∈ r.1, k.Ok) (hpx : ∀ r ∈ rs, (r.1.flatMap Part.pixels).length = w) (hn : Next bs 32 (rs.flatMap (packed w))) :
    Holds (iLoadSunInternal o junk file fuel cur s) (fun r => (r.1 = true ∧ r.2.1.2 = none ∧
      Shows r.2.1.1 w h 1 IL_LUMINANCE (fun x y _ => rs[y]?.bind (fun r => (r.1.flatMap Part.pixels)[x]?))) ∧ ∃ q, At r.2.2 bs q) := by
  refine load_spec L junk file fuel cur hs H (by decide) (by omega) (fun u hu => ?_)
  have hw := H.w0
  have hh := H.h0
  obtain ⟨g1, g2, g3, g4, g5⟩ := tex_row junk w h 1 IL_LUMINANCE hw hh (by decide) (by omega)
  show Holds (load8 o junk fuel w h 2 0 0 u) _
  unfold load8
  rw [if_pos rfl]
  rw [Nat.mul_one] at g3 g4 g5
  refine (rows_rle L _ (n := w) (h := h) hu rs hlen g1 g3 g4 (by omega) hok hpx hn hf).bind (fun r hr => Holds.pure ⟨⟨rfl, rfl, ?_⟩, hr.2⟩)
  have sh := shows_rows junk w h 1 IL_LUMINANCE hw hh (by decide) (by omega) r.1 _ (by rw [Nat.mul_one]; exact hr.1)
  refine { sh with px := fun x y c hx hy hc => ?_ }
  have hp := sh.px x y c hx hy hc
  rw [show x * 1 + c = x by omega] at hp
  exact hp

theorem rle24_spec (L : Laws2 o At) (junk : Nat → UInt8) (file : Bool) (fuel : Nat) (cur : Loaded) {s : σ} {bs : List UInt8} (hs : At s bs 0)
    {w h mt ml : Nat} (H : Head bs w h 24 2 mt ml) (hfit : w * h * 3 < 4294967296) (hf : w * 3 < fuel) (rs : List (List Part × UInt8)) (hlen : rs.length = h)
    (hok : ∀ r ∈ rs, ∀ k ∈ r.1, k.Ok) (hpx : ∀ r ∈ rs, (r.1.flatMap Part.pixels).length = w * 3) (hml : 32 + ml ≤ bs.length)
    (hn : Next bs (32 + ml) (rs.flatMap (packed (w * 3)))) :
    Holds (iLoadSunInternal o junk file fuel cur s) (fun r => (r.1 = true ∧ r.2.1.2 = none ∧
      Shows r.2.1.1 w h 3 IL_BGR (fun x y c => rs[y]?.bind (fun r => (r.1.flatMap Part.pixels)[x * 3 + c]?))) ∧ ∃ q, At r.2.2 bs q) := by
  refine load_spec L junk file fuel cur hs H (by decide) (by omega) (fun u hu => ?_)
  have hw := H.w0
  have hh := H.h0
  obtain ⟨g1, g2, g3, g4, g5⟩ := tex_row junk w h 3 (rgbOf 2) hw hh (by decide) (by omega)
  show Holds (load24 o junk fuel w h 2 ml u) _
  unfold load24
  refine (skip_spec L (n := ml) hu (by omega)).bind (fun v hv => ?_)
  dsimp only
  refine (rows_rle L _ (n := w * 3) (h := h) hv rs hlen g1 g3 g4 (by omega) hok hpx hn hf).bind (fun r hr => Holds.pure ⟨⟨rfl, rfl, ?_⟩, hr.2⟩)
  exact shows_rows junk w h 3 IL_BGR hw hh (by decide) (by omega) r.1 _ hr.1

/-! ### Any bytes -/

/-- Reading a byte at the end: a file stays, a lump goes back by one. -/
structure Laws3 (o : Ops σ) (At : σ → List UInt8 → Nat → Prop) (back : Bool) : Prop extends Laws2 o At where
  getcStop : ∀ {s all p}, At s all p → all.length ≤ p → Holds (o.getc s) (fun r => r.1 = none ∧ (back = false → At r.2 all p) ∧
    (back = true → p = all.length ∧ At r.2 all (p - 1)))

theorem fileLaws3 : Laws3 fileOps FileAt false where
  toLaws2 := fileLaws2
  getcStop := by
    rintro s all p ⟨rfl, hst, rfl, hl⟩ hp
    refine Holds.pure ?_
    unfold Cache.fgetc
    rw [List.getElem?_eq_none hp]
    exact ⟨rfl, fun _ => ⟨rfl, hst, rfl, hl⟩, fun h => by cases h⟩

theorem lumpLaws3 : Laws3 lumpOps LumpAt true where
  toLaws2 := lumpLaws2
  getcStop := by
    rintro l all p ⟨hg, rfl, rfl, hl⟩ hp
    have := hg.pos
    have hs := hg.size
    refine ⟨_, Lump.getc_end hg (by omega), rfl, ⟨fun (h : true = false) => absurd h (by decide), fun _ => ⟨by omega, ⟨hg.size, Nat.sub_le _ _, hg.lt, hg.ne⟩, rfl, ?_, hl⟩⟩⟩
    show l.size - 1 = l.pos - 1
    omega

variable {back : Bool}

theorem getb_any (L : Laws3 o At back) {s : σ} {bs : List UInt8} {p : Nat} (h : At s bs p) :
    Holds (getb o s) (fun r => (p < bs.length → some r.1 = bs[p]? ∧ At r.2 bs (p + 1)) ∧ (bs.length ≤ p → r.1 = 255) ∧ ∃ q, At r.2 bs q) := by
  rcases Nat.lt_or_ge p bs.length with hp | hp
  · refine (getb_full L.toLaws h (List.getElem?_eq_getElem hp)).mono (fun r hr => ⟨fun _ => ⟨?_, hr.2⟩, fun h => absurd h (by omega), _, hr.2⟩)
    rw [hr.1, List.getElem?_eq_getElem hp]
  · refine (L.getcEnd h hp).bind (fun r hr => ?_)
    obtain ⟨c, u⟩ := r
    obtain ⟨rfl, q, -, hq⟩ := hr
    exact Holds.pure ⟨fun h => absurd h (by omega), fun _ => rfl, q, hq⟩

theorem rleStep_any (L : Laws3 o At back) {bs : List UInt8} (h0 : 0 < bs.length) {length N p : Nat} (t : Rle σ) (hat : At t.inp bs p) (hN : t.data.length = N)
    (hi : t.i < length) (ho : t.off + (length - t.i) ≤ N) :
    Holds (rleStep o length t) (fun r => r.data.length = N ∧ (r.i < length → r.off + (length - r.i) ≤ N) ∧
      ∃ q, At r.inp bs q ∧ (t.i < r.i ∨ (r.i = t.i ∧ p < bs.length ∧ bs.length ≤ q))) := by
  unfold rleStep
  refine (getb_any L hat).bind (fun a ha => ?_)
  obtain ⟨flag, s1⟩ := a
  obtain ⟨a1, a2, a3⟩ := ha
  dsimp only at a1 a2 a3 ⊢
  refine Holds.ite (fun hc => ?_) (fun hc => ?_)
  · subst hc
    have hp : p < bs.length := by
      rcases Nat.lt_or_ge p bs.length with h | h
      · exact h
      · exact absurd (a2 h) (by decide)
    have hs1 := (a1 hp).2
    rcases Nat.lt_or_ge (p + 1) bs.length with hp1 | hp1
    · refine (getc_full L.toLaws hs1 (List.getElem?_eq_getElem hp1)).bind (fun b hb => ?_)
      obtain ⟨c, s2⟩ := b
      obtain ⟨rfl, hs2⟩ := hb
      dsimp only at hs2 ⊢
      generalize bs[p + 1] = n
      have hn := n.toNat_lt
      refine Holds.ite (fun hz => ?_) (fun hz => ?_)
      · rw [wr_splice (by omega), bind_ok]
        refine Holds.pure ⟨by rw [splice_length (by simp; omega), hN], fun h => ?_, _, hs2, .inl (by show t.i < t.i + 1; omega)⟩
        change t.i + 1 < length at h
        show t.off + 1 + (length - (t.i + 1)) ≤ N
        omega
      · refine (getb_any L hs2).bind (fun b hb => ?_)
        obtain ⟨v, s3⟩ := b
        obtain ⟨-, -, q, hq⟩ := hb
        dsimp only at hq ⊢
        rw [u32_of_lt (by omega), run_loop _ _ _ _ (by omega), bind_ok]
        refine Holds.pure ⟨by simp; omega, fun h => ?_, q, hq, .inl (by show t.i < t.i + (n.toNat + 1); omega)⟩
        change t.i + (n.toNat + 1) < length at h
        show t.off + min (n.toNat + 1) (length - t.i) + (length - (t.i + (n.toNat + 1))) ≤ N
        omega
    · refine (L.getcStop hs1 hp1).bind (fun b hb => ?_)
      obtain ⟨c, s2⟩ := b
      obtain ⟨rfl, b1, b2⟩ := hb
      dsimp only at b1 b2 ⊢
      rw [if_neg (by decide)]
      have key : Holds (getb o s2) (fun r => ∃ q, At r.2 bs q ∧ bs.length ≤ q) := by
        cases back with
        | true =>
          obtain ⟨e, hb⟩ := b2 rfl
          refine (getb_any L hb).mono (fun r hr => ⟨_, (hr.1 (by omega)).2, by omega⟩)
        | false =>
          refine (L.getcStop (b1 rfl) hp1).bind (fun r hr => ?_)
          obtain ⟨c, u⟩ := r
          exact Holds.pure ⟨_, hr.2.1 rfl, hp1⟩
      refine key.bind (fun b hb => ?_)
      obtain ⟨v, s3⟩ := b
      obtain ⟨q, hq, hq2⟩ := hb
      dsimp only at hq ⊢
      rw [show u32 (4294967295 + 1) = 0 from rfl, Nat.zero_min, show loopN 0 (fun j d => wr d (t.off + j) v) t.data = .ok t.data from rfl, bind_ok]
      exact Holds.pure ⟨hN, fun _ => by show t.off + 0 + (length - (t.i + 0)) ≤ N; omega, q, hq, .inr ⟨rfl, hp, hq2⟩⟩
  · rw [wr_splice (by omega), bind_ok]
    obtain ⟨q, hq⟩ := a3
    refine Holds.pure ⟨by rw [splice_length (by simp; omega), hN], fun h => ?_, q, hq, .inl (by show t.i < t.i + 1; omega)⟩
    change t.i + 1 < length at h
    show t.off + 1 + (length - (t.i + 1)) ≤ N
    omega

theorem rle_any (L : Laws3 o At back) {bs : List UInt8} (h0 : 0 < bs.length) {length N : Nat} (fuel : Nat) : ∀ (t : Rle σ) (p : Nat), At t.inp bs p →
    t.data.length = N → (t.i < length → t.off + (length - t.i) ≤ N) → 2 * (length - t.i) + (if p < bs.length then 1 else 0) < fuel →
    Holds (whileF (fun r : Rle σ => decide (r.i < length)) (rleStep o length) fuel t) (fun r => r.data.length = N ∧ ∃ q, At r.inp bs q) := by
  induction fuel with
  | zero => intro _ _ _ _ _ h; omega
  | succ fuel ih =>
    intro t p hat hN ho hf
    unfold whileF
    refine Holds.ite (fun hc => ?_) (fun hc => Holds.ok ⟨hN, p, hat⟩)
    have hi : t.i < length := by simpa using hc
    refine (rleStep_any L h0 t hat hN hi (ho hi)).bind (fun r hr => ?_)
    obtain ⟨h1, h2, q, h3, h4⟩ := hr
    refine ih r q h3 h1 h2 ?_
    rcases h4 with h4 | ⟨h4, h5, h6⟩
    · have : (if q < bs.length then 1 else 0) ≤ 1 := by split <;> omega
      have : r.i ≤ length ∨ length < r.i := by omega
      omega
    · rw [if_pos h5] at hf
      rw [if_neg (by omega)]
      omega

theorem rle_rows_any (L : Laws3 o At back) {bs : List UInt8} (h0 : 0 < bs.length) {n h fuel p : Nat} {d : List UInt8} {s : σ} (hs : At s bs p)
    (hd : d.length = h * n) (hlt : h * n < 4294967296) (hf : 2 * n + 1 < fuel) :
    Holds (loopN h (fun i t => rleRow o fuel n i t) (d, s)) (fun r => r.1.length = h * n ∧ ∃ q, At r.2 bs q) := by
  refine Holds.loop (fun _ t => t.1.length = h * n ∧ ∃ q, At t.2 bs q) (n := h) (s := (d, s)) ⟨hd, _, hs⟩ (fun k t hk hi => ?_)
  obtain ⟨h1, q, hq⟩ := hi
  have hft := row_fit (n := n) hk
  unfold rleRow
  rw [Nat.mul_comm n k, u32_of_lt (by omega)]
  have hle : (if q < bs.length then 1 else 0) ≤ 1 := by split <;> omega
  refine (rle_any L h0 (length := n) (N := h * n) fuel ⟨0, k * n, t.1, t.2⟩ q hq h1 (fun _ => by show k * n + (n - 0) ≤ h * n; omega)
    (by show 2 * (n - 0) + _ < fuel; omega)).bind (fun r hr => ?_)
  obtain ⟨r1, p2, r2⟩ := hr
  refine Holds.ite (fun _ => ?_) (fun _ => Holds.pure ⟨r1, _, r2⟩)
  exact (L.getc r2).bind (fun u hu => Holds.pure ⟨r1, hu.1⟩)

theorem rows_any (L : Laws3 o At back) {bs : List UInt8} (h0 : 0 < bs.length) (m : Img) {n h fuel p type : Nat} {s : σ} (hs : At s bs p)
    (hm : m.height = h) (hb : m.bps = n) (hd : m.data.length = h * n) (hlt : h * n < 4294967296) (hf : 2 * n + 1 < fuel) :
    Holds (rows o fuel type n m s) (fun r => r.1.length = h * n ∧ ∃ q, At r.2 bs q) := by
  unfold rows
  rw [hm, hb]
  exact Holds.ite (fun _ => raw_rows_any L.toLaws2 hs hd hlt) (fun _ => rle_rows_any L h0 hs hd hlt hf)

/-! ### Bits -/

/-- `m` bits from `base` on have been read. -/
def BitsAt (At : σ → List UInt8 → Nat → Prop) (bs : List UInt8) (base m : Nat) (b : Bits σ) : Prop :=
  (m % 8 = 0 ∧ (b.bit < 0 ∨ 7 < b.bit) ∧ At b.inp bs (base + m / 8)) ∨
  (0 < m % 8 ∧ b.bit = 7 - (m % 8 : Nat) ∧ bs[base + m / 8]? = some b.buff ∧ At b.inp bs (base + m / 8 + 1))

theorem BitsAt.next {bs : List UInt8} {base m : Nat} {s : σ} {v : UInt8} (hv : bs[base + m / 8]? = some v) (hs : At s bs (base + m / 8 + 1)) :
    BitsAt At bs base (m + 1) ⟨v, 7 - (m % 8 : Nat) - 1, s⟩ := by
  by_cases h : m % 8 = 7
  · refine .inl ⟨by omega, .inl (by show (7 : Int) - (m % 8 : Nat) - 1 < 0; omega), ?_⟩
    rw [show base + (m + 1) / 8 = base + m / 8 + 1 by omega]
    exact hs
  · have e : (m + 1) / 8 = m / 8 := by omega
    refine .inr ⟨by omega, by show (7 : Int) - (m % 8 : Nat) - 1 = 7 - ((m + 1) % 8 : Nat); omega, by rw [e]; exact hv, by rw [e]; exact hs⟩

theorem breadStep_spec (L : Laws2 o At) {bs : List UInt8} {base m off k : Nat} {t : Bread σ} (he : t.ended = false) (hb : BitsAt At bs base m t.bits)
    (hin : base + m / 8 < bs.length) (hfit : off + k < t.data.length) :
    Holds (breadStep o off k t) (fun r => r.ended = false ∧ BitsAt At bs base (m + 1) r.bits ∧ ∃ v, bitAt bs base m = some v ∧ r.data = splice t.data (off + k) [v]) := by
  unfold breadStep
  rw [he]
  simp only [Bool.false_eq_true, if_false]
  have key : Holds (if t.bits.bit < 0 ∨ 7 < t.bits.bit then do
        let (g, _, s) ← o.read t.bits.inp 1 1
        match g with
        | [] => pure (true, ({ t.bits with bit := 7, inp := s } : Bits σ))
        | v :: _ => pure (false, (⟨v, 7, s⟩ : Bits σ))
      else pure (false, t.bits) : C (Bool × Bits σ)) (fun r => r.1 = false ∧ r.2.bit = 7 - (m % 8 : Nat) ∧ bs[base + m / 8]? = some r.2.buff ∧ At r.2.inp bs (base + m / 8 + 1)) := by
    rcases hb with ⟨h1, h2, h3⟩ | ⟨h1, h2, h3, h4⟩
    · rw [if_pos h2]
      refine (L.read 1 1 h3 (by decide) (by decide)).bind (fun r hr => ?_)
      obtain ⟨g, n, u⟩ := r
      obtain ⟨e1, -, e3⟩ := hr
      dsimp only at e1 e3 ⊢
      have hg : g = [bs[base + m / 8]] := by
        rw [e1]
        unfold at_
        rw [List.drop_eq_getElem_cons hin]
        rfl
      subst hg
      refine Holds.pure ⟨rfl, ?_, List.getElem?_eq_getElem hin, by rw [e1, at_length] at e3; rw [show base + m / 8 + 1 = base + m / 8 + min (1 * 1) (bs.length - (base + m / 8)) by omega]; exact e3⟩
      show (7 : Int) = 7 - (m % 8 : Nat)
      omega
    · rw [if_neg (by omega)]
      exact Holds.pure ⟨rfl, h2, h3, h4⟩
  refine key.bind (fun r hr => ?_)
  obtain ⟨e, ⟨bf, bt, u⟩⟩ := r
  obtain ⟨h1, h2, h3, h4⟩ := hr
  simp only at h1 h2 h3 h4 ⊢
  subst h1
  subst h2
  simp only [Bool.false_eq_true, if_false]
  rw [wr_splice hfit, bind_ok]
  refine Holds.pure ⟨rfl, BitsAt.next h3 h4, _, ?_, rfl⟩
  unfold bitAt
  rw [h3]
  have : ((7 : Int) - (m % 8 : Nat)).toNat = 7 - m % 8 := by omega
  rw [this]
  rfl

theorem bread_spec (L : Laws2 o At) {bs : List UInt8} {base m n off : Nat} {b : Bits σ} {d : List UInt8} (hb : BitsAt At bs base m b)
    (hin : 0 < n → base + (m + n - 1) / 8 < bs.length) (hfit : off + n ≤ d.length) :
    Holds (bread o d off n b) (fun r => BitsAt At bs base (m + n) r.2 ∧ ∃ g : List UInt8, g.length = n ∧ (∀ j, j < n → g[j]? = bitAt bs base (m + j)) ∧ r.1 = splice d off g) := by
  unfold bread
  refine (Holds.loop (fun k (t : Bread σ) => t.ended = false ∧ BitsAt At bs base (m + k) t.bits ∧
    ∃ g : List UInt8, g.length = k ∧ (∀ j, j < k → g[j]? = bitAt bs base (m + j)) ∧ t.data = splice d off g) (n := n) (s := (⟨false, d, b⟩ : Bread σ))
    ⟨rfl, hb, [], rfl, fun j h => absurd h (by omega), by simp⟩ (fun k t hk hi => ?_)).bind (fun r hr => Holds.pure hr.2)
  obtain ⟨h1, h2, g, h3, h4, h5⟩ := hi
  have hl : t.data.length = d.length := by rw [h5, splice_length (by omega)]
  have := hin (by omega)
  have : (m + k) / 8 ≤ (m + n - 1) / 8 := Nat.div_le_div_right (by omega)
  refine (breadStep_spec L h1 h2 (by omega) (by omega)).mono (fun r hr => ?_)
  obtain ⟨r1, r2, v, r3, r4⟩ := hr
  refine ⟨r1, r2, g ++ [v], by simp [h3], fun j hj => ?_, ?_⟩
  · by_cases e : j = k
    · subst e
      rw [List.getElem?_append_right (by omega), h3, r3]
      simp
    · rw [List.getElem?_append_left (by omega)]
      exact h4 j (by omega)
  · rw [r4, h5]
    have := splice_splice (d := d) (o := g) (o' := [v]) (q := off) (by omega)
    rw [h3] at this
    exact this

theorem bitRow_spec (L : Laws2 o At) (junk : Nat → UInt8) {bs : List UInt8} {base w i N : Nat} {t : List UInt8 × Bits σ} {f : Nat → Nat → Option UInt8}
    (hw : 0 < w) (hb : BitsAt At bs base (i * (SunSpec.bitRow w * 8)) t.2) (hin : base + (i + 1) * SunSpec.bitRow w ≤ bs.length) (hd : Done w N f i t.1)
    (hf : ∀ j, j < w → bitAt bs (base + i * SunSpec.bitRow w) j = f i j) (hfit : i * w + w ≤ N) (hN : N < 4294967296) :
    Holds (bitRow o junk w i t) (fun r => Done w N f (i + 1) r.1 ∧ BitsAt At bs base ((i + 1) * (SunSpec.bitRow w * 8)) r.2) := by
  have hl := hd.1
  have hbr : SunSpec.bitRow w * 8 = w + (16 - w % 16) % 16 := by unfold SunSpec.bitRow; omega
  have e0 : i * (SunSpec.bitRow w * 8) = i * SunSpec.bitRow w * 8 := by rw [Nat.mul_assoc]
  rw [Nat.add_mul, Nat.one_mul] at hin
  generalize i * SunSpec.bitRow w = q at *
  rw [e0] at hb
  unfold bitRow
  rw [Nat.mul_comm w i, u32_of_lt (by omega)]
  refine (bread_spec L hb (fun _ => by omega) (by omega)).bind (fun r hr => ?_)
  obtain ⟨d, b⟩ := r
  obtain ⟨h1, g, h2, h3, h4⟩ := hr
  dsimp only at h1 h4 ⊢
  refine (bread_spec L (d := alloc junk 16) (off := 0) (n := (16 - w % 16) % 16) h1 (fun _ => by omega) (by rw [alloc_length]; omega)).bind (fun r hr => ?_)
  obtain ⟨g1, -⟩ := hr
  refine Holds.pure ⟨?_, ?_⟩
  · show Done w N f (i + 1) d
    rw [h4]
    refine hd.next h2 hfit (fun j hj => ?_)
    rw [h3 j hj, ← hf j hj]
    unfold bitAt
    rw [show base + (q * 8 + j) / 8 = base + q + j / 8 by omega, show (q * 8 + j) % 8 = j % 8 by omega]
  · have : (i + 1) * (SunSpec.bitRow w * 8) = q * 8 + w + (16 - w % 16) % 16 := by rw [Nat.add_mul, e0]; omega
    rw [this]
    exact g1

theorem bits_spec (L : Laws2 o At) (junk : Nat → UInt8) (fuel : Nat) (cur : Loaded) {s : σ} {bs : List UInt8} (hs : At s bs 0)
    {w h t mt ml : Nat} (H : Head bs w h 1 t mt ml) (ht : t ≠ 2) (hml : ml = 0 ∨ ml = 6) (hfit : w * h < 4294967296) (hall : 32 + ml + h * SunSpec.bitRow w ≤ bs.length) :
    Holds (iLoadSunInternal o junk true fuel cur s) (fun r => (r.1 = true ∧
      HasPal r.2.1.2 (if ml = 0 then [0, 0, 0, 255, 255, 255] else at_ bs 32 6) IL_PAL_RGB24 ∧
      Shows r.2.1.1 w h 1 IL_COLOUR_INDEX (fun x y _ => bitAt bs (32 + ml + y * SunSpec.bitRow w) x)) ∧ ∃ q, At r.2.2 bs q) := by
  refine load_spec L junk true fuel cur hs H (by decide) (fun _ => ht) (fun u hu => ?_)
  have hw := H.w0
  have hh := H.h0
  have hl := L.len hs
  obtain ⟨g1, g2, g3, g4, g5⟩ := tex_row junk w h 1 IL_COLOUR_INDEX hw hh (by decide) (by omega)
  rw [Nat.mul_one] at g4 g5
  show Holds (load1 o junk true w h ml cur u) _
  unfold load1
  simp only [Bool.not_true, Bool.false_eq_true, if_false]
  rw [if_neg (by omega)]
  have key : Holds (if ml = 0 then pure ([0, 0, 0, 255, 255, 255], u) else do
        let (_, p, s) ← into o u (alloc junk 6) 1 6
        pure (p, s) : C (List UInt8 × σ)) (fun r => r.1 = (if ml = 0 then [0, 0, 0, 255, 255, 255] else at_ bs 32 6) ∧ At r.2 bs (32 + ml)) := by
    rcases hml with rfl | rfl
    · exact Holds.pure ⟨rfl, hu⟩
    · rw [if_neg (by decide)]
      refine (into_full L (alloc junk 6) 1 6 hu (by decide) (by decide) (by rw [alloc_length]) (by omega)).bind (fun a ha => Holds.pure ⟨?_, ha.2.2⟩)
      exact ha.2.1
  refine key.bind (fun r hr => ?_)
  obtain ⟨p, v⟩ := r
  obtain ⟨e, hv⟩ := hr
  simp only at e hv ⊢
  have lp : Holds (loopN (tex junk w h 1 IL_COLOUR_INDEX).height (bitRow o junk (tex junk w h 1 IL_COLOUR_INDEX).width) ((tex junk w h 1 IL_COLOUR_INDEX).data, ⟨0, 8, v⟩))
      (fun t => Done w (h * w) (fun y x => bitAt bs (32 + ml + y * SunSpec.bitRow w) x) h t.1 ∧ BitsAt At bs (32 + ml) (h * (SunSpec.bitRow w * 8)) t.2) := by
    rw [g1, g2]
    refine Holds.loop (fun k (t : List UInt8 × Bits σ) => Done w (h * w) (fun y x => bitAt bs (32 + ml + y * SunSpec.bitRow w) x) k t.1 ∧
      BitsAt At bs (32 + ml) (k * (SunSpec.bitRow w * 8)) t.2) (n := h) ⟨⟨g4, fun _ _ h => absurd h (by omega)⟩,
      .inl ⟨by simp, .inr (by show (7 : Int) < 8; decide), by simpa using hv⟩⟩ (fun k t hk hi => ?_)
    have := Nat.mul_le_mul_right (SunSpec.bitRow w) (show k + 1 ≤ h by omega)
    exact bitRow_spec L junk hw hi.2 (by omega) hi.1 (fun _ _ => rfl) (row_fit hk) (by omega)
  refine lp.bind (fun r hr => Holds.pure ⟨⟨rfl, ?_, ?_⟩, ?_⟩)
  · unfold HasPal
    show some _ = some _
    rw [e]
    rcases hml with rfl | rfl
    · rfl
    · rw [if_neg (by decide), at_length, Nat.min_eq_left (by omega)]
  · have sh := shows_rows junk w h 1 IL_COLOUR_INDEX hw hh (by decide) (by omega) r.1 _ (by rw [Nat.mul_one]; exact hr.1)
    refine { sh with px := fun x y c hx hy hc => ?_ }
    have hp := sh.px x y c hx hy hc
    rw [show x * 1 + c = x by omega] at hp
    exact hp
  · rcases hr.2 with ⟨-, -, h⟩ | ⟨-, -, -, h⟩ <;> exact ⟨_, h⟩

theorem breadStep_any (L : Laws2 o At) {bs : List UInt8} {off k : Nat} {t : Bread σ} (hb : ∃ q, At t.bits.inp bs q) (hfit : off + k < t.data.length) :
    Holds (breadStep o off k t) (fun r => (∃ q, At r.bits.inp bs q) ∧ r.data.length = t.data.length) := by
  unfold breadStep
  refine Holds.ite (fun _ => Holds.pure ⟨hb, rfl⟩) (fun _ => ?_)
  obtain ⟨q, hq⟩ := hb
  have key : Holds (if t.bits.bit < 0 ∨ 7 < t.bits.bit then do
        let (g, _, s) ← o.read t.bits.inp 1 1
        match g with
        | [] => pure (true, ({ t.bits with bit := 7, inp := s } : Bits σ))
        | v :: _ => pure (false, (⟨v, 7, s⟩ : Bits σ))
      else pure (false, t.bits) : C (Bool × Bits σ)) (fun r => ∃ q, At r.2.inp bs q) := by
    refine Holds.ite (fun _ => ?_) (fun _ => Holds.pure ⟨q, hq⟩)
    refine (L.read 1 1 hq (by decide) (by decide)).bind (fun r hr => ?_)
    obtain ⟨g, n, u⟩ := r
    cases g with
    | nil => exact Holds.pure ⟨_, hr.2.2⟩
    | cons v g => exact Holds.pure ⟨_, hr.2.2⟩
  refine key.bind (fun r hr => ?_)
  obtain ⟨e, b⟩ := r
  refine Holds.ite (fun _ => Holds.pure ⟨hr, rfl⟩) (fun _ => ?_)
  rw [wr_splice hfit, bind_ok]
  exact Holds.pure ⟨hr, splice_length (by simp; omega)⟩

theorem bread_any (L : Laws2 o At) {bs : List UInt8} {n off : Nat} {b : Bits σ} {d : List UInt8} (hb : ∃ q, At b.inp bs q) (hfit : off + n ≤ d.length) :
    Holds (bread o d off n b) (fun r => (∃ q, At r.2.inp bs q) ∧ r.1.length = d.length) := by
  unfold bread
  refine (Holds.loop (fun _ (t : Bread σ) => (∃ q, At t.bits.inp bs q) ∧ t.data.length = d.length) (n := n) (s := (⟨false, d, b⟩ : Bread σ)) ⟨hb, rfl⟩
    (fun k t hk hi => ?_)).bind (fun r hr => Holds.pure hr)
  refine (breadStep_any L hi.1 (by omega)).mono (fun r hr => ⟨hr.1, by omega⟩)

/-! ### Every picture -/

/-- The block and the palette have the sizes the image reports. -/
def Sized (r : Loaded) : Prop := r.1.data.length = r.1.size ∧ ∀ p, r.2 = some p → p.type = IL_PAL_RGB24 → p.data.length = p.size

theorem load1_any (L : Laws2 o At) (junk : Nat → UInt8) (file : Bool) (cur : Loaded) {s : σ} {bs : List UInt8} {p w h ml : Nat} (hs : At s bs p) (hcur : Sized cur)
    (hw : 0 < w) (hh : 0 < h) (hfit : w * h < 4294967296) : Holds (load1 o junk file w h ml cur s) (fun r => Sized r.2.1 ∧ ∃ q, At r.2.2 bs q) := by
  unfold load1
  obtain ⟨g1, g2, g3, g4, g5⟩ := tex_row junk w h 1 IL_COLOUR_INDEX hw hh (by decide) (by omega)
  have gl := tex_len junk w h 1 IL_COLOUR_INDEX
  rw [Nat.mul_one] at g4 g5
  refine Holds.ite (fun _ => Holds.pure ⟨hcur, p, hs⟩) (fun _ => ?_)
  dsimp only
  refine Holds.ite (fun _ => Holds.pure ⟨⟨gl, fun _ h => by cases h⟩, p, hs⟩) (fun _ => ?_)
  have key : Holds (if ml = 0 then pure ([0, 0, 0, 255, 255, 255], s) else do
        let (_, p, s) ← into o s (alloc junk 6) 1 6
        pure (p, s) : C (List UInt8 × σ)) (fun r => r.1.length = 6 ∧ ∃ q, At r.2 bs q) := by
    refine Holds.ite (fun _ => Holds.pure ⟨rfl, p, hs⟩) (fun _ => ?_)
    exact (into_len L (alloc junk 6) 1 6 hs (by decide) (by rw [alloc_length])).bind (fun a ha => Holds.pure ⟨ha.1.trans (alloc_length _ _), ha.2⟩)
  refine key.bind (fun r hr => ?_)
  obtain ⟨c, v⟩ := r
  obtain ⟨e, hv⟩ := hr
  simp only at e hv ⊢
  have lp : Holds (loopN (tex junk w h 1 IL_COLOUR_INDEX).height (bitRow o junk (tex junk w h 1 IL_COLOUR_INDEX).width) ((tex junk w h 1 IL_COLOUR_INDEX).data, ⟨0, 8, v⟩))
      (fun t => t.1.length = h * w ∧ ∃ q, At t.2.inp bs q) := by
    rw [g1, g2]
    refine Holds.loop (fun _ (t : List UInt8 × Bits σ) => t.1.length = h * w ∧ ∃ q, At t.2.inp bs q) (n := h) ⟨g4, hv⟩ (fun k t hk hi => ?_)
    have hf := row_fit (n := w) hk
    unfold bitRow
    rw [Nat.mul_comm w k, u32_of_lt (by omega)]
    refine (bread_any L hi.2 (by omega)).bind (fun r hr => ?_)
    obtain ⟨d, b⟩ := r
    simp only at hr ⊢
    refine (bread_any L (d := alloc junk 16) (off := 0) (n := (16 - w % 16) % 16) hr.1 (by rw [alloc_length]; omega)).bind (fun u hu => ?_)
    exact Holds.pure ⟨hr.2.trans hi.1, hu.1⟩
  refine lp.bind (fun r hr => Holds.pure ⟨⟨?_, ?_⟩, hr.2⟩)
  · show r.1.length = (tex junk w h 1 IL_COLOUR_INDEX).size
    rw [hr.1, ← g4, gl]
  · intro q hq _
    cases hq
    exact e

theorem load8_any (L : Laws3 o At back) (junk : Nat → UInt8) {fuel : Nat} {s : σ} {bs : List UInt8} {p w h t mt ml : Nat} (h0 : 0 < bs.length) (hs : At s bs p)
    (hw : 0 < w) (hh : 0 < h) (hml : ml < 4294967296) (hfit : w * h < 4294967296) (hf : 2 * w + 1 < fuel) :
    Holds (load8 o junk fuel w h t mt ml s) (fun r => Sized r.2.1 ∧ ∃ q, At r.2.2 bs q) := by
  unfold load8
  refine Holds.ite (fun _ => ?_) (fun _ => ?_)
  · obtain ⟨g1, g2, g3, g4, g5⟩ := tex_row junk w h 1 IL_LUMINANCE hw hh (by decide) (by omega)
    have gl := tex_len junk w h 1 IL_LUMINANCE
    rw [Nat.mul_one] at g3 g4 g5
    refine (rows_any L h0 _ hs g1 g3 g4 (by omega) hf).bind (fun r hr => Holds.pure ⟨⟨?_, fun _ h => by cases h⟩, hr.2⟩)
    show r.1.length = (tex junk w h 1 IL_LUMINANCE).size
    rw [hr.1, ← g4, gl]
  · obtain ⟨g1, g2, g3, g4, g5⟩ := tex_row junk w h 1 IL_COLOUR_INDEX hw hh (by decide) (by omega)
    have gl := tex_len junk w h 1 IL_COLOUR_INDEX
    rw [Nat.mul_one] at g3 g4 g5
    refine (into_len L.toLaws2 (alloc junk ml) 1 ml hs (by omega) (by rw [alloc_length]; omega)).bind (fun a ha => ?_)
    obtain ⟨n, c, v⟩ := a
    obtain ⟨e, q, hv⟩ := ha
    dsimp only at e hv ⊢
    refine Holds.ite (fun _ => Holds.pure ⟨⟨gl, ?_⟩, q, hv⟩) (fun _ => ?_)
    · intro q hq ht
      cases hq
      exact absurd (show IL_PAL_NONE = IL_PAL_RGB24 from ht) (by decide)
    · refine (rows_any L h0 _ hv g1 g3 g4 (by omega) hf).bind (fun r hr => Holds.pure ⟨⟨?_, ?_⟩, hr.2⟩)
      · show r.1.length = (tex junk w h 1 IL_COLOUR_INDEX).size
        rw [hr.1, ← g4, gl]
      · intro q hq _
        cases hq
        rw [alloc_length] at e
        exact e

theorem load24_any (L : Laws3 o At back) (junk : Nat → UInt8) {fuel : Nat} {s : σ} {bs : List UInt8} {p w h t ml : Nat} (h0 : 0 < bs.length) (hs : At s bs p)
    (hw : 0 < w) (hh : 0 < h) (hfit : w * h * 3 < 4294967296) (hf : 2 * (w * 3) + 1 < fuel) :
    Holds (load24 o junk fuel w h t ml s) (fun r => r.1 = true ∧ Sized r.2.1 ∧ ∃ q, At r.2.2 bs q) := by
  unfold load24
  obtain ⟨g1, g2, g3, g4, g5⟩ := tex_row junk w h 3 (rgbOf t) hw hh (by decide) (by omega)
  have gl := tex_len junk w h 3 (rgbOf t)
  refine (skip_any L.toLaws2 (n := ml) hs).bind (fun v hv => ?_)
  obtain ⟨q, hv⟩ := hv
  refine (rows_any L h0 _ hv g1 g3 g4 (by omega) hf).bind (fun r hr => Holds.pure ⟨rfl, ⟨?_, fun _ h => by cases h⟩, hr.2⟩)
  show r.1.length = (tex junk w h 3 (rgbOf t)).size
  rw [hr.1, ← g4, gl]

theorem set3 (d : List UInt8) (a b c : UInt8) (h : 3 ≤ d.length) : (do let d ← wr d 0 a; let d ← wr d 1 b; wr d 2 c : C (List UInt8)) = .ok (a :: b :: c :: d.drop 3) := by
  rcases d with _ | ⟨x, _ | ⟨y, _ | ⟨z, d⟩⟩⟩
  · simp at h
  · simp at h
  · simp at h
  · rfl

theorem load32_any (L : Laws3 o At back) (junk : Nat → UInt8) {s : σ} {bs : List UInt8} {p w h t ml : Nat} (hs : At s bs p)
    (hw : 0 < w) (hh : 0 < h) (hfit : w * h * 3 < 4294967296) :
    Holds (load32 o junk w h t ml s) (fun r => (r.1 = true ∧ Sized r.2.1 ∧ r.2.1.1.data.length = w * h * 3 ∧ ∀ i, 3 ≤ i → i < w * h * 3 → r.2.1.1.data[i]? = some (junk i)) ∧
      ∃ q, At r.2.2 bs q) := by
  unfold load32
  obtain ⟨-, -, -, -, -, -, -, -, g9⟩ := tex_fields junk w h 3 (rgbOf t) hw hh (by decide) (by omega)
  have gl := tex_len junk w h 3 (rgbOf t)
  have gd : (tex junk w h 3 (rgbOf t)).data = alloc junk (w * h * 3) := by
    unfold tex at g9 ⊢
    simp only at g9 ⊢
    rw [g9]
  have hpos : 0 < w * h := Nat.mul_pos hw hh
  refine (skip_any L.toLaws2 (n := ml) hs).bind (fun v hv => ?_)
  let I : List UInt8 × σ → Prop := fun t => (t.1.length = w * h * 3 ∧ t.1.drop 3 = (alloc junk (w * h * 3)).drop 3) ∧ ∃ q, At t.2 bs q
  have start : I ((tex junk w h 3 (rgbOf t)).data, v) := ⟨⟨by rw [gd, alloc_length], by rw [gd]⟩, hv⟩
  refine (Holds.loop (fun _ t => I t) (n := h) start (fun k t _ hi => Holds.loop (fun _ t => I t) (n := w) hi (fun j t _ hi => ?_))).bind (fun r hr => Holds.pure ⟨⟨rfl, ⟨?_, fun _ h => by cases h⟩, hr.1.1, ?_⟩, hr.2⟩)
  · obtain ⟨⟨i1, i2⟩, q, hq⟩ := hi
    refine (L.getc hq).bind (fun a ha => ?_)
    obtain ⟨x0, s0⟩ := a
    obtain ⟨⟨q0, h0⟩, -⟩ := ha
    refine (getb_any L h0).bind (fun a ha => ?_)
    obtain ⟨x1, s1⟩ := a
    obtain ⟨-, -, q1, h1⟩ := ha
    dsimp only at h1 ⊢
    rw [wr_of_lt (by omega), bind_ok]
    refine (getb_any L h1).bind (fun a ha => ?_)
    obtain ⟨x2, s2⟩ := a
    obtain ⟨-, -, q2, h2⟩ := ha
    dsimp only at h2 ⊢
    rw [wr_of_lt (by simp; omega), bind_ok]
    refine (getb_any L h2).bind (fun a ha => ?_)
    obtain ⟨x3, s3⟩ := a
    obtain ⟨-, -, q3, h3⟩ := ha
    dsimp only at h3 ⊢
    rw [wr_of_lt (by simp; omega), bind_ok]
    exact Holds.pure ⟨⟨by simp [i1], by simp [List.drop_set, i2]⟩, q3, h3⟩
  · show r.1.length = (tex junk w h 3 (rgbOf t)).size
    rw [hr.1.1, g9]
  · intro i h3 hi
    show r.1[i]? = _
    have := congrArg (fun l => l[i - 3]?) hr.1.2
    simp only [List.getElem?_drop] at this
    rw [show 3 + (i - 3) = i by omega] at this
    rw [this, alloc_get _ _ _ hi]

/-- A map that is cut off. -/
theorem map_cut (L : Laws2 o At) (junk : Nat → UInt8) (file : Bool) (fuel : Nat) (cur : Loaded) {s : σ} {bs : List UInt8} (hs : At s bs 0)
    {w h t ml : Nat} (H : Head bs w h 8 t 1 ml) (hcut : bs.length < 32 + ml) (hml : ml < 4294967296) :
    Holds (iLoadSunInternal o junk file fuel cur s) (fun r => r.1 = false ∧ ∃ q, At r.2.2 bs q) := by
  refine load_spec L junk file fuel cur hs H (by decide) (by omega) (fun u hu => ?_)
  show Holds (load8 o junk fuel w h t 1 ml u) _
  unfold load8
  rw [if_neg (by decide)]
  refine (into_spec L (alloc junk ml) 1 ml hu (by decide) (by omega) (by rw [alloc_length]; omega)).bind (fun a ha => ?_)
  obtain ⟨n, p, v⟩ := a
  obtain ⟨e, -, hv⟩ := ha
  rw [Nat.one_mul, Nat.div_one, at_length] at e
  have := H.len
  dsimp only at e hv ⊢
  rw [if_pos (by omega)]
  exact Holds.pure ⟨rfl, _, hv⟩

/-- One pixel. -/
theorem load32_one (L : Laws2 o At) (junk : Nat → UInt8) {s : σ} {bs : List UInt8} {p t ml : Nat} (hs : At s bs p) (hall : p + ml + 4 ≤ bs.length) :
    Holds (load32 o junk 1 1 t ml s) (fun r => (r.1 = true ∧ r.2.1.2 = none ∧ Shows r.2.1.1 1 1 3 (order t) (fun _ _ c => bs[p + ml + 1 + c]?)) ∧ ∃ q, At r.2.2 bs q) := by
  unfold load32
  obtain ⟨-, -, -, -, -, -, -, -, g9⟩ := tex_fields junk 1 1 3 (rgbOf t) (by decide) (by decide) (by decide) (by decide)
  have gl := tex_len junk 1 1 3 (rgbOf t)
  refine (skip_spec L (n := ml) hs (by omega)).bind (fun v hv => ?_)
  have lp : Holds (loopN 1 (fun _ t => loopN 1 (fun _ (t : List UInt8 × σ) => do
    let (_, s) ← o.getc t.2
    let (a, s) ← getb o s
    let d ← wr t.1 0 a
    let (b, s) ← getb o s
    let d ← wr d 1 b
    let (c, s) ← getb o s
    let d ← wr d 2 c
    pure (d, s)) t) ((tex junk 1 1 3 (rgbOf t)).data, v)) (fun r => r.1.length = 3 ∧ (∀ c, c < 3 → r.1[c]? = bs[p + ml + 1 + c]?) ∧ ∃ q, At r.2 bs q) := by
    have dl : (tex junk 1 1 3 (rgbOf t)).data.length = 3 := by rw [gl, g9]
    rw [loopN_succ, show ∀ f : Nat → (List UInt8 × σ) → C (List UInt8 × σ), ∀ t, loopN 0 f t = .ok t from fun _ _ => rfl, bind_ok, loopN_succ,
      show ∀ f : Nat → (List UInt8 × σ) → C (List UInt8 × σ), ∀ t, loopN 0 f t = .ok t from fun _ _ => rfl, bind_ok]
    refine (L.getc hv).bind (fun a ha => ?_)
    obtain ⟨x0, s0⟩ := a
    obtain ⟨-, h0⟩ := (ha.2 (by omega))
    have hi : ∀ j, j < 4 → p + ml + j < bs.length := fun j hj => by omega
    refine (getb_full L.toLaws h0 (List.getElem?_eq_getElem (hi 1 (by decide)))).bind (fun a ha => ?_)
    obtain ⟨x1, s1⟩ := a
    obtain ⟨e1, h1⟩ := ha
    dsimp only at e1 h1 ⊢
    rw [wr_of_lt (by omega), bind_ok]
    refine (getb_full L.toLaws h1 (List.getElem?_eq_getElem (hi 2 (by decide)))).bind (fun a ha => ?_)
    obtain ⟨x2, s2⟩ := a
    obtain ⟨e2, h2⟩ := ha
    dsimp only at e2 h2 ⊢
    rw [wr_of_lt (by simp; omega), bind_ok]
    refine (getb_full L.toLaws h2 (List.getElem?_eq_getElem (hi 3 (by decide)))).bind (fun a ha => ?_)
    obtain ⟨x3, s3⟩ := a
    obtain ⟨e3, h3⟩ := ha
    dsimp only at e3 h3 ⊢
    rw [wr_of_lt (by simp; omega), bind_ok]
    refine Holds.pure ⟨by simp [dl], ?_, _, h3⟩
    intro c hc
    rcases (show c = 0 ∨ c = 1 ∨ c = 2 by omega) with rfl | rfl | rfl
    · simp [dl, e1, List.getElem?_set, List.getElem?_eq_getElem (hi 1 (by decide))]
    · simp [dl, e2, List.getElem?_set, show p + ml + 1 + 1 = p + ml + 2 by omega, List.getElem?_eq_getElem (hi 2 (by decide))]
    · simp [dl, e3, List.getElem?_set, show p + ml + 1 + 2 = p + ml + 3 by omega, List.getElem?_eq_getElem (hi 3 (by decide))]
  refine lp.bind (fun r hr => Holds.pure ⟨⟨rfl, rfl, ?_⟩, hr.2.2⟩)
  refine shows_tex junk 1 1 3 (order t) (by decide) (by decide) (by decide) (by decide) r.1 hr.1 _ (fun x y c hx hy hc => ?_)
  rw [← hr.2.1 c hc]
  congr 1
  omega

theorem be_lt (bs : List UInt8) (p : Nat) : beAt bs p 4 < 4294967296 := by
  unfold beAt be
  refine Nat.lt_of_lt_of_le (le_lt _) ?_
  rw [List.length_reverse, at_length]
  exact Nat.pow_le_pow_right (n := 256) (by decide) (show min 4 (bs.length - p) ≤ 4 by omega)

theorem check_pos {h : List (List UInt8)} (hc : iCheckSun h = true) : 0 < fbe h 1 ∧ 0 < fbe h 2 := by
  unfold iCheckSun at hc
  have : (fbe h 1 == 0 || fbe h 2 == 0) = false := by
    cases e : (fbe h 1 == 0 || fbe h 2 == 0) with
    | false => rfl
    | true =>
      rw [e] at hc
      split at hc <;> simp at hc
  simp at this
  omega

theorem sun_any (L : Laws3 o At back) (junk : Nat → UInt8) (file : Bool) (fuel : Nat) (cur : Loaded) (hcur : Sized cur) {s : σ} {bs : List UInt8} (hs : At s bs 0)
    (h32 : 32 ≤ bs.length) (hfit : beAt bs 4 4 * beAt bs 8 4 * 3 < 4294967296) (hf : 2 * (beAt bs 4 4 * 3) + 1 < fuel) :
    Holds (iLoadSunInternal o junk file fuel cur s) (fun r => Sized r.2.1 ∧ ∃ q, At r.2.2 bs q) := by
  unfold iLoadSunInternal
  refine (sun_head L.toLaws2 junk hs h32).bind (fun r hr => ?_)
  obtain ⟨g, u⟩ := r
  obtain ⟨hat, -, e1, e2, -, -, -, e7⟩ := hr
  simp only at hat e1 e2 e7 ⊢
  have h0 : 0 < bs.length := by omega
  have hml := be_lt bs 28
  refine Holds.ite (fun _ => Holds.pure ⟨hcur, _, hat⟩) (fun hc => ?_)
  have hp := check_pos (h := g) (by simpa using hc)
  rw [e1, e2] at hp
  rw [e1, e2, e7]
  have hle : beAt bs 4 4 * beAt bs 8 4 ≤ beAt bs 4 4 * beAt bs 8 4 * 3 := by omega
  refine Holds.ite (fun _ => load1_any L.toLaws2 junk file cur hat hcur hp.1 hp.2 (by omega)) (fun _ => ?_)
  refine Holds.ite (fun _ => load8_any L junk h0 hat hp.1 hp.2 hml (by omega) (by omega)) (fun _ => ?_)
  refine Holds.ite (fun _ => (load24_any L junk h0 hat hp.1 hp.2 hfit hf).mono (fun _ h => h.2)) (fun _ => ?_)
  exact (load32_any L junk hat hp.1 hp.2 hfit).mono (fun _ h => ⟨h.1.2.1, h.2⟩)

end DevIL.Sun
