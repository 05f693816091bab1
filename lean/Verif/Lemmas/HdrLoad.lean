import Verif.Lemmas.HdrHead
/-! Loading Radiance pictures. -/
set_option autoImplicit false
namespace DevIL.Hdr

open DevIL.Detect DevIL.DetectSpec DevIL.Image DevIL.Games
open DevIL.HdrSpec (Piece Line IsLine Named)
open DevIL.PnmSpec (IsNumber number)

variable {σ : Type} {o : Ops σ} {At : σ → List UInt8 → Nat → Prop}

theorem header_split {name : List UInt8} {ls : List (List UInt8)} (hn : Named name ls) (hls : ∀ l ∈ ls, IsLine l) (h w : List UInt8) :
    ∃ (sig : List UInt8) (a : UInt8) (t : List UInt8), sig.length = 10 ∧ iCheckHdr sig = true ∧ Quiet a t ∧
      HdrSpec.header name ls h w = sig ++ (a :: (t ++ 10 :: ([45, 89, 32] ++ h ++ [32, 43, 88, 32] ++ w ++ [10]))) := by
  rcases hn with rfl | ⟨rfl, h3⟩
  · refine ⟨HdrSpec.radiance, 10, ls.flatMap (· ++ [10]), rfl, by decide, quiet_lines ls hls, ?_⟩
    simp [HdrSpec.header]
  · match ls, h3, hls with
    | l :: ls, h3, hls =>
      have h3 : 3 ≤ l.length := h3
      match l, h3, hls with
      | b :: c :: d :: l, _, hls =>
        have hl := (hls _ List.mem_cons_self).2
        obtain ⟨a, t, e, q⟩ := quiet_rest ls (fun l hl => hls l (List.mem_cons_of_mem _ hl)) l
          (fun h => hl (List.mem_cons_of_mem _ (List.mem_cons_of_mem _ (List.mem_cons_of_mem _ h))))
        refine ⟨[35, 63, 82, 71, 66, 69, 10, b, c, d], a, t, rfl, ?_, q, ?_⟩
        · unfold iCheckHdr
          rw [Bool.or_eq_true]
          right
          show same [35, 63, 82, 71, 66, 69, 10, b, c, d] _ = true
          unfold same
          rfl
        · have e' : ∀ X : List UInt8, a :: (t ++ X) = (l ++ 10 :: ls.flatMap (· ++ [10])) ++ X := fun X => by rw [e]; rfl
          rw [e']
          simp [HdrSpec.header, HdrSpec.rgbe]

theorem texF_fields (junk : Nat → UInt8) (w h : Nat) (hw : 0 < w) (hh : 0 < h) (hfit : w * h * 12 < 4294967296) :
    let m := texF junk w h
    m.width = w ∧ m.height = h ∧ m.depth = 1 ∧ m.bpp = 3 ∧ m.bpc = 4 ∧ m.format = IL_RGB ∧ m.type = IL_FLOAT ∧ m.Consistent ∧
      m.size = w * h * 12 := by
  have a : ∀ n, 0 < n → atLeast1 n = n := fun n h => by unfold atLeast1; rw [if_neg (by omega)]
  have hb : Utility.ilGetBpcType IL_FLOAT = 4 := by decide
  have h1 : w * 12 ≤ w * h * 12 := Nat.mul_le_mul_right 12 (Nat.le_mul_of_pos_right w hh)
  have e0 : w * 3 * 4 = w * 12 := by omega
  have e1 : w * 12 * h = w * h * 12 := Nat.mul_right_comm w 12 h
  have e3 : u32 (w * 3) = w * 3 := u32_of_lt (by omega)
  have ew : u32 (w * 12) = w * 12 := u32_of_lt (by omega)
  have eh : u32 (w * h * 12) = w * h * 12 := u32_of_lt hfit
  have hsz : (texF junk w h).size = w * h * 12 := by
    simp only [texF, geometry, a w hw, a h hh, a 1 (by decide), hb, Nat.mul_one, e3, e0, ew, e1, eh]
  have hpl : (texF junk w h).plane = w * h * 12 := by
    simp only [texF, geometry, a w hw, a h hh, a 1 (by decide), hb, Nat.mul_one, e3, e0, ew, e1, eh]
  have hbp : (texF junk w h).bps = w * 12 := by
    simp only [texF, geometry, a w hw, a h hh, a 1 (by decide), hb, Nat.mul_one, e3, e0, ew]
  have hww : (texF junk w h).width = w := a w hw
  have hhh : (texF junk w h).height = h := a h hh
  have hc : (texF junk w h).bpc = 4 := hb
  have hbb : (texF junk w h).bpp = 3 := rfl
  have hdl : (texF junk w h).data.length = (texF junk w h).size := alloc_length _ _
  refine ⟨hww, hhh, rfl, rfl, hb, rfl, rfl, ⟨?_, ?_, ?_, hdl⟩, hsz⟩
  · rw [hbp, hww, hbb, hc, e0]
  · rw [hpl, hww, hbb, hc, hhh, e0, e1]
  · rw [hsz, hww, hbb, hc, hhh, e0, e1]; exact (Nat.mul_one _).symm

theorem shows_texF (junk : Nat → UInt8) (w h : Nat) (hw : 0 < w) (hh : 0 < h) (hfit : w * h * 12 < 4294967296)
    (d : List UInt8) (hd : d.length = w * h * 12) (px : Nat → Nat → List UInt8) (hl : ∀ x y, (px x y).length = 12)
    (hpx : ∀ x y c, x < w → y < h → c < 12 → d[(y * w + x) * 12 + c]? = (px x y)[c]?) :
    HdrSpec.Shows { texF junk w h with data := d } w h px := by
  obtain ⟨h1, h2, h3, h4, h5, h6, h7, h8, h9⟩ := texF_fields junk w h hw hh hfit
  refine ⟨h1, h2, h3, h4, h5, h6, h7, rfl, ⟨h8.1, h8.2.1, h8.2.2.1, by show d.length = _; rw [hd]; exact h9.symm⟩, fun x y c hx hy hcc => ⟨?_, hl x y⟩⟩
  show d[((0 * (texF junk w h).height + y) * (texF junk w h).width + x) * ((texF junk w h).bpp * (texF junk w h).bpc) + c]? = _
  rw [h1, h4, h5, Nat.zero_mul, Nat.zero_add]
  exact hpx x y c hx hy hcc

/-- A file with a header, if reading each scan line gives what `px` says. -/
theorem load_spec (L : Laws2 o At) (junk : Nat → UInt8) (flt : Rgbe → List UInt8) (hflt : ∀ p, (flt p).length = 12) (cur : Loaded) {bs : List UInt8} {s : σ} (hat : At s bs 0) (fuel : Nat) (hf : bs.length < fuel)
    {name : List UInt8} {ls : List (List UInt8)} (hname : Named name ls) (hls : ∀ l ∈ ls, IsLine l)
    {h w : List UInt8} (hh : IsNumber h) (hw : IsNumber w) (nh : number h < 2147483648) (nw : number w < 2147483648) (hlen : h.length + w.length ≤ 73)
    (h0 : 0 < number h) (w0 : 0 < number w) (hfit : number w * number h * 12 < 4294967296)
    (hn : Next bs 0 (HdrSpec.header name ls h w)) {px : Nat → Nat → Rgbe}
    (pos : Nat → Nat) (hpos : pos 0 = (HdrSpec.header name ls h w).length)
    (hrow : ∀ y, y < number h → ∀ buf s, buf.length = 4 * number w → At s bs (pos y) → Holds (readScanline o fuel (number w) buf s) (fun r => Scan r.1 (number w) (px y) ∧ At r.2 bs (pos (y + 1)))) :
    Holds (iLoadHdrInternal o junk flt fuel cur s) (fun r => r.1 = true ∧ r.2.1.2 = none ∧ HdrSpec.Shows r.2.1.1 (number w) (number h) (fun x y => flt (px y x)) ∧
      ∃ q, At r.2.2 bs q) := by
  obtain ⟨sig, a, t, h1, h2, h3, h4⟩ := header_split hname hls h w
  have hl : (HdrSpec.header name ls h w).length = t.length + h.length + w.length + 20 := by
    rw [h4]; simp only [List.length_append, List.length_cons, List.length_nil, h1]; omega
  rw [h4] at hn
  have hww : number w ≤ number w * number h := Nat.le_mul_of_pos_right _ h0
  unfold iLoadHdrInternal
  refine (head_read L junk hat fuel hf sig h1 a t h3 hh hw nh nw hlen hn).bind (fun r hr => ?_)
  obtain ⟨s1, rfl, a1⟩ := hr
  simp only []
  rw [h2, if_neg (by decide)]
  rw [← hl, ← hpos] at a1
  obtain ⟨-, -, -, -, -, -, -, -, hsz⟩ := texF_fields junk (number w) (number h) w0 h0 hfit
  have hdl : (texF junk (number w) (number h)).data.length = number w * number h * 12 := by rw [← hsz]; exact alloc_length _ _
  refine (rows_spec flt hflt (by omega) pos hrow _ (alloc junk (u32 (number w * 4))) s1 hdl (by rw [alloc_length, u32_of_lt (by omega), Nat.mul_comm]) a1).bind (fun r hr => ?_)
  obtain ⟨r1, r2, r3⟩ := hr
  exact Holds.pure ⟨rfl, rfl, shows_texF junk _ _ w0 h0 hfit r.data r1 _ (fun x y => hflt _) r3, _, r2⟩

/-- An element of a list stored one after the other. -/
theorem next_flat {α : Type} {bs : List UInt8} {p : Nat} (f : α → List UInt8) (l : List α) (h : Next bs p (l.flatMap f)) {i : Nat} {a : α} (hi : l[i]? = some a) :
    Next bs (p + ((l.take i).flatMap f).length) (f a) := by
  obtain ⟨hi', rfl⟩ := List.getElem?_eq_some_iff.mp hi
  have e : l = l.take i ++ (l[i] :: l.drop (i + 1)) := by
    rw [← List.drop_eq_getElem_cons hi', List.take_append_drop]
  rw [e, List.flatMap_append, List.flatMap_cons] at h
  have := h.right.left
  exact this

/-- **Run-length scan lines.** -/
theorem load_rle (L : Laws2 o At) (junk : Nat → UInt8) (flt : Rgbe → List UInt8) (hflt : ∀ p, (flt p).length = 12) (cur : Loaded) {bs : List UInt8} {s : σ} (hat : At s bs 0) (fuel : Nat) (hf : bs.length < fuel)
    {name : List UInt8} {ls : List (List UInt8)} (hname : Named name ls) (hls : ∀ l ∈ ls, IsLine l)
    {h w : List UInt8} (hh : IsNumber h) (hw : IsNumber w) (hlen : h.length + w.length ≤ 73)
    (h0 : 0 < number h) (w0 : 0 < number w) (w1 : number w < 65536) (hfit : number w * number h * 12 < 4294967296)
    (rows : List Line) (hrows : rows.length = number h) (hok : ∀ l ∈ rows, l.Ok (number w))
    (hn : Next bs 0 (HdrSpec.header name ls h w ++ HdrSpec.body (number w) rows)) :
    Holds (iLoadHdrInternal o junk flt fuel cur s) (fun r => (r.1 = true ∧ r.2.1.2 = none ∧ HdrSpec.Shows r.2.1.1 (number w) (number h) (fun x y => flt (HdrSpec.pixel rows x y))) ∧
      ∃ q, At r.2.2 bs q) := by
  have hhh : number h ≤ number w * number h := Nat.le_mul_of_pos_left _ w0
  have hb := hn.right
  rw [Nat.zero_add] at hb
  refine (load_spec L junk flt hflt cur hat fuel hf hname hls hh hw (by omega) (by omega) hlen h0 w0 hfit hn.left
    (px := fun y x => HdrSpec.pixel rows x y)
    (fun y => (HdrSpec.header name ls h w).length + ((rows.take y).flatMap (Line.bytes (number w))).length) (by simp) (fun y hy buf s hbuf hs => ?_)).mono
    (fun r hr => ⟨⟨hr.1, hr.2.1, hr.2.2.1⟩, hr.2.2.2⟩)
  have hy' : y < rows.length := by omega
  refine (line_spec L.toLaws w1 rows[y] (hok _ (List.getElem_mem hy')) fuel hf buf hbuf s _ hs
    (next_flat (Line.bytes (number w)) rows hb (List.getElem?_eq_getElem hy'))).mono (fun r hr => ⟨?_, ?_⟩)
  · have e : (fun x => HdrSpec.pixel rows x y) = rows[y].px := by
      funext x
      unfold HdrSpec.pixel
      rw [List.getElem?_eq_getElem hy']
    rw [e]
    exact hr.1
  · have e : rows.take (y + 1) = rows.take y ++ [rows[y]] := List.take_succ_eq_append_getElem hy'
    rw [e, List.flatMap_append, List.length_append, ← Nat.add_assoc]
    simpa using hr.2

/-! ### Old-style scan lines -/

theorem Scan.nil_step {buf : List UInt8} {w : Nat} {n : Nat} {px : Nat → Rgbe} (hb : buf.length = 4 * w) (hn : n < w)
    (h : ∀ x, x < n → buf[x * 4]? = some (px x).1 ∧ buf[x * 4 + 1]? = some (px x).2.1 ∧ buf[x * 4 + 2]? = some (px x).2.2.1 ∧ buf[x * 4 + 3]? = some (px x).2.2.2)
    (a b c d : Nat) (ha : UInt8.ofNat a = (px n).1) (hb' : UInt8.ofNat b = (px n).2.1) (hc : UInt8.ofNat c = (px n).2.2.1) (hd : UInt8.ofNat d = (px n).2.2.2)
    (s : Old σ) (hs : s.read = n) (hbuf : s.buf = buf) :
    Holds (put4 s (a, b, c, d)) (fun t => t.read = n + 1 ∧ t.inp = s.inp ∧ t.buf.length = 4 * w ∧ ∀ x, x < n + 1 →
      t.buf[x * 4]? = some (px x).1 ∧ t.buf[x * 4 + 1]? = some (px x).2.1 ∧ t.buf[x * 4 + 2]? = some (px x).2.2.1 ∧ t.buf[x * 4 + 3]? = some (px x).2.2.2) := by
  subst hs hbuf
  unfold put4
  rw [wr_of_lt (by omega), bind_ok, wr_of_lt (by rw [List.length_set]; omega), bind_ok, wr_of_lt (by rw [List.length_set, List.length_set]; omega), bind_ok,
    wr_of_lt (by rw [List.length_set, List.length_set, List.length_set]; omega), bind_ok]
  refine Holds.pure ⟨rfl, rfl, by simp only [List.length_set]; exact hb, fun x hx => ?_⟩
  simp only [List.getElem?_set, List.length_set]
  by_cases hx' : x < s.read
  · have := h x hx'
    simp only [show ¬ (s.read * 4 + 3 = x * 4) by omega, show ¬ (s.read * 4 + 2 = x * 4) by omega, show ¬ (s.read * 4 + 1 = x * 4) by omega, show ¬ (s.read * 4 = x * 4) by omega,
      show ¬ (s.read * 4 + 3 = x * 4 + 1) by omega, show ¬ (s.read * 4 + 2 = x * 4 + 1) by omega, show ¬ (s.read * 4 + 1 = x * 4 + 1) by omega, show ¬ (s.read * 4 = x * 4 + 1) by omega,
      show ¬ (s.read * 4 + 3 = x * 4 + 2) by omega, show ¬ (s.read * 4 + 2 = x * 4 + 2) by omega, show ¬ (s.read * 4 + 1 = x * 4 + 2) by omega, show ¬ (s.read * 4 = x * 4 + 2) by omega,
      show ¬ (s.read * 4 + 3 = x * 4 + 3) by omega, show ¬ (s.read * 4 + 2 = x * 4 + 3) by omega, show ¬ (s.read * 4 + 1 = x * 4 + 3) by omega, show ¬ (s.read * 4 = x * 4 + 3) by omega, if_false]
    exact this
  · have : x = s.read := by omega
    subst this
    simp only [show ¬ (s.read * 4 + 3 = s.read * 4) by omega, show ¬ (s.read * 4 + 2 = s.read * 4) by omega, show ¬ (s.read * 4 + 1 = s.read * 4) by omega,
      show ¬ (s.read * 4 + 3 = s.read * 4 + 1) by omega, show ¬ (s.read * 4 + 2 = s.read * 4 + 1) by omega, show ¬ (s.read * 4 + 3 = s.read * 4 + 2) by omega, if_false, if_true,
      show s.read * 4 < s.buf.length by omega, show s.read * 4 + 1 < s.buf.length by omega, show s.read * 4 + 2 < s.buf.length by omega, show s.read * 4 + 3 < s.buf.length by omega, ha, hb', hc, hd, and_self]

/-- A pixel that means a repetition. -/
def Rep (p : Rgbe) : Prop := p.1 = 1 ∧ p.2.1 = 1 ∧ p.2.2.1 = 1

theorem old_spec (L : Laws o At) {bs : List UInt8} {w : Nat} (w0 : 0 < w) (fuel : Nat) (hf : w < fuel) (px : Nat → Rgbe)
    (h2 : ¬((px 0).1 = 2 ∧ (px 0).2.1 = 2)) (h1 : ∀ x, x < w → ¬ Rep (px x)) (buf : List UInt8) (hb : buf.length = 4 * w) (s : σ) (p : Nat) (hat : At s bs p)
    (hn : ∀ x, x < w → Next bs (p + x * 4) [(px x).1, (px x).2.1, (px x).2.2.1, (px x).2.2.2]) :
    Holds (readScanline o fuel w buf s) (fun r => Scan r.1 w px ∧ At r.2 bs (p + w * 4)) := by
  have n2 : ∀ {a : UInt8}, a.toNat = 2 → a = 2 := fun h => UInt8.toNat_inj.mp h
  have n1 : ∀ {a : UInt8}, a.toNat = 1 → a = 1 := fun h => UInt8.toNat_inj.mp h
  unfold readScanline
  have hn0 := hn 0 w0
  rw [Nat.zero_mul, Nat.add_zero] at hn0
  refine (next4_spec L hat hn0).bind (fun r hr => ?_)
  obtain ⟨v, s1⟩ := r
  obtain ⟨rfl, g1⟩ := hr
  simp only [] at g1 ⊢
  rw [if_neg (fun h => h2 ⟨n2 h.1, n2 h.2⟩)]
  have key := Holds.while (c := fun c : Old σ => decide (c.read < w)) (f := oldStep o w) (fun c => c.read ≤ w ∧ At c.inp bs (p + (if c.read = 0 then 1 else c.read) * 4) ∧ c.buf.length = 4 * w ∧
      (∀ x, x < c.read → c.buf[x * 4]? = some (px x).1 ∧ c.buf[x * 4 + 1]? = some (px x).2.1 ∧ c.buf[x * 4 + 2]? = some (px x).2.2.1 ∧ c.buf[x * 4 + 3]? = some (px x).2.2.2) ∧
      (c.read = 0 → c.px = ((px 0).1.toNat, (px 0).2.1.toNat, (px 0).2.2.1.toNat, (px 0).2.2.2.toNat))) (fun c => w - c.read) (fun c hc hcond => ?_) fuel
    ⟨0, 0, buf, s1, ((px 0).1.toNat, (px 0).2.1.toNat, (px 0).2.2.1.toNat, (px 0).2.2.2.toNat)⟩
    ⟨Nat.zero_le _, g1, hb, fun x hx => absurd hx (Nat.not_lt_zero _), fun _ => rfl⟩ (by show w - 0 < fuel; omega)
  · refine key.bind (fun c hc => Holds.pure ?_)
    obtain ⟨⟨c1, c2, c3, c4, -⟩, c6⟩ := hc
    simp only [decide_eq_false_iff_not] at c6
    have : c.read = w := by omega
    rw [this, if_neg (by omega)] at c2
    rw [this] at c4
    exact ⟨⟨c3, c4⟩, c2⟩
  · simp only [decide_eq_true_eq] at hcond
    obtain ⟨c1, c2, c3, c4, c5⟩ := hc
    unfold oldStep
    have step : Holds (fetch o c) (fun r => r.1 = ((px c.read).1.toNat, (px c.read).2.1.toNat, (px c.read).2.2.1.toNat, (px c.read).2.2.2.toNat) ∧
        At r.2 bs (p + (c.read + 1) * 4)) := by
      unfold fetch
      refine Holds.ite (fun h => ?_) (fun h => ?_)
      · rw [if_neg h] at c2
        refine (next4_spec L c2 (hn c.read hcond)).mono (fun r hr => ⟨hr.1, ?_⟩)
        have e : p + (c.read + 1) * 4 = p + c.read * 4 + 4 := by omega
        rw [e]; exact hr.2
      · have h : c.read = 0 := by omega
        rw [if_pos h] at c2
        refine Holds.pure ⟨?_, ?_⟩
        · rw [c5 h, h]
        · rw [h]; exact c2
    refine step.bind (fun r hr => ?_)
    obtain ⟨v, s2⟩ := r
    obtain ⟨rfl, g2⟩ := hr
    simp only [] at g2 ⊢
    rw [if_neg (fun h => h1 c.read hcond ⟨n1 h.1, n1 h.2.1, n1 h.2.2⟩)]
    refine (Scan.nil_step (px := px) c3 hcond c4 _ _ _ _ (UInt8.ofNat_toNat) (UInt8.ofNat_toNat) (UInt8.ofNat_toNat) (UInt8.ofNat_toNat) ⟨c.read, c.shift, c.buf, s2, _⟩ rfl rfl).mono (fun t ht => ?_)
    obtain ⟨t1, t2, t3, t4⟩ := ht
    refine ⟨⟨by omega, ?_, t3, ?_, fun h => by omega⟩, by omega⟩
    · rw [t1, if_neg (by omega), t2]; exact g2
    · rw [t1]; exact t4

end DevIL.Hdr
