import Verif.Lemmas.HdrLoad
/-! Loading any bytes after the header of a Radiance picture. -/
set_option autoImplicit false
namespace DevIL.Hdr

open DevIL.Detect DevIL.DetectSpec DevIL.Image DevIL.Games
open DevIL.HdrSpec (IsLine Named NoOnes)
open DevIL.PnmSpec (IsNumber number)

variable {σ : Type} {o : Ops σ} {At : σ → List UInt8 → Nat → Prop}

/-- Reading a byte, at the end of the input too. -/
theorem getc_any (L : Laws2 o At) {s : σ} {bs : List UInt8} {p : Nat} (h : At s bs p) :
    Holds (o.getc s) (fun r => (p < bs.length ∧ r.1 = bs[p]? ∧ At r.2 bs (p + 1)) ∨ (bs.length ≤ p ∧ r.1 = none ∧ ∃ q, bs.length ≤ q + 1 ∧ At r.2 bs q)) := by
  by_cases hp : p < bs.length
  · exact (L.getc h).mono (fun r hr => .inl ⟨hp, (hr.2 hp).1, (hr.2 hp).2⟩)
  · exact (L.getcEnd h (by omega)).mono (fun r hr => .inr ⟨by omega, hr.1, hr.2⟩)

theorem geti_any (L : Laws2 o At) {s : σ} {bs : List UInt8} {p : Nat} (h : At s bs p) :
    Holds (geti o s) (fun r => (∃ b : UInt8, bs[p]? = some b ∧ r.1 = b.toNat ∧ p < bs.length ∧ At r.2 bs (p + 1)) ∨
      (bs.length ≤ p ∧ r.1 = 4294967295 ∧ ∃ q, bs.length ≤ q + 1 ∧ At r.2 bs q)) := by
  refine (getc_any L h).bind (fun r hr => ?_)
  obtain ⟨c, t⟩ := r
  rcases hr with ⟨hp, h1, h2⟩ | ⟨hp, h1, h2⟩
  · simp only [] at h1 h2
    rw [List.getElem?_eq_getElem hp] at h1
    subst h1
    exact Holds.pure (.inl ⟨_, List.getElem?_eq_getElem hp, rfl, hp, h2⟩)
  · simp only [] at h1 h2
    subst h1
    exact Holds.pure (.inr ⟨hp, rfl, h2⟩)

/-- The position does not go back, except from the end to the last byte. -/
theorem getb_any (L : Laws2 o At) {s : σ} {bs : List UInt8} {p : Nat} (h : At s bs p) :
    Holds (getb o s) (fun r => ∃ q, (p ≤ q ∨ bs.length ≤ q + 1) ∧ At r.2 bs q) := by
  unfold getb
  refine (getc_any L h).bind (fun r hr => ?_)
  obtain ⟨c, t⟩ := r
  rcases hr with ⟨hp, h1, h2⟩ | ⟨hp, h1, q, h2, h3⟩
  · exact Holds.pure ⟨p + 1, by omega, h2⟩
  · exact Holds.pure ⟨q, by omega, h3⟩

theorem piece_safe (L : Laws2 o At) {bs : List UInt8} {w W k : Nat} (hW : w ≤ W) (hk : k < 4) (s : Chan σ) (p : Nat) (hat : At s.inp bs p) (hj : s.j < w) (hb : s.buf.length = 4 * W) :
    Holds (piece o w k s) (fun t => t.j ≤ w ∧ t.buf.length = 4 * W ∧ ∃ q, At t.inp bs q ∧ 2 * (w - t.j) + (bs.length - q) < 2 * (w - s.j) + (bs.length - p)) := by
  have run : ∀ (n : Nat) (v : UInt8) (i : σ) (q : Nat), At i bs q → 1 ≤ n → n ≤ w - s.j → (p ≤ q ∨ bs.length ≤ q + 1) →
      Holds (do let buf ← loopN n (fun i buf => wr buf ((s.j + i) * 4 + k) v) s.buf; pure (⟨s.j + n, buf, i⟩ : Chan σ)) (fun t => t.j ≤ w ∧ t.buf.length = 4 * W ∧ ∃ q, At t.inp bs q ∧ 2 * (w - t.j) + (bs.length - q) < 2 * (w - s.j) + (bs.length - p)) := by
    intro n v i q hq h1 h2 h3
    refine (Holds.loop (fun _ (buf : List UInt8) => buf.length = 4 * W) hb (fun m buf hm hbuf => (Holds.wr (by omega)).mono (fun b' h => by rw [h.1, hbuf]))).bind (fun buf hbuf => Holds.pure ⟨?_, hbuf, q, hq, ?_⟩)
    · show s.j + n ≤ w; omega
    · show 2 * (w - (s.j + n)) + _ < _; omega
  unfold piece
  refine (geti_any L hat).bind (fun r hr => ?_)
  obtain ⟨t, i1⟩ := r
  rcases hr with ⟨b, hb1, ht, hp, hi1⟩ | ⟨hp, ht, q, hq, hi1⟩
  · simp only [] at ht hi1 ⊢
    have hb256 := b.toNat_lt
    refine Holds.ite (fun h => ?_) (fun h => ?_)
    · refine (getb_any L hi1).bind (fun r hr => ?_)
      obtain ⟨v, i2⟩ := r
      obtain ⟨q, hq, hi2⟩ := hr
      exact run _ v i2 q hi2 (by omega) (Nat.min_le_right _ _) (by omega)
    · refine (Holds.loop (fun m (c : Chan σ) => c.j = s.j + m ∧ c.buf.length = 4 * W ∧ ∃ q, p + 1 ≤ q + (if m = 0 then 0 else 1) ∧ At c.inp bs q) (s := { s with inp := i1 }) ⟨rfl, hb, p + 1, by simp, hi1⟩ (fun m c hm hc => ?_)).mono (fun c hc => ?_)
      · obtain ⟨c1, c2, q, c3, c4⟩ := hc
        refine (getb_any L c4).bind (fun r hr => ?_)
        obtain ⟨v, i2⟩ := r
        obtain ⟨q', hq', hi2⟩ := hr
        refine (Holds.wr (by omega)).bind (fun b' hb' => Holds.pure ⟨by show c.j + 1 = _; omega, by show b'.length = _; rw [hb'.1, c2], q', ?_, hi2⟩)
        rw [if_neg (by omega)]
        split at c3 <;> omega
      · obtain ⟨c1, c2, q, c3, c4⟩ := hc
        refine ⟨by omega, c2, q, c4, ?_⟩
        split at c3 <;> omega
  · simp only [] at ht hi1 ⊢
    subst ht
    rw [if_pos (by decide)]
    refine (getb_any L hi1).bind (fun r hr => ?_)
    obtain ⟨v, i2⟩ := r
    obtain ⟨q', hq', hi2⟩ := hr
    exact run _ v i2 q' hi2 (by omega) (Nat.min_le_right _ _) (by omega)

theorem chan_safe (L : Laws2 o At) {bs : List UInt8} {w W k : Nat} (hW : w ≤ W) (hk : k < 4) (fuel : Nat) : ∀ (c : Chan σ) (p : Nat), At c.inp bs p → c.j ≤ w →
    c.buf.length = 4 * W → 2 * (w - c.j) + (bs.length - p) < fuel →
    Holds (whileF (fun c : Chan σ => decide (c.j < w)) (piece o w k) fuel c) (fun c => c.buf.length = 4 * W ∧ ∃ q, At c.inp bs q) := by
  induction fuel with
  | zero => intro c p _ _ _ h; omega
  | succ fuel ih =>
    intro c p h1 h2 h3 h4
    unfold whileF
    refine Holds.ite (fun hc => ?_) (fun hc => Holds.ok ⟨h3, p, h1⟩)
    simp only [decide_eq_true_eq] at hc
    refine (piece_safe L hW hk c p h1 hc h3).bind (fun t ht => ?_)
    obtain ⟨t1, t2, q, t3, t4⟩ := ht
    exact ih t q t3 t1 t2 (by omega)

theorem next4_any (L : Laws2 o At) {s : σ} {bs : List UInt8} {p : Nat} (h : At s bs p) (h1 : NoOnes bs) :
    Holds (next4 o s) (fun r => ¬(r.1.1 = 1 ∧ r.1.2.1 = 1 ∧ r.1.2.2.1 = 1) ∧ ∃ q, At r.2 bs q) := by
  have n1 : ∀ {a : UInt8}, a.toNat = 1 → a = 1 := fun h => UInt8.toNat_inj.mp h
  unfold next4
  refine (geti_any L h).bind (fun ra ha => ?_)
  have ⟨qa, aa⟩ : ∃ q, At ra.2 bs q := by
    rcases ha with ⟨_, _, _, _, h⟩ | ⟨_, _, q, _, h⟩
    · exact ⟨_, h⟩
    · exact ⟨_, h⟩
  by_cases hone : ra.1 = 1
  · rcases ha with ⟨b, hb, e1, -, at1⟩ | ⟨_, e1, _⟩
    · refine (geti_any L at1).bind (fun rb hb' => ?_)
      rcases hb' with ⟨c, hc, e2, -, at2⟩ | ⟨_, e2, q, _, at2⟩
      · refine (geti_any L at2).bind (fun rc hc' => ?_)
        have ⟨qc, ac⟩ : ∃ q, At rc.2 bs q := by
          rcases hc' with ⟨_, _, _, _, h⟩ | ⟨_, _, q, _, h⟩
          · exact ⟨_, h⟩
          · exact ⟨_, h⟩
        refine (geti_any L ac).bind (fun rd hd' => ?_)
        have ⟨qd, ad⟩ : ∃ q, At rd.2 bs q := by
          rcases hd' with ⟨_, _, _, _, h⟩ | ⟨_, _, q, _, h⟩
          · exact ⟨_, h⟩
          · exact ⟨_, h⟩
        refine Holds.pure ⟨?_, qd, ad⟩
        rintro ⟨f1, f2, f3⟩
        rcases hc' with ⟨d, hd, e3, _, _⟩ | ⟨_, e3, _⟩
        · have g1 := n1 (e1.symm.trans f1)
          have g2 := n1 (e2.symm.trans f2)
          have g3 := n1 (e3.symm.trans f3)
          subst g1 g2 g3
          exact h1 p ⟨hb, hc, hd⟩
        · have f3 : rc.1 = 1 := f3
          omega
      · refine (geti_any L at2).bind (fun rc hc' => ?_)
        have ⟨qc, ac⟩ : ∃ q, At rc.2 bs q := by
          rcases hc' with ⟨_, _, _, _, h⟩ | ⟨_, _, q, _, h⟩
          · exact ⟨_, h⟩
          · exact ⟨_, h⟩
        refine (geti_any L ac).bind (fun rd hd' => ?_)
        have ⟨qd, ad⟩ : ∃ q, At rd.2 bs q := by
          rcases hd' with ⟨_, _, _, _, h⟩ | ⟨_, _, q, _, h⟩
          · exact ⟨_, h⟩
          · exact ⟨_, h⟩
        refine Holds.pure ⟨fun hh => ?_, qd, ad⟩
        have : rb.1 = 1 := hh.2.1
        omega
    · omega
  · refine (geti_any L aa).bind (fun rb hb' => ?_)
    have ⟨qb, ab⟩ : ∃ q, At rb.2 bs q := by
      rcases hb' with ⟨_, _, _, _, h⟩ | ⟨_, _, q, _, h⟩
      · exact ⟨_, h⟩
      · exact ⟨_, h⟩
    refine (geti_any L ab).bind (fun rc hc' => ?_)
    have ⟨qc, ac⟩ : ∃ q, At rc.2 bs q := by
      rcases hc' with ⟨_, _, _, _, h⟩ | ⟨_, _, q, _, h⟩
      · exact ⟨_, h⟩
      · exact ⟨_, h⟩
    refine (geti_any L ac).bind (fun rd hd' => ?_)
    have ⟨qd, ad⟩ : ∃ q, At rd.2 bs q := by
      rcases hd' with ⟨_, _, _, _, h⟩ | ⟨_, _, q, _, h⟩
      · exact ⟨_, h⟩
      · exact ⟨_, h⟩
    exact Holds.pure ⟨fun hh => hone hh.1, qd, ad⟩

theorem scan_safe (L : Laws2 o At) {bs : List UInt8} {w fuel : Nat} (hf : 2 * w + bs.length < fuel) (h1 : NoOnes bs) (buf : List UInt8) (s : σ) (p : Nat) (hat : At s bs p)
    (hb : buf.length = 4 * w) :
    Holds (readScanline o fuel w buf s) (fun r => r.1.length = 4 * w ∧ ∃ q, At r.2 bs q) := by
  unfold readScanline
  refine (next4_any L hat h1).bind (fun r hr => ?_)
  obtain ⟨v, s1⟩ := r
  obtain ⟨hv, q, hs1⟩ := hr
  simp only [] at hv hs1 ⊢
  refine Holds.ite (fun _ => ?_) (fun _ => ?_)
  · generalize hL : min (u32 (v.2.2.1 * 256) ||| v.2.2.2) w = len
    have hlen : len ≤ w := by omega
    refine Holds.loop (fun _ (t : List UInt8 × σ) => t.1.length = 4 * w ∧ ∃ q, At t.2 bs q) ⟨hb, q, hs1⟩ (fun k t hk ht => ?_)
    obtain ⟨t1, q, t2⟩ := ht
    refine (chan_safe L hlen hk fuel ⟨0, t.1, t.2⟩ q t2 (Nat.zero_le _) t1 (by show 2 * (len - 0) + _ < _; omega)).bind (fun c hc => Holds.pure hc)
  · have key := Holds.while (c := fun c : Old σ => decide (c.read < w)) (f := oldStep o w) (fun c => c.buf.length = 4 * w ∧ c.read ≤ w ∧ (∃ q, At c.inp bs q) ∧
        (c.read = 0 → ¬(c.px.1 = 1 ∧ c.px.2.1 = 1 ∧ c.px.2.2.1 = 1))) (fun c => w - c.read) (fun c hc hcond => ?_) fuel ⟨0, 0, buf, s1, v⟩ ⟨hb, Nat.zero_le _, ⟨q, hs1⟩, fun _ => hv⟩ (by show w - 0 < _; omega)
    · exact key.bind (fun c hc => Holds.pure ⟨hc.1.1, hc.1.2.2.1⟩)
    · simp only [decide_eq_true_eq] at hcond
      obtain ⟨c1, c2, ⟨q, c3⟩, c4⟩ := hc
      unfold oldStep
      have step : Holds (fetch o c) (fun r => ¬(r.1.1 = 1 ∧ r.1.2.1 = 1 ∧ r.1.2.2.1 = 1) ∧ ∃ q, At r.2 bs q) := by
        unfold fetch
        exact Holds.ite (fun _ => next4_any L c3 h1) (fun h => Holds.pure ⟨c4 (by omega), q, c3⟩)
      refine step.bind (fun r hr => ?_)
      obtain ⟨v, s2⟩ := r
      obtain ⟨g1, q', g2⟩ := hr
      simp only [] at g1 g2 ⊢
      rw [if_neg g1]
      unfold put4
      simp only []
      rw [wr_of_lt (by omega), bind_ok, wr_of_lt (by rw [List.length_set]; omega), bind_ok, wr_of_lt (by rw [List.length_set, List.length_set]; omega), bind_ok,
        wr_of_lt (by rw [List.length_set, List.length_set, List.length_set]; omega), bind_ok]
      refine Holds.pure ⟨⟨by simp only [List.length_set]; exact c1, by show c.read + 1 ≤ w; omega, ⟨q', g2⟩, fun h => ?_⟩, by show w - (c.read + 1) < _; omega⟩
      have : c.read + 1 = 0 := h
      omega

theorem floats_safe (flt : Rgbe → List UInt8) (hflt : ∀ p, (flt p).length = 12) {buf : List UInt8} {w : Nat} (hb : buf.length = 4 * w) (hw : 4 * w < 4294967296)
    (off : Nat) (data : List UInt8) (hd : off + w * 12 ≤ data.length) :
    Holds (forStep 0 (u32 (4 * w)) 4 (fun j (t : Nat × List UInt8) => do
      let e ← rd buf (j + 3)
      let r ← rd buf j
      let g ← rd buf (j + 1)
      let b ← rd buf (j + 2)
      let d ← memcpy t.2 t.1 (flt (r, g, b, e)) 0 12
      pure (t.1 + 12, d)) (off, data)) (fun t => t.1 = off + w * 12 ∧ t.2.length = data.length) := by
  have hs : Scan buf w (fun x => (buf.getD (x * 4) 0, buf.getD (x * 4 + 1) 0, buf.getD (x * 4 + 2) 0, buf.getD (x * 4 + 3) 0)) :=
    ⟨hb, fun x hx => ⟨getD_of rfl (by omega), getD_of rfl (by omega), getD_of rfl (by omega), getD_of rfl (by omega)⟩⟩
  exact (floats_spec flt hflt hs hw off data hd).mono (fun t ht => ⟨ht.1, ht.2.1⟩)

/-- Any bytes after a header. -/
theorem load_safe (L : Laws2 o At) (junk : Nat → UInt8) (flt : Rgbe → List UInt8) (hflt : ∀ p, (flt p).length = 12) (cur : Loaded) {bs : List UInt8} {s : σ} (hat : At s bs 0)
    {name : List UInt8} {ls : List (List UInt8)} (hname : Named name ls) (hls : ∀ l ∈ ls, IsLine l)
    {h w : List UInt8} (hh : IsNumber h) (hw : IsNumber w) (hlen : h.length + w.length ≤ 73)
    (h0 : 0 < number h) (w0 : 0 < number w) (hfit : number w * number h * 12 < 4294967296) (fuel : Nat) (hf : 2 * number w + bs.length < fuel)
    (hn : Next bs 0 (HdrSpec.header name ls h w)) (h1 : NoOnes bs) :
    Holds (iLoadHdrInternal o junk flt fuel cur s) (fun r => (r.2.1.1.width = number w ∧ r.2.1.1.height = number h ∧ r.2.1.1.Consistent) ∧ ∃ q, At r.2.2 bs q) := by
  obtain ⟨sig, a, t, e1, e2, e3, e4⟩ := header_split hname hls h w
  rw [e4] at hn
  have hww : number w ≤ number w * number h := Nat.le_mul_of_pos_right _ h0
  have hhh : number h ≤ number w * number h := Nat.le_mul_of_pos_left _ w0
  unfold iLoadHdrInternal
  refine (head_read L junk hat fuel (by omega) sig e1 a t e3 hh hw (by omega) (by omega) hlen hn).bind (fun r hr => ?_)
  obtain ⟨s1, rfl, a1⟩ := hr
  simp only []
  rw [e2, if_neg (by decide)]
  obtain ⟨m1, m2, -, -, -, -, -, m8, hsz⟩ := texF_fields junk (number w) (number h) w0 h0 hfit
  have hdl : (texF junk (number w) (number h)).data.length = number w * number h * 12 := by rw [← hsz]; exact alloc_length _ _
  refine (Holds.loop (fun k (t : Rows σ) => t.off = k * number w * 12 ∧ t.data.length = number w * number h * 12 ∧ t.buf.length = 4 * number w ∧ ∃ q, At t.inp bs q)
    ⟨by simp, hdl, by show (alloc junk _).length = _; rw [alloc_length, u32_of_lt (by omega), Nat.mul_comm], _, a1⟩ (fun k t hk ht => ?_)).bind (fun t ht => ?_)
  · obtain ⟨t1, t2, t3, q, t4⟩ := ht
    have hkw : (k + 1) * number w ≤ number w * number h := by rw [Nat.mul_comm (number w)]; exact Nat.mul_le_mul_right _ hk
    rw [Nat.add_mul, Nat.one_mul] at hkw
    unfold row
    refine (scan_safe L hf h1 t.buf t.inp q t4 t3).bind (fun r hr => ?_)
    obtain ⟨b1, s2⟩ := r
    obtain ⟨r1, r2⟩ := hr
    refine (floats_safe flt hflt r1 (by omega) t.off t.data (by omega)).bind (fun u hu => ?_)
    obtain ⟨off, d⟩ := u
    obtain ⟨u1, u2⟩ := hu
    simp only [] at u1 u2
    refine Holds.pure ⟨?_, by show d.length = _; omega, r1, r2⟩
    show off = (k + 1) * number w * 12
    rw [u1, t1, Nat.add_mul, Nat.one_mul, Nat.add_mul]
  · obtain ⟨-, t2, -, q, t4⟩ := ht
    refine Holds.pure ⟨⟨m1, m2, m8.1, m8.2.1, m8.2.2.1, ?_⟩, q, t4⟩
    show t.data.length = _
    rw [t2]; exact hsz.symm

/-! ### Any header -/

theorem read1_any (L : Laws o At) {bs : List UInt8} {s : σ} {p : Nat} (hat : At s bs p) :
    Holds (o.read s 1 1) (fun r => r.1 = [] ∨ (∃ b t, r.1 = b :: t) ∧ p < bs.length ∧ At r.2.2 bs (p + 1)) := by
  refine (L.read 1 1 hat (by decide) (by decide)).mono (fun r hr => ?_)
  obtain ⟨h1, -, h3⟩ := hr
  have hl := at_length bs p (1 * 1)
  rw [← h1] at hl
  match hg : r.1 with
  | [] => exact .inl rfl
  | b :: t =>
    rw [hg] at hl h3
    rw [List.length_cons] at hl h3
    refine .inr ⟨⟨b, t, rfl⟩, by omega, ?_⟩
    rw [show p + 1 = p + (t.length + 1) by omega]
    exact h3

theorem skip_safe (L : Laws o At) {bs : List UInt8} (fuel : Nat) : ∀ (a : UInt8) (s : σ) (p : Nat), At s bs p → bs.length - p < fuel →
    Holds (skip o fuel a s) (fun r => ∀ s', r = some s' → ∃ q, At s' bs q) := by
  induction fuel with
  | zero => intro a s p _ h; omega
  | succ fuel ih =>
    intro a s p hat hf
    unfold skip
    refine (read1_any L hat).bind (fun r hr => ?_)
    obtain ⟨g, m, s1⟩ := r
    rcases hr with hr | ⟨⟨b, t, hr⟩, hp, h1⟩
    · simp only [] at hr
      subst hr
      exact Holds.pure (fun _ h => by cases h)
    · simp only [] at hr h1
      subst hr
      simp only []
      split
      · exact Holds.pure (fun _ h => by cases h; exact ⟨_, h1⟩)
      · exact ih b s1 (p + 1) h1 (by omega)

theorem line_safe (L : Laws o At) {bs : List UInt8} (fuel : Nat) : ∀ (a : UInt8) (buff : List UInt8) (count : Nat) (s : σ) (p : Nat), At s bs p → bs.length - p < fuel →
    buff.length = 81 → count ≤ 80 → Holds (line o fuel buff count a s) (fun r => ∀ t, r = some t → t.1.length = 81 ∧ t.2.1 ≤ 80 ∧ ∃ q, At t.2.2 bs q) := by
  induction fuel with
  | zero => intro a buff count s p _ h; omega
  | succ fuel ih =>
    intro a buff count s p hat hf hb hc
    unfold line
    split
    · exact Holds.pure (fun _ h => by cases h; exact ⟨hb, hc, p, hat⟩)
    · split
      · exact Holds.pure (fun _ h => by cases h)
      · rw [wr_of_lt (by omega), bind_ok]
        refine (read1_any L hat).bind (fun r hr => ?_)
        obtain ⟨g, m, s1⟩ := r
        rcases hr with hr | ⟨⟨b, t, hr⟩, hp, h1⟩
        · simp only [] at hr
          subst hr
          exact Holds.pure (fun _ h => by cases h)
        · simp only [] at hr h1
          subst hr
          exact ih b (buff.set count a) (count + 1) s1 (p + 1) h1 (by omega) (by rw [List.length_set, hb]) (by omega)

/-- Ends well, or with the overflow of a number. -/
def Big {α : Type} (c : C α) (P : α → Prop) : Prop := Holds c P ∨ c = .error .overflow

theorem Big.pure {α : Type} {a : α} {P : α → Prop} (h : P a) : Big (pure a) P := .inl (Holds.pure h)

theorem Big.bind {α β : Type} {c : C α} {f : α → C β} {P : α → Prop} {Q : β → Prop} (h : Big c P) (hf : ∀ a, P a → Big (f a) Q) : Big (c >>= f) Q := by
  rcases h with ⟨a, e, hp⟩ | e
  · rw [e, bind_ok]; exact hf a hp
  · rw [e]; exact .inr rfl

theorem digits_big (neg : Bool) (t : List UInt8) : Big (digits neg t) (fun _ => True) := by
  unfold digits
  simp only []
  split
  · exact Big.pure trivial
  · split
    · exact .inr rfl
    · exact Big.pure trivial

theorem scanD_big (t : List UInt8) : Big (scanD t) (fun _ => True) := by
  unfold scanD
  split
  · exact Big.pure trivial
  · split
    · exact digits_big _ _
    · split <;> exact digits_big _ _

theorem dims_big (t : List UInt8) : Big (dims t) (fun _ => True) := by
  unfold dims
  split
  · exact Big.pure trivial
  · refine (scanD_big _).bind (fun r _ => ?_)
    split
    · exact Big.pure trivial
    · split
      · exact Big.pure trivial
      · refine (scanD_big _).bind (fun r _ => ?_)
        split <;> exact Big.pure trivial

theorem head_any (L : Laws2 o At) (junk : Nat → UInt8) {bs : List UInt8} {s : σ} (hat : At s bs 0) (fuel : Nat) (hf : bs.length < fuel) :
    Big (iGetHdrHead o junk fuel s) (fun r => ∀ t, r = some t → (10 ≤ bs.length → t.1.sig = bs.take 10) ∧ ∃ q, At t.2 bs q) := by
  unfold iGetHdrHead
  refine Big.bind (.inl (into_spec L (alloc junk 10) 1 10 hat (by decide) (by decide) (by rw [alloc_length]))) (fun r hr => ?_)
  obtain ⟨n, sig, s1⟩ := r
  obtain ⟨-, h0, h1⟩ := hr
  simp only [] at h0 h1 ⊢
  have hsig : 10 ≤ bs.length → sig = bs.take 10 := by
    intro h
    rw [h0, List.drop_of_length_le (by rw [alloc_length, at_length]; omega), List.append_nil]
    rfl
  refine Big.bind (.inl (read1_any L.toLaws h1)) (fun r hr => ?_)
  obtain ⟨g, m, s2⟩ := r
  rcases hr with hr | ⟨⟨b, t, hr⟩, hp, h2⟩
  · simp only [] at hr
    subst hr
    exact Big.pure (fun _ h => by cases h)
  simp only [] at hr h2
  subst hr
  simp only []
  refine Big.bind (.inl (skip_safe L.toLaws fuel b s2 _ h2 (by omega))) (fun r hr => ?_)
  match r, hr with
  | none, _ => exact Big.pure (fun _ h => by cases h)
  | some s3, hr =>
    obtain ⟨q, h3⟩ := hr s3 rfl
    simp only []
    refine Big.bind (.inl (read1_any L.toLaws h3)) (fun r hr => ?_)
    obtain ⟨g, m, s4⟩ := r
    rcases hr with hr | ⟨⟨b, t, hr⟩, hp, h4⟩
    · simp only [] at hr
      subst hr
      exact Big.pure (fun _ h => by cases h)
    simp only [] at hr h4
    subst hr
    simp only []
    refine Big.bind (.inl (line_safe L.toLaws fuel b (alloc junk 81) 0 s4 _ h4 (by omega) (alloc_length _ _) (by omega))) (fun r hr => ?_)
    match r, hr with
    | none, _ => exact Big.pure (fun _ h => by cases h)
    | some (buff, count, s5), hr =>
      obtain ⟨l1, l2, q, l3⟩ := hr _ rfl
      simp only [] at l1 l2 l3 ⊢
      rw [wr_of_lt (by omega), bind_ok]
      exact (dims_big _).bind (fun r _ => Big.pure (fun _ h => by cases h; exact ⟨hsig, q, l3⟩))

theorem load_refused (L : Laws2 o At) (junk : Nat → UInt8) (flt : Rgbe → List UInt8) (cur : Loaded) {bs : List UInt8} {s : σ} (hat : At s bs 0) (fuel : Nat) (hf : bs.length < fuel)
    (hl : 10 ≤ bs.length) (hc : iCheckHdr (bs.take 10) = false) :
    Big (iLoadHdrInternal o junk flt fuel cur s) (fun r => (r.1 = false ∧ r.2.1 = cur) ∧ ∃ q, At r.2.2 bs q) := by
  unfold iLoadHdrInternal
  refine (head_any L junk hat fuel hf).bind (fun r hr => ?_)
  match r, hr with
  | none, _ => exact Big.pure ⟨⟨rfl, rfl⟩, 0, hat⟩
  | some (h, s1), hr =>
    obtain ⟨h1, h2⟩ := hr _ rfl
    simp only [] at h1 h2 ⊢
    rw [h1 hl, hc]
    exact Big.pure ⟨⟨rfl, rfl⟩, h2⟩

end DevIL.Hdr
