import Verif.Lemmas.Hdr
import Verif.Lemmas.GamesG
import Verif.Lemmas.PnmText
/-! Reading Radiance pictures. -/
set_option autoImplicit false
namespace DevIL.Hdr

open DevIL.Detect DevIL.DetectSpec DevIL.Image DevIL.Games
open DevIL.HdrSpec (Piece Line)
open DevIL.PnmSpec (IsNumber number)

variable {σ : Type} {o : Ops σ} {At : σ → List UInt8 → Nat → Prop}

/-! ### A channel -/

theorem geti_full (L : Laws o At) {s : σ} {bs : List UInt8} {p : Nat} (h : At s bs p) {b : UInt8} (hb : bs[p]? = some b) :
    Holds (geti o s) (fun r => r.1 = b.toNat ∧ At r.2 bs (p + 1)) := by
  refine (getc_full L h hb).bind (fun r hr => ?_)
  obtain ⟨c, t⟩ := r
  obtain ⟨rfl, h2⟩ := hr
  exact Holds.pure ⟨rfl, h2⟩

/-- The bytes `px` stand in channel `k` from pixel `j` on; the rest is as in `old`. -/
structure Put (old new : List UInt8) (k j : Nat) (px : List UInt8) : Prop where
  len : new.length = old.length
  get : ∀ x, x < px.length → new[(j + x) * 4 + k]? = px[x]?
  other : ∀ i, (∀ x, x < px.length → i ≠ (j + x) * 4 + k) → new[i]? = old[i]?

theorem Put.nil (old : List UInt8) (k j : Nat) : Put old old k j [] := ⟨rfl, fun x hx => absurd hx (Nat.not_lt_zero _), fun _ _ => rfl⟩

theorem Put.snoc {old new : List UInt8} {k j : Nat} {px : List UInt8} (h : Put old new k j px) (v : UInt8) (hl : (j + px.length) * 4 + k < old.length) :
    Put old (new.set ((j + px.length) * 4 + k) v) k j (px ++ [v]) := by
  obtain ⟨h1, h2, h3⟩ := h
  refine ⟨by rw [List.length_set, h1], fun x hx => ?_, fun i hi => ?_⟩
  · rw [List.length_append, List.length_singleton] at hx
    by_cases hx' : x < px.length
    · rw [List.getElem?_set_ne (by omega), h2 x hx', List.getElem?_append_left hx']
    · have : x = px.length := by omega
      subst this
      rw [List.getElem?_set_self (by omega), List.getElem?_append_right (Nat.le_refl _), Nat.sub_self]
      rfl
  · rw [List.getElem?_set_ne (fun e => hi px.length (by simp) e.symm)]
    exact h3 i (fun x hx => hi x (by rw [List.length_append]; omega))

theorem Put.append {a b c : List UInt8} {k j : Nat} {p q : List UInt8} (h : Put a b k j p) (g : Put b c k (j + p.length) q) : Put a c k j (p ++ q) := by
  refine ⟨by rw [g.len, h.len], fun x hx => ?_, fun i hi => ?_⟩
  · rw [List.length_append] at hx
    by_cases hx' : x < p.length
    · rw [List.getElem?_append_left hx', ← h.get x hx']
      exact g.other _ (fun y hy => by omega)
    · rw [List.getElem?_append_right (by omega), ← g.get (x - p.length) (by omega)]
      congr 3
      omega
  · rw [g.other i (fun x hx => ?_), h.other i (fun x hx => hi x (by rw [List.length_append]; omega))]
    have := hi (p.length + x) (by rw [List.length_append]; omega)
    rwa [← Nat.add_assoc] at this

theorem piece_spec (L : Laws o At) {bs : List UInt8} {w k : Nat} (hk : k < 4) (q : Piece) (hq : q.Ok) (s : Chan σ) (p : Nat) (hat : At s.inp bs p)
    (hn : Next bs p q.bytes) (hj : s.j + q.pixels.length ≤ w) (hb : s.buf.length = 4 * w) :
    Holds (piece o w k s) (fun t => At t.inp bs (p + q.bytes.length) ∧ t.j = s.j + q.pixels.length ∧ Put s.buf t.buf k s.j q.pixels) := by
  unfold piece
  cases q with
  | run n v =>
    obtain ⟨h0, h1⟩ := hq
    have hn : Next bs p [UInt8.ofNat (128 + n), v] := hn
    have hj : s.j + (List.replicate n v).length ≤ w := hj
    rw [List.length_replicate] at hj
    have e : (UInt8.ofNat (128 + n)).toNat = 128 + n := by rw [UInt8.toNat_ofNat']; omega
    refine (geti_full L hat hn.head).bind (fun r hr => ?_)
    obtain ⟨t, i1⟩ := r
    obtain ⟨ht, hi1⟩ := hr
    simp only [] at ht hi1 ⊢
    rw [e] at ht
    subst ht
    rw [if_pos (by omega)]
    refine (getb_full L hi1 hn.tail.head).bind (fun r hr => ?_)
    obtain ⟨v', i2⟩ := r
    obtain ⟨rfl, hi2⟩ := hr
    simp only [] at hi2 ⊢
    have em : min ((128 + n) % 128) (w - s.j) = n := by omega
    rw [em]
    have key := Holds.loop (n := n) (s := s.buf) (f := fun i buf => wr buf ((s.j + i) * 4 + k) v') (fun i buf => Put s.buf buf k s.j (List.replicate i v'))
      (Put.nil _ _ _) (fun i buf hi h => ?_)
    · refine key.bind (fun buf hbuf => Holds.pure ⟨hi2, ?_, hbuf⟩)
      show s.j + n = s.j + (List.replicate n v').length
      rw [List.length_replicate]
    · have hlt : (s.j + (List.replicate i v').length) * 4 + k < s.buf.length := by rw [List.length_replicate]; omega
      have := h.snoc v' hlt
      rw [List.length_replicate, ← List.replicate_succ'] at this
      rw [List.length_replicate] at hlt
      rw [wr_of_lt (by rw [h.len]; exact hlt)]
      exact Holds.ok this
  | lit px =>
    obtain ⟨h0, h1⟩ := hq
    have hn : Next bs p (UInt8.ofNat px.length :: px) := hn
    have hj : s.j + px.length ≤ w := hj
    have e : (UInt8.ofNat px.length).toNat = px.length := by rw [UInt8.toNat_ofNat']; omega
    refine (geti_full L hat hn.head).bind (fun r hr => ?_)
    obtain ⟨t, i1⟩ := r
    obtain ⟨ht, hi1⟩ := hr
    simp only [] at ht hi1 ⊢
    rw [e] at ht
    subst ht
    rw [if_neg (by omega), Nat.min_eq_left (by omega)]
    have key := Holds.loop (n := px.length) (s := ({ s with inp := i1 } : Chan σ)) (f := fun _ s => do
      let (v, inp) ← getb o s.inp
      let buf ← wr s.buf (s.j * 4 + k) v
      pure ⟨s.j + 1, buf, inp⟩) (fun i (t : Chan σ) => At t.inp bs (p + 1 + i) ∧ t.j = s.j + i ∧ Put s.buf t.buf k s.j (px.take i))
      ⟨hi1, rfl, Put.nil _ _ _⟩ (fun i t hi h => ?_)
    · refine key.mono (fun t ht => ⟨?_, ht.2.1, ?_⟩)
      · have := ht.1
        show At t.inp bs (p + (px.length + 1))
        rw [Nat.add_assoc, Nat.add_comm 1] at this
        exact this
      · have := ht.2.2
        rwa [List.take_length] at this
    · obtain ⟨g1, g2, g3⟩ := h
      have hb' : bs[p + 1 + i]? = some px[i] := by
        have hn := hn.tail
        have e : px = px.take i ++ (px[i] :: px.drop (i + 1)) := by
          rw [← List.drop_eq_getElem_cons hi, List.take_append_drop]
        rw [e] at hn
        have := hn.right.head
        rw [List.length_take, Nat.min_eq_left (by omega)] at this
        exact this
      refine (getb_full L g1 hb').bind (fun r hr => ?_)
      obtain ⟨c, u⟩ := r
      obtain ⟨rfl, hu⟩ := hr
      have el : (px.take i).length = i := by rw [List.length_take]; omega
      have hlt : (s.j + (px.take i).length) * 4 + k < s.buf.length := by rw [el]; omega
      have := g3.snoc px[i] hlt
      rw [el] at this hlt
      show Holds (wr t.buf (t.j * 4 + k) px[i] >>= _) _
      rw [g2, wr_of_lt (by rw [g3.len]; exact hlt), bind_ok]
      refine Holds.pure ⟨hu, by show s.j + i + 1 = _; omega, ?_⟩
      rw [List.take_succ_eq_append_getElem hi]
      exact this

theorem pixels_cons (q : Piece) (ps : List Piece) : HdrSpec.pixels (q :: ps) = q.pixels ++ HdrSpec.pixels ps := rfl
theorem bytes_cons (q : Piece) (ps : List Piece) : HdrSpec.bytes (q :: ps) = q.bytes ++ HdrSpec.bytes ps := rfl

theorem ok_pos (q : Piece) (h : q.Ok) : 0 < q.pixels.length ∧ 0 < q.bytes.length := by
  cases q with
  | run n v => exact ⟨by show 0 < (List.replicate n v).length; rw [List.length_replicate]; exact h.1, by show 0 < 2; decide⟩
  | lit px => exact ⟨h.1, by show 0 < px.length + 1; omega⟩

theorem pieces_len (ps : List Piece) (h : ∀ q ∈ ps, q.Ok) : ps.length ≤ (HdrSpec.bytes ps).length := by
  induction ps with
  | nil => exact Nat.zero_le _
  | cons q ps ih =>
    rw [bytes_cons, List.length_append, List.length_cons]
    have := ih (fun r hr => h r (List.mem_cons_of_mem _ hr))
    have := (ok_pos q (h q List.mem_cons_self)).2
    omega

theorem chan_spec (L : Laws o At) {bs : List UInt8} {w k : Nat} (hk : k < 4) (ps : List Piece) : ∀ (s : Chan σ) (p fuel : Nat), (∀ q ∈ ps, q.Ok) → At s.inp bs p →
    Next bs p (HdrSpec.bytes ps) → s.j + (HdrSpec.pixels ps).length = w → s.buf.length = 4 * w → ps.length < fuel →
    Holds (whileF (fun c : Chan σ => decide (c.j < w)) (piece o w k) fuel s) (fun t => At t.inp bs (p + (HdrSpec.bytes ps).length) ∧
      Put s.buf t.buf k s.j (HdrSpec.pixels ps)) := by
  induction ps with
  | nil =>
    intro s p fuel _ hat _ hw _ hf
    obtain ⟨fuel, rfl⟩ : ∃ f, fuel = f + 1 := ⟨fuel - 1, by omega⟩
    have hw : s.j + 0 = w := hw
    unfold whileF
    rw [if_neg (by simp; omega)]
    exact Holds.ok ⟨hat, Put.nil _ _ _⟩
  | cons q ps ih =>
    intro s p fuel hok hat hn hw hb hf
    rw [List.length_cons] at hf
    obtain ⟨fuel, rfl⟩ : ∃ f, fuel = f + 1 := ⟨fuel - 1, by omega⟩
    rw [pixels_cons, List.length_append] at hw
    rw [bytes_cons] at hn
    have hp := ok_pos q (hok q List.mem_cons_self)
    unfold whileF
    rw [if_pos (by simp; omega)]
    refine (piece_spec L hk q (hok q List.mem_cons_self) s p hat hn.left (by omega) hb).bind (fun t ht => ?_)
    obtain ⟨h1, h2, h3⟩ := ht
    refine (ih t (p + q.bytes.length) fuel (fun r hr => hok r (List.mem_cons_of_mem _ hr)) h1 hn.right (by omega) (by rw [h3.len, hb]) (by omega)).mono
      (fun u hu => ⟨?_, ?_⟩)
    · have := hu.1
      rw [bytes_cons, List.length_append, ← Nat.add_assoc]
      exact this
    · have g := hu.2
      rw [h2] at g
      rw [pixels_cons]
      exact h3.append g

/-! ### A scan line -/

/-- The scan line holds `px x` at pixel `x`. -/
def Scan (buf : List UInt8) (w : Nat) (px : Nat → Rgbe) : Prop := buf.length = 4 * w ∧ ∀ x, x < w →
  buf[x * 4]? = some (px x).1 ∧ buf[x * 4 + 1]? = some (px x).2.1 ∧ buf[x * 4 + 2]? = some (px x).2.2.1 ∧ buf[x * 4 + 3]? = some (px x).2.2.2

theorem next4_spec (L : Laws o At) {bs : List UInt8} {s : σ} {p : Nat} (hat : At s bs p) {a b c d : UInt8} (hn : Next bs p [a, b, c, d]) :
    Holds (next4 o s) (fun r => r.1 = (a.toNat, b.toNat, c.toNat, d.toNat) ∧ At r.2 bs (p + 4)) := by
  unfold next4
  refine (geti_full L hat hn.head).bind (fun r1 h1 => ?_)
  refine (geti_full L h1.2 hn.tail.head).bind (fun r2 h2 => ?_)
  refine (geti_full L h2.2 hn.tail.tail.head).bind (fun r3 h3 => ?_)
  refine (geti_full L h3.2 hn.tail.tail.tail.head).bind (fun r4 h4 => ?_)
  exact Holds.pure ⟨by rw [h1.1, h2.1, h3.1, h4.1], h4.2⟩

theorem length_word {w : Nat} (h : w < 65536) : u32 ((UInt8.ofNat (w / 256)).toNat * 256) ||| (UInt8.ofNat (w % 256)).toNat = w := by
  rw [UInt8.toNat_ofNat', UInt8.toNat_ofNat', Nat.mod_eq_of_lt (a := w / 256) (by omega), Nat.mod_eq_of_lt (a := w % 256) (by omega), u32_of_lt (by omega)]
  have := Nat.two_pow_add_eq_or_of_lt (i := 8) (b := w % 256) (by omega) (w / 256)
  rw [Nat.mul_comm]
  have e : (2 : Nat) ^ 8 = 256 := by decide
  rw [e] at this
  rw [← this]
  omega

theorem getD_of {l : List UInt8} {x w : Nat} (h : l.length = w) (hx : x < w) : l[x]? = some (l.getD x 0) := by
  rw [List.getD_eq_getElem?_getD, List.getElem?_eq_getElem (by omega)]
  rfl

theorem line_spec (L : Laws o At) {bs : List UInt8} {w : Nat} (hw : w < 65536) (l : Line) (hl : l.Ok w) (fuel : Nat) (hf : bs.length < fuel) (buf : List UInt8)
    (hb : buf.length = 4 * w) (s : σ) (p : Nat) (hat : At s bs p) (hn : Next bs p (l.bytes w)) :
    Holds (readScanline o fuel w buf s) (fun r => Scan r.1 w l.px ∧ At r.2 bs (p + (l.bytes w).length)) := by
  have hfit : (l.bytes w).length ≤ bs.length := by
    rcases hn.fit with h | h
    · omega
    · rw [h]; exact Nat.zero_le _
  have hn4 : Next bs p ([2, 2, UInt8.ofNat (w / 256), UInt8.ofNat (w % 256)] ++ (HdrSpec.bytes l.r ++ (HdrSpec.bytes l.g ++ (HdrSpec.bytes l.b ++ HdrSpec.bytes l.e)))) := by
    have : l.bytes w = [2, 2, UInt8.ofNat (w / 256), UInt8.ofNat (w % 256)] ++ (HdrSpec.bytes l.r ++ (HdrSpec.bytes l.g ++ (HdrSpec.bytes l.b ++ HdrSpec.bytes l.e))) := by
      simp [Line.bytes]
    rw [← this]; exact hn
  have hlen : (l.bytes w).length = 4 + (HdrSpec.bytes l.r).length + (HdrSpec.bytes l.g).length + (HdrSpec.bytes l.b).length + (HdrSpec.bytes l.e).length := by
    simp only [Line.bytes, List.length_append, List.length_cons, List.length_nil]
  have okr : ∀ q ∈ l.r, q.Ok := fun q hq => hl.pieces q (by simp [hq])
  have okg : ∀ q ∈ l.g, q.Ok := fun q hq => hl.pieces q (by simp [hq])
  have okb : ∀ q ∈ l.b, q.Ok := fun q hq => hl.pieces q (by simp [hq])
  have oke : ∀ q ∈ l.e, q.Ok := fun q hq => hl.pieces q (by simp [hq])
  have lr := pieces_len _ okr
  have lg := pieces_len _ okg
  have lb := pieces_len _ okb
  have le := pieces_len _ oke
  unfold readScanline
  refine (next4_spec L hat hn4.left).bind (fun r hr => ?_)
  obtain ⟨v, s1⟩ := r
  obtain ⟨hv, h1⟩ := hr
  simp only [] at hv h1 ⊢
  subst hv
  rw [if_pos ⟨rfl, rfl⟩]
  simp only []
  rw [length_word hw, Nat.min_self]
  have n1 := hn4.right
  have n2 := n1.right
  have n3 := n2.right
  have n4 := n3.right
  simp only [List.length_cons, List.length_nil, Nat.zero_add, Nat.reduceAdd] at n1 n2 n3 n4
  rw [loopN_succ, loopN_succ, loopN_succ, loopN_succ, loopN_zero]
  have c0 := chan_spec L (k := 0) (by decide) l.r ⟨0, buf, s1⟩ (p + 4) fuel okr h1 n1.left (by show 0 + _ = w; rw [hl.r]; omega) hb (by omega)
  obtain ⟨t0, e0, a0, p0⟩ := c0
  have c1 := chan_spec L (k := 1) (by decide) l.g ⟨0, t0.buf, t0.inp⟩ _ fuel okg a0 n2.left (by show 0 + _ = w; rw [hl.g]; omega) (by show t0.buf.length = _; rw [p0.len]; exact hb) (by omega)
  obtain ⟨t1, e1, a1, p1⟩ := c1
  have c2 := chan_spec L (k := 2) (by decide) l.b ⟨0, t1.buf, t1.inp⟩ _ fuel okb a1 n3.left (by show 0 + _ = w; rw [hl.b]; omega) (by show t1.buf.length = _; rw [p1.len, p0.len]; exact hb) (by omega)
  obtain ⟨t2, e2, a2, p2⟩ := c2
  have c3 := chan_spec L (k := 3) (by decide) l.e ⟨0, t2.buf, t2.inp⟩ _ fuel oke a2 n4 (by show 0 + _ = w; rw [hl.e]; omega) (by show t2.buf.length = _; rw [p2.len, p1.len, p0.len]; exact hb) (by omega)
  obtain ⟨t3, e3, a3, p3⟩ := c3
  simp only [bind_ok, e0, e1, e2, e3, pure_eq_ok]
  refine Holds.ok ⟨⟨?_, fun x hx => ?_⟩, ?_⟩
  · show t3.buf.length = _
    rw [p3.len, p2.len, p1.len, p0.len]
    exact hb
  · have g0 := p0.get x (by rw [hl.r]; exact hx)
    have g1 := p1.get x (by rw [hl.g]; exact hx)
    have g2 := p2.get x (by rw [hl.b]; exact hx)
    have g3 := p3.get x (by rw [hl.e]; exact hx)
    simp only [Nat.zero_add, Nat.add_zero] at g0 g1 g2 g3
    refine ⟨?_, ?_, ?_, ?_⟩
    · show t3.buf[x * 4]? = some ((HdrSpec.pixels l.r).getD x 0)
      rw [p3.other _ (fun y _ => by simp only []; omega), p2.other _ (fun y _ => by simp only []; omega), p1.other _ (fun y _ => by simp only []; omega), g0, getD_of hl.r hx]
    · show t3.buf[x * 4 + 1]? = some ((HdrSpec.pixels l.g).getD x 0)
      rw [p3.other _ (fun y _ => by simp only []; omega), p2.other _ (fun y _ => by simp only []; omega), g1, getD_of hl.g hx]
    · show t3.buf[x * 4 + 2]? = some ((HdrSpec.pixels l.b).getD x 0)
      rw [p3.other _ (fun y _ => by simp only []; omega), g2, getD_of hl.b hx]
    · show t3.buf[x * 4 + 3]? = some ((HdrSpec.pixels l.e).getD x 0)
      rw [g3, getD_of hl.e hx]
  · show At t3.inp bs _
    rw [hlen]
    have e : p + (4 + (HdrSpec.bytes l.r).length + (HdrSpec.bytes l.g).length + (HdrSpec.bytes l.b).length + (HdrSpec.bytes l.e).length) =
      p + 4 + (HdrSpec.bytes l.r).length + (HdrSpec.bytes l.g).length + (HdrSpec.bytes l.b).length + (HdrSpec.bytes l.e).length := by omega
    rw [e]
    exact a3

/-! ### The block -/

/-- Turning a scan line into floats. -/
theorem floats_spec (flt : Rgbe → List UInt8) (hflt : ∀ p, (flt p).length = 12) {buf : List UInt8} {w : Nat} {px : Nat → Rgbe} (hs : Scan buf w px) (hw : 4 * w < 4294967296)
    (off : Nat) (data : List UInt8) (hd : off + w * 12 ≤ data.length) :
    Holds (forStep 0 (u32 (4 * w)) 4 (fun j (t : Nat × List UInt8) => do
      let e ← rd buf (j + 3)
      let r ← rd buf j
      let g ← rd buf (j + 1)
      let b ← rd buf (j + 2)
      let d ← memcpy t.2 t.1 (flt (r, g, b, e)) 0 12
      pure (t.1 + 12, d)) (off, data)) (fun t => t.1 = off + w * 12 ∧ t.2.length = data.length ∧
        (∀ i, i < off → t.2[i]? = data[i]?) ∧ ∀ x c, x < w → c < 12 → t.2[off + x * 12 + c]? = (flt (px x))[c]?) := by
  rw [u32_of_lt hw, Nat.mul_comm 4 w, forStep_mul (by decide)]
  refine Holds.loop (fun k (t : Nat × List UInt8) => t.1 = off + k * 12 ∧ t.2.length = data.length ∧
        (∀ i, i < off → t.2[i]? = data[i]?) ∧ ∀ x c, x < k → c < 12 → t.2[off + x * 12 + c]? = (flt (px x))[c]?)
    ⟨by simp, rfl, fun _ _ => rfl, fun x c hx => absurd hx (Nat.not_lt_zero _)⟩ (fun k t hk ht => ?_)
  obtain ⟨h1, h2, h3, h4⟩ := ht
  obtain ⟨g0, g1, g2, g3⟩ := hs.2 k hk
  rw [rd_of_some g3, bind_ok, rd_of_some g0, bind_ok, rd_of_some g1, bind_ok, rd_of_some g2, bind_ok]
  obtain ⟨d', e, l, s⟩ := memcpy_get (dst := t.2) (dOff := t.1) (src := flt (px k)) (sOff := 0) (n := 12) (by rw [hflt]) (by omega)
  show Holds (memcpy t.2 t.1 (flt (px k)) 0 12 >>= _) _
  rw [e, bind_ok]
  refine Holds.pure ⟨by show t.1 + 12 = _; omega, by show d'.length = _; omega, fun i hi => ?_, fun x c hx hc => ?_⟩
  · show d'[i]? = _
    rw [s, if_neg (by omega), h3 i hi]
  · show d'[_]? = _
    rw [s]
    by_cases hx' : x < k
    · rw [if_neg (by omega)]
      exact h4 x c hx' hc
    · have : x = k := by omega
      subst this
      rw [if_pos (by omega)]
      congr 1
      omega

/-- All the scan lines, if reading each gives what `px` says. -/
theorem rows_spec (flt : Rgbe → List UInt8) (hflt : ∀ p, (flt p).length = 12) {bs : List UInt8} {w h fuel : Nat} {px : Nat → Nat → Rgbe} (hw : 4 * w < 4294967296)
    (pos : Nat → Nat) (hrow : ∀ y, y < h → ∀ buf s, buf.length = 4 * w → At s bs (pos y) → Holds (readScanline o fuel w buf s) (fun r => Scan r.1 w (px y) ∧ At r.2 bs (pos (y + 1))))
    (data buf : List UInt8) (s : σ) (hd : data.length = w * h * 12) (hb : buf.length = 4 * w) (hat : At s bs (pos 0)) :
    Holds (loopN h (fun _ t => row o flt fuel w t) ⟨0, data, buf, s⟩) (fun t => t.data.length = w * h * 12 ∧ At t.inp bs (pos h) ∧
      ∀ x y c, x < w → y < h → c < 12 → t.data[(y * w + x) * 12 + c]? = (flt (px y x))[c]?) := by
  have key := Holds.loop (n := h) (s := (⟨0, data, buf, s⟩ : Rows σ)) (f := fun _ t => row o flt fuel w t) (fun k (t : Rows σ) => t.off = k * w * 12 ∧ t.data.length = w * h * 12 ∧ t.buf.length = 4 * w ∧ At t.inp bs (pos k) ∧
      ∀ x y c, x < w → y < k → c < 12 → t.data[(y * w + x) * 12 + c]? = (flt (px y x))[c]?) ⟨by simp, hd, hb, hat, fun x y c _ hy => absurd hy (Nat.not_lt_zero _)⟩ (fun k t hk ht => ?_)
  · exact key.mono (fun t ht => ⟨ht.2.1, ht.2.2.2.1, ht.2.2.2.2⟩)
  · obtain ⟨h1, h2, h3, h4, h5⟩ := ht
    have hkw : (k + 1) * w ≤ w * h := by rw [Nat.mul_comm w h]; exact Nat.mul_le_mul_right w hk
    rw [Nat.add_mul, Nat.one_mul] at hkw
    unfold row
    refine (hrow k hk t.buf t.inp h3 h4).bind (fun r hr => ?_)
    obtain ⟨b1, s1⟩ := r
    obtain ⟨r1, r2⟩ := hr
    refine (floats_spec flt hflt r1 hw t.off t.data (by omega)).bind (fun u hu => ?_)
    obtain ⟨off, d⟩ := u
    obtain ⟨u1, u2, u3, u4⟩ := hu
    simp only [] at u1 u2 u3 u4
    refine Holds.pure ⟨?_, by show d.length = _; omega, r1.1, r2, fun x y c hx hy hc => ?_⟩
    · show off = (k + 1) * w * 12
      rw [u1, h1, Nat.add_mul, Nat.one_mul, Nat.add_mul]
    · show d[_]? = _
      by_cases hy' : y < k
      · have : (y + 1) * w ≤ k * w := Nat.mul_le_mul_right w hy'
        rw [Nat.add_mul, Nat.one_mul] at this
        rw [u3 _ (by omega)]
        exact h5 x y c hx hy' hc
      · have : y = k := by omega
        subst this
        rw [← u4 x c hx hc]
        congr 1
        omega

end DevIL.Hdr
