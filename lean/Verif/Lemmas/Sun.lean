import Verif.Model.Sun
import Verif.Spec.Sun
import Verif.Lemmas.GamesG
/-! Lemmas for Sun raster files. -/
set_option autoImplicit false
namespace DevIL.Sun
open DevIL.Games DevIL.Detect DevIL.DetectSpec DevIL.GamesSpec DevIL.SunSpec

variable {σ : Type} {o : Ops σ} {At : σ → List UInt8 → Nat → Prop}

theorem splice_get {β : Type} {d g : List β} {q : Nat} (h : q + g.length ≤ d.length) (i : Nat) :
    (splice d q g)[i]? = if q ≤ i ∧ i < q + g.length then g[i - q]? else d[i]? := by
  obtain ⟨d', e, -, hg⟩ := memcpy_get (dst := d) (src := g) (dOff := q) (sOff := 0) (n := g.length) (by omega) h
  have : d' = splice d q g := by
    unfold memcpy at e
    rw [if_pos (by omega), if_pos h] at e
    simp at e
    exact e.symm
  rw [← this, hg]
  simp

/-- The first `k` rows, of `n` bytes, are right. -/
def Done (n N : Nat) (f : Nat → Nat → Option UInt8) (k : Nat) (d : List UInt8) : Prop :=
  d.length = N ∧ ∀ y j, y < k → j < n → d[y * n + j]? = f y j

theorem Done.next {n N : Nat} {f : Nat → Nat → Option UInt8} {k : Nat} {d g : List UInt8} (h : Done n N f k d) (hg : g.length = n)
    (hfit : k * n + n ≤ N) (hf : ∀ j, j < n → g[j]? = f k j) : Done n N f (k + 1) (splice d (k * n) g) := by
  have hl := h.1
  refine ⟨(splice_length (by omega)).trans hl, fun y j hy hj => ?_⟩
  rw [splice_get (by omega)]
  by_cases e : y = k
  · subst e
    rw [if_pos (by omega), ← hf j hj]
    congr 1
    omega
  · have : y * n + n ≤ k * n := by
      have := Nat.mul_le_mul_right n (show y + 1 ≤ k by omega)
      rw [Nat.add_mul, Nat.one_mul] at this
      exact this
    rw [if_neg (by omega)]
    exact h.2 y j (by omega) hj

theorem row_fit {k h n : Nat} (hk : k < h) : k * n + n ≤ h * n := by
  have := Nat.mul_le_mul_right n (show k + 1 ≤ h by omega)
  rw [Nat.add_mul, Nat.one_mul] at this
  exact this

/-! ### Rows that are not compressed -/

theorem intoAt_spec (L : Laws2 o At) {s : σ} {bs : List UInt8} {p : Nat} (h : At s bs p) (d : List UInt8) (off n : Nat) (hn : n < 4294967296)
    (hfit : off + n ≤ d.length) :
    Holds (intoAt o s d off n) (fun r => r.1 = splice d off (at_ bs p n) ∧ At r.2 bs (p + (at_ bs p n).length)) := by
  unfold intoAt
  refine (L.read 1 n h (by decide) (by omega)).bind (fun r hr => ?_)
  obtain ⟨g, m, t⟩ := r
  obtain ⟨h1, -, h3⟩ := hr
  rw [Nat.one_mul] at h1
  simp only at h1 h3 ⊢
  subst h1
  have hl := at_length bs p n
  have e : memcpy d off (at_ bs p n) 0 (at_ bs p n).length = .ok (splice d off (at_ bs p n)) := by
    unfold memcpy
    rw [if_pos (by omega), if_pos (by omega)]
    simp [splice]
  rw [e, bind_ok]
  exact Holds.pure ⟨rfl, h3⟩

theorem rawRow_any (L : Laws2 o At) {bs : List UInt8} {n i : Nat} {t : List UInt8 × σ} {p : Nat} (h : At t.2 bs p) (hfit : i * n + n ≤ t.1.length)
    (hlt : t.1.length < 4294967296) :
    Holds (rawRow o n n i t) (fun r => r.1 = splice t.1 (i * n) (at_ bs p n) ∧ (∃ q, At r.2 bs q) ∧ (p + even n ≤ bs.length → At r.2 bs (p + even n))) := by
  unfold rawRow even
  rw [u32_of_lt (by omega)]
  refine (intoAt_spec L h t.1 (i * n) n (by omega) hfit).bind (fun r hr => ?_)
  obtain ⟨h1, h2⟩ := hr
  rw [at_length] at h2
  refine Holds.ite (fun ho => ?_) (fun ho => ?_)
  · refine (L.getc h2).bind (fun q hq => Holds.pure ⟨h1, hq.1, fun hle => ?_⟩)
    have := (hq.2 (by omega)).2
    rw [show p + (n + n % 2) = p + min n (bs.length - p) + 1 by omega]
    exact this
  · refine Holds.pure ⟨h1, ⟨_, h2⟩, fun hle => ?_⟩
    rw [show p + (n + n % 2) = p + min n (bs.length - p) by omega]
    exact h2

theorem raw_rows (L : Laws2 o At) {bs : List UInt8} {n h base : Nat} {d : List UInt8} {s : σ} (hs : At s bs base) (hd : d.length = h * n)
    (hlt : h * n < 4294967296) (hall : ∀ y, y < h → base + y * even n + n ≤ bs.length) :
    Holds (loopN h (fun i t => rawRow o n n i t) (d, s)) (fun r => Done n (h * n) (fun y j => bs[base + y * even n + j]?) h r.1 ∧ ∃ q, At r.2 bs q) := by
  refine (Holds.loop (fun k t => Done n (h * n) (fun y j => bs[base + y * even n + j]?) k t.1 ∧ (∃ q, At t.2 bs q) ∧
    (k < h → At t.2 bs (base + k * even n))) (n := h) (s := (d, s)) ⟨⟨hd, fun _ _ h => absurd h (by omega)⟩, ⟨_, hs⟩, fun _ => by simpa using hs⟩
    (fun k t hk hi => ?_)).mono (fun r hr => ⟨hr.1, hr.2.1⟩)
  obtain ⟨h1, -, h3⟩ := hi
  have hf := row_fit (n := n) hk
  refine (rawRow_any L (h3 hk) (by rw [h1.1]; exact hf) (by rw [h1.1]; exact hlt)).mono (fun r hr => ?_)
  obtain ⟨e, hq, hp⟩ := hr
  have ha := hall k hk
  refine ⟨?_, hq, fun hk1 => ?_⟩
  · rw [e]
    refine h1.next (by rw [at_length]; omega) hf (fun j hj => at_get _ _ _ _ hj)
  · have := hp (by
      have := hall (k + 1) hk1
      rw [Nat.add_mul, Nat.one_mul] at this
      omega)
    rw [show base + (k + 1) * even n = base + k * even n + even n by rw [Nat.add_mul, Nat.one_mul]; omega]
    exact this

theorem raw_rows_any (L : Laws2 o At) {bs : List UInt8} {n h p : Nat} {d : List UInt8} {s : σ} (hs : At s bs p) (hd : d.length = h * n)
    (hlt : h * n < 4294967296) : Holds (loopN h (fun i t => rawRow o n n i t) (d, s)) (fun r => r.1.length = h * n ∧ ∃ q, At r.2 bs q) := by
  refine Holds.loop (fun _ t => t.1.length = h * n ∧ ∃ q, At t.2 bs q) (n := h) (s := (d, s)) ⟨hd, _, hs⟩ (fun k t hk hi => ?_)
  obtain ⟨h1, q, hq⟩ := hi
  have hf := row_fit (n := n) hk
  refine (rawRow_any L hq (by omega) (by omega)).mono (fun r hr => ⟨?_, hr.2.1⟩)
  rw [hr.1, splice_length (by rw [at_length]; omega), h1]

/-! ### Compressed rows -/

theorem piece_step (L : Laws2 o At) {bs : List UInt8} {p length : Nat} (k : Part) (hk : k.Ok) (t : Rle σ) (hat : At t.inp bs p) (hn : Next bs p k.bytes)
    (hi : t.i + k.pixels.length ≤ length) (ho : t.off + k.pixels.length ≤ t.data.length) :
    Holds (rleStep o length t) (fun r => At r.inp bs (p + k.bytes.length) ∧ r.i = t.i + k.pixels.length ∧ r.off = t.off + k.pixels.length ∧
      r.data = splice t.data t.off k.pixels) := by
  unfold rleStep
  cases k with
  | lit b =>
    refine (getb_full L.toLaws hat hn.head).bind (fun r hr => ?_)
    obtain ⟨c, u⟩ := r
    obtain ⟨rfl, h2⟩ := hr
    simp only [Part.Ok] at hk
    simp only [Part.pixels, List.length_cons, List.length_nil] at hi ho
    dsimp only
    rw [if_neg hk, wr_splice (by omega), bind_ok]
    exact Holds.pure ⟨h2, rfl, rfl, rfl⟩
  | lit80 =>
    refine (getb_full L.toLaws hat hn.head).bind (fun r hr => ?_)
    obtain ⟨c, u⟩ := r
    obtain ⟨rfl, h2⟩ := hr
    simp only [Part.pixels, List.length_cons, List.length_nil] at hi ho
    dsimp only at h2 ⊢
    rw [if_pos rfl]
    refine (getc_full L.toLaws h2 hn.tail.head).bind (fun r hr => ?_)
    obtain ⟨c, u⟩ := r
    obtain ⟨rfl, h3⟩ := hr
    dsimp only at h3 ⊢
    rw [if_pos (show UInt8.toNat 0 = 0 from rfl), wr_splice (by omega), bind_ok]
    exact Holds.pure ⟨h3, rfl, rfl, rfl⟩
  | run n v =>
    refine (getb_full L.toLaws hat hn.head).bind (fun r hr => ?_)
    obtain ⟨c, u⟩ := r
    obtain ⟨rfl, h2⟩ := hr
    simp only [Part.Ok] at hk
    simp only [Part.pixels, List.length_replicate] at hi ho
    dsimp only at h2 ⊢
    rw [if_pos rfl]
    refine (getc_full L.toLaws h2 hn.tail.head).bind (fun r hr => ?_)
    obtain ⟨c, u⟩ := r
    obtain ⟨rfl, h3⟩ := hr
    dsimp only at h3 ⊢
    rw [if_neg (fun h => hk (UInt8.toNat_inj.mp (by simpa using h)))]
    refine (getb_full L.toLaws h3 hn.tail.tail.head).bind (fun r hr => ?_)
    obtain ⟨c, u⟩ := r
    obtain ⟨rfl, h4⟩ := hr
    have := n.toNat_lt
    dsimp only at h4 ⊢
    rw [u32_of_lt (by omega), Nat.min_eq_left (by omega), run_loop _ _ _ _ (by omega), bind_ok]
    refine Holds.pure ⟨h4, ?_, ?_, ?_⟩
    · simp [Part.pixels]
    · simp [Part.pixels]
    · simp [Part.pixels, splice]

theorem piece_loop (L : Laws2 o At) {bs : List UInt8} {length : Nat} (ks : List Part) : ∀ (t : Rle σ) (p fuel : Nat), (∀ k ∈ ks, k.Ok) → At t.inp bs p →
    t.i + (ks.flatMap Part.pixels).length = length → t.off + (ks.flatMap Part.pixels).length ≤ t.data.length → Next bs p (ks.flatMap Part.bytes) →
    ks.length < fuel →
    Holds (whileF (fun r : Rle σ => decide (r.i < length)) (rleStep o length) fuel t) (fun r => At r.inp bs (p + (ks.flatMap Part.bytes).length) ∧ r.i = length ∧
      r.data = splice t.data t.off (ks.flatMap Part.pixels)) := by
  induction ks with
  | nil =>
    intro t p fuel _ hat hi _ _ hf
    obtain ⟨f, rfl⟩ : ∃ f, fuel = f + 1 := ⟨fuel - 1, by omega⟩
    unfold whileF
    simp only [List.flatMap_nil, List.length_nil, Nat.add_zero] at hi ⊢
    rw [if_neg (by simp; omega)]
    exact Holds.ok ⟨hat, hi, by simp⟩
  | cons k ks ih =>
    intro t p fuel hok hat hi ho hn hf
    obtain ⟨f, rfl⟩ : ∃ f, fuel = f + 1 := ⟨fuel - 1, by omega⟩
    have hpos : 0 < k.pixels.length := by cases k <;> simp [Part.pixels]
    simp only [List.flatMap_cons, List.length_append, List.length_cons] at hi ho hn hf ⊢
    unfold whileF
    rw [if_pos (by simp; omega)]
    refine (piece_step L k (hok k (by simp)) t hat hn.left (by omega) (by omega)).bind (fun r hr => ?_)
    obtain ⟨h1, h2, h3, h4⟩ := hr
    refine (ih r _ f (fun k hk => hok k (by simp [hk])) h1 (by omega) (by rw [h4, splice_length (by omega)]; omega) hn.right (by omega)).mono (fun u hu => ?_)
    obtain ⟨g1, g2, g3⟩ := hu
    refine ⟨by rw [← Nat.add_assoc]; exact g1, g2, ?_⟩
    rw [g3, h3, h4, splice_splice (by omega)]

theorem pieces_le (ks : List Part) : ks.length ≤ (ks.flatMap Part.pixels).length := by
  induction ks with
  | nil => simp
  | cons k ks ih =>
    have hpos : 0 < k.pixels.length := by cases k <;> simp [Part.pixels]
    simp only [List.flatMap_cons, List.length_append, List.length_cons]
    omega

theorem rleRow_full (L : Laws2 o At) {bs : List UInt8} {n i p fuel : Nat} {t : List UInt8 × σ} (h : At t.2 bs p) (r : List Part × UInt8)
    (hok : ∀ k ∈ r.1, k.Ok) (hpx : (r.1.flatMap Part.pixels).length = n) (hn : Next bs p (packed n r)) (hfit : i * n + n ≤ t.1.length)
    (hlt : t.1.length < 4294967296) (hf : n < fuel) :
    Holds (rleRow o fuel n i t) (fun u => u.1 = splice t.1 (i * n) (r.1.flatMap Part.pixels) ∧ At u.2 bs (p + (packed n r).length)) := by
  unfold rleRow
  rw [Nat.mul_comm n i, u32_of_lt (by omega)]
  have hle := pieces_le r.1
  unfold packed at hn ⊢
  refine (piece_loop L r.1 ⟨0, i * n, t.1, t.2⟩ p fuel hok h (by simpa using hpx) (by show i * n + _ ≤ t.1.length; omega) hn.left (by omega)).bind (fun u hu => ?_)
  obtain ⟨h1, h2, h3⟩ := hu
  rw [h2]
  by_cases e : n % 2 = 1
  · rw [if_pos e] at hn ⊢
    rw [if_pos (by omega)]
    refine (getc_full L.toLaws h1 hn.right.head).bind (fun q hq => Holds.pure ⟨h3, ?_⟩)
    rw [List.length_append, ← Nat.add_assoc]
    exact hq.2
  · rw [if_neg e, if_neg (by omega)]
    exact Holds.pure ⟨h3, by simpa using h1⟩

theorem rle_rows (L : Laws2 o At) {bs : List UInt8} {n h fuel : Nat} (rs : List (List Part × UInt8)) (hlen : rs.length = h) {d : List UInt8} {s : σ} {p : Nat}
    (hs : At s bs p) (hd : d.length = h * n) (hlt : h * n < 4294967296) (hok : ∀ r ∈ rs, ∀ k ∈ r.1, k.Ok)
    (hpx : ∀ r ∈ rs, (r.1.flatMap Part.pixels).length = n) (hn : Next bs p (rs.flatMap (packed n))) (hf : n < fuel) :
    Holds (loopN h (fun i t => rleRow o fuel n i t) (d, s)) (fun r =>
      Done n (h * n) (fun y j => (rs[y]?.bind (fun r => (r.1.flatMap Part.pixels)[j]?))) h r.1 ∧ ∃ q, At r.2 bs q) := by
  refine (Holds.loop (fun k t => Done n (h * n) (fun y j => (rs[y]?.bind (fun r => (r.1.flatMap Part.pixels)[j]?))) k t.1 ∧
    At t.2 bs (p + ((rs.take k).flatMap (packed n)).length)) (n := h) (s := (d, s)) ⟨⟨hd, fun _ _ h => absurd h (by omega)⟩, by simpa using hs⟩
    (fun k t hk hi => ?_)).mono (fun r hr => ⟨hr.1, _, hr.2⟩)
  obtain ⟨h1, h2⟩ := hi
  have hkl : k < rs.length := by omega
  have hsp : rs = rs.take k ++ rs[k] :: rs.drop (k + 1) := by simp
  have hmem : rs[k] ∈ rs := List.getElem_mem hkl
  have hn' : Next bs (p + ((rs.take k).flatMap (packed n)).length) (packed n rs[k]) := by
    rw [hsp, List.flatMap_append, List.flatMap_cons] at hn
    exact hn.right.left
  have hft := row_fit (n := n) hk
  refine (rleRow_full L h2 rs[k] (hok _ hmem) (hpx _ hmem) hn' (by rw [h1.1]; exact hft) (by rw [h1.1]; exact hlt) hf).mono (fun r hr => ?_)
  refine ⟨?_, ?_⟩
  · rw [hr.1]
    refine h1.next (hpx _ hmem) hft (fun j _ => ?_)
    simp [List.getElem?_eq_getElem hkl]
  · rw [List.take_succ_eq_append_getElem hkl, List.flatMap_append, List.length_append, ← Nat.add_assoc]
    simpa using hr.2

/-! ### The header -/

theorem sun_head (L : Laws2 o At) (junk : Nat → UInt8) {s : σ} {bs : List UInt8} (hs : At s bs 0) (h32 : 32 ≤ bs.length) :
    Holds (head o junk [u32f, u32f, u32f, u32f, u32f, u32f, u32f, u32f] s) (fun r => At r.2 bs 32 ∧ fbe r.1 0 = beAt bs 0 4 ∧ fbe r.1 1 = beAt bs 4 4 ∧
      fbe r.1 2 = beAt bs 8 4 ∧ fbe r.1 3 = beAt bs 12 4 ∧ fbe r.1 5 = beAt bs 20 4 ∧ fbe r.1 6 = beAt bs 24 4 ∧ fbe r.1 7 = beAt bs 28 4) := by
  refine (fle_lt L.toLaws junk hs (fs := [u32f, u32f, u32f, u32f, u32f, u32f, u32f, u32f]) (by decide)).mono (fun r hr => ?_)
  obtain ⟨-, hpos, hf, -⟩ := hr
  have key : ∀ i, [u32f, u32f, u32f, u32f, u32f, u32f, u32f, u32f][i]? = some u32f → 0 + start [u32f, u32f, u32f, u32f, u32f, u32f, u32f, u32f] i + 4 ≤ bs.length →
      fbe r.1 i = beAt bs (0 + start [u32f, u32f, u32f, u32f, u32f, u32f, u32f, u32f] i) 4 := by
    intro i h1 h2
    show be (fld r.1 i) = _
    rw [hf i u32f h1 h2]; rfl
  exact ⟨hpos (by show 0 + 32 ≤ _; omega), key 0 rfl (by show 0 + 0 + 4 ≤ _; omega), key 1 rfl (by show 0 + 4 + 4 ≤ _; omega), key 2 rfl (by show 0 + 8 + 4 ≤ _; omega),
    key 3 rfl (by show 0 + 12 + 4 ≤ _; omega), key 5 rfl (by show 0 + 20 + 4 ≤ _; omega), key 6 rfl (by show 0 + 24 + 4 ≤ _; omega), key 7 rfl (by show 0 + 28 + 4 ≤ _; omega)⟩

theorem skip_spec (L : Laws2 o At) {s : σ} {bs : List UInt8} {p n : Nat} (hs : At s bs p) (hfit : p + n ≤ bs.length) :
    Holds (skipMap o n s) (fun t => At t bs (p + n)) := by
  have hl := L.len hs
  unfold skipMap
  refine Holds.ite (fun h => ?_) (fun h => ?_)
  · refine (L.seekCur _ hs).bind (fun r hr => Holds.pure (hr.2 (p + n) ?_ hfit))
    unfold Lump.toInt
    rw [if_pos (by omega)]
    omega
  · rw [show p + n = p by omega]
    exact Holds.pure hs

theorem skip_any (L : Laws2 o At) {s : σ} {bs : List UInt8} {p n : Nat} (hs : At s bs p) : Holds (skipMap o n s) (fun t => ∃ q, At t bs q) := by
  unfold skipMap
  refine Holds.ite (fun h => ?_) (fun h => ?_)
  · exact (L.seekCur _ hs).bind (fun r hr => Holds.pure hr.1)
  · exact Holds.pure ⟨_, hs⟩

/-- The numbers of an image in memory. -/
theorem tex_row (junk : Nat → UInt8) (w h k f : Nat) (hw : 0 < w) (hh : 0 < h) (hk : 0 < k) (hfit : w * h * k < 4294967296) :
    (tex junk w h k f).height = h ∧ (tex junk w h k f).width = w ∧ (tex junk w h k f).bps = w * k ∧ (tex junk w h k f).data.length = h * (w * k) ∧ h * (w * k) = w * h * k := by
  obtain ⟨h1, h2, h3, h4, h5, h6, h7, h8, h9⟩ := tex_fields junk w h k f hw hh hk hfit
  have e : h * (w * k) = w * h * k := by rw [← Nat.mul_assoc, Nat.mul_comm h w]
  refine ⟨h2, h1, ?_, by rw [tex_len, h9, e], e⟩
  rw [h8.1, h1, h4, h5, Nat.mul_one]

/-- From rows to pixels. -/
theorem shows_rows (junk : Nat → UInt8) (w h k f : Nat) (hw : 0 < w) (hh : 0 < h) (hk : 0 < k) (hfit : w * h * k < 4294967296) (d : List UInt8)
    (g : Nat → Nat → Option UInt8) (hd : Done (w * k) (h * (w * k)) g h d) :
    Shows { tex junk w h k f with data := d, origin := IL_ORIGIN_UPPER_LEFT } w h k f (fun x y c => g y (x * k + c)) := by
  refine shows_tex junk w h k f hw hh hk hfit d (by rw [hd.1, ← Nat.mul_assoc, Nat.mul_comm h w]) _ (fun x y c hx hy hc => ?_)
  have := hd.2 y (x * k + c) hy (add_mul_lt hx hc)
  rw [← this]
  congr 1
  rw [Nat.add_mul, Nat.mul_assoc, Nat.add_assoc]

end DevIL.Sun
