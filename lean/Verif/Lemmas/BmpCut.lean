import Verif.Post
import Verif.Lemmas.BmpRle
/-! Bitmaps that end early: how far the loader has come if it has not failed. -/
set_option autoImplicit false
namespace DevIL.Bmp
open DevIL.Lump DevIL.Endian DevIL.Image DevIL.Utility DevIL.Load
open DevIL.Targa (Loaded)
open DevIL.Pcx (readByte)

theorem post_read {l : R} (g : Good l) {a b : Nat} (h : a * b < 4294967296) :
    Post (read l a b) fun r => Same l r.2 ∧ r.2.pos = min l.size (l.pos + a * b) ∧ (r.1.ret = b → 0 < a → r.2.pos = l.pos + a * b) := by
  have hp := g.pos
  rw [read_spec g]
  refine Post.ok ⟨⟨g.read_good a b, rfl, rfl⟩, ?_, fun hr ha => ?_⟩
  · show l.pos + avail l a b = _
    unfold avail
    rw [u32_of_lt h]
    omega
  · dsimp only at hr ⊢
    rw [if_pos (by omega)] at hr
    have h1 : a * b ≤ avail l a b := by
      have := Nat.mul_div_le (avail l a b) a
      rw [hr] at this
      exact this
    have h2 : avail l a b ≤ a * b := by
      unfold avail
      rw [u32_of_lt h]
      omega
    omega

theorem post_readAt {l : R} (g : Good l) {dst : List UInt8} {off a b : Nat} (h : a * b < 4294967296) :
    Post (readAt l dst off a b) fun r => Same l r.2.2 ∧ r.2.2.pos = min l.size (l.pos + a * b) ∧ (r.1 = b → 0 < a → r.2.2.pos = l.pos + a * b) := by
  unfold readAt
  refine (post_read g h).bind fun r hr => ?_
  exact Post.ite (fun _ => Post.pure hr) (fun _ => Post.error _)

theorem post_readByte {l : R} (g : Good l) : Post (readByte l) fun r => Same l r.2 ∧ (r.1 ≠ none → r.2.pos = l.pos + 1) := by
  unfold readByte
  refine (post_read g (a := 1) (b := 1) (by decide)).bind fun r hr => ?_
  refine Post.pure ⟨hr.1, fun hn => ?_⟩
  by_cases h1 : r.1.ret = 1
  · exact hr.2.2 h1 (by decide)
  · exact absurd (if_neg h1) hn

theorem post_putBits {w j : Nat} {b : UInt8} {s : Nat × List UInt8} (hs : s.1 ≤ w) : Post (putBits w j b s) fun t => t.1 = min w (s.1 + 8) := by
  unfold putBits
  refine (Post.loop (fun (c : Nat) (t : Nat × List UInt8) => t.1 = min w (s.1 + c)) (by omega) ?_)
  intro c t hc ht
  refine Post.ite (fun h => Post.bind' fun d => Post.pure ?_) (fun h => Post.pure ?_)
  · show t.1 + 1 = _
    omega
  · show t.1 = _
    omega

/-- Where a row of small pixels of `k` per byte, begun at `p`, has come to. -/
def Came (l : R) (k w : Nat) (s : X) : Prop :=
  Same l s.inp ∧ (s.failed = false → s.x ≤ w ∧ s.inp.pos = l.pos + (s.x + (k - 1)) / k ∧ (s.x % k = 0 ∨ s.x = w))

theorem post_bitStep {l : R} {w j : Nat} {s : X} (h : Came l 8 w s) (hc : (!s.failed && decide (s.x < w)) = true) : Post (bitStep w j s) (Came l 8 w) := by
  simp only [Bool.and_eq_true, Bool.not_eq_true', decide_eq_true_eq] at hc
  obtain ⟨h1, h2, h3⟩ := h.2 hc.1
  unfold bitStep
  refine (post_readByte h.1.good).bind fun r hr => ?_
  obtain ⟨b, l'⟩ := r
  dsimp only at hr ⊢
  cases b with
  | none => exact Post.pure ⟨h.1.trans hr.1, fun h => nomatch h⟩
  | some b =>
    dsimp only
    refine (post_putBits (s := (s.x, s.data)) h1).bind fun t ht => Post.pure ⟨h.1.trans hr.1, fun _ => ?_⟩
    have := hr.2 (by simp)
    dsimp only at ht ⊢
    omega

theorem post_nibbleStep {l : R} {w j : Nat} {s : X} (h : Came l 2 w s) (hc : (!s.failed && decide (s.x < w)) = true) :
    Post (nibbleStep w j s) (Came l 2 w) := by
  simp only [Bool.and_eq_true, Bool.not_eq_true', decide_eq_true_eq] at hc
  obtain ⟨h1, h2, h3⟩ := h.2 hc.1
  unfold nibbleStep
  refine (post_readByte h.1.good).bind fun r hr => ?_
  obtain ⟨b, l'⟩ := r
  dsimp only at hr ⊢
  cases b with
  | none => exact Post.pure ⟨h.1.trans hr.1, fun h => nomatch h⟩
  | some b =>
    dsimp only
    have := hr.2 (by simp)
    refine Post.bind' fun d => Post.ite (fun he => Post.pure ⟨h.1.trans hr.1, fun _ => ?_⟩) (fun he => Post.bind' fun d => Post.pure ⟨h.1.trans hr.1, fun _ => ?_⟩)
    · dsimp only at this ⊢; omega
    · dsimp only at this ⊢; omega

/-- After one row: it was there, and the input stands behind its padding, or at the end. -/
def Row (rb stride : Nat) (s t : S) : Prop :=
  Same s.inp t.inp ∧ (t.failed = false → s.failed = false ∧ s.inp.pos + rb ≤ s.inp.size ∧ t.inp.pos = min s.inp.size (s.inp.pos + stride))

theorem post_smallRow {step : Nat → Nat → X → C X} {k pad w j : Nat} {s : S} (g : Good s.inp) (hk : 0 < k)
    (hs : ∀ t : X, Came s.inp k w t → (!t.failed && decide (t.x < w)) = true → Post (step w j t) (Came s.inp k w)) (hp : pad < 4294967296) :
    Post (smallRow step pad w j s) (Row ((w + (k - 1)) / k) ((w + (k - 1)) / k + pad) s) := by
  unfold smallRow
  refine Post.ite (fun hf => Post.pure ⟨Same.refl g, fun h => ?_⟩) (fun hf => ?_)
  · rw [hf] at h; cases h
  have hf' : s.failed = false := by simpa using hf
  refine (Post.while (Came s.inp k w) hs (w + 1) ⟨0, s.data, s.inp, false⟩ ⟨Same.refl g, fun _ => ⟨Nat.zero_le _, ?_, Or.inl (Nat.zero_mod _)⟩⟩).bind fun x hx => ?_
  · show s.inp.pos = s.inp.pos + (0 + (k - 1)) / k
    rw [Nat.zero_add, Nat.div_eq_of_lt (by omega)]
    rfl
  refine Post.ite (fun hf => Post.pure ⟨hx.1.1, fun h => nomatch h⟩) (fun hxf => ?_)
  have hxf' : x.failed = false := by simpa using hxf
  obtain ⟨h1, h2, _⟩ := hx.1.2 hxf'
  have hxw : x.x = w := by
    have := hx.2
    rw [hxf'] at this
    simp only [Bool.not_false, Bool.true_and, decide_eq_false_iff_not] at this
    omega
  rw [hxw] at h2
  refine (post_read hx.1.1.good (a := 1) (b := pad) (by omega)).bind fun r hr => Post.pure ⟨hx.1.1.trans hr.1, fun _ => ⟨hf', ?_, ?_⟩⟩
  · have := hx.1.1.good.pos
    rw [hx.1.1.size] at this
    omega
  · show r.2.pos = _
    rw [hr.2.1, hx.1.1.size, Nat.one_mul, h2, Nat.add_assoc]

/-- Rows one after the other. -/
theorem post_rows {f : Nat → S → C S} {n rb stride : Nat} {s : S} (g : Good s.inp) (hrb : 0 < rb)
    (hf : ∀ j t, j < n → Same s.inp t.inp → Post (f j t) (Row rb stride t)) :
    Post (loopN n f s) fun t => Same s.inp t.inp ∧ (t.failed = false → 0 < n → s.inp.pos + (n - 1) * stride + rb ≤ s.inp.size) := by
  refine (Post.loop (fun (j : Nat) (t : S) => Same s.inp t.inp ∧ (t.failed = false → t.inp.pos = min s.inp.size (s.inp.pos + j * stride) ∧
    (0 < j → s.inp.pos + (j - 1) * stride + rb ≤ s.inp.size))) ⟨Same.refl g, fun _ => ⟨?_, fun h => absurd h (by decide)⟩⟩ ?_).mono
    fun t ht => ⟨ht.1, fun hf => (ht.2 hf).2⟩
  · have := g.pos
    omega
  · intro j t hj ht
    refine (hf j t hj ht.1).mono fun u hu => ⟨ht.1.trans hu.1, fun huf => ?_⟩
    obtain ⟨h1, h2, h3⟩ := hu.2 huf
    obtain ⟨h4, _⟩ := ht.2 h1
    rw [ht.1.size] at h2 h3
    have e : t.inp.pos = s.inp.pos + j * stride := by omega
    rw [h3, e, Nat.succ_mul, Nat.add_assoc]
    refine ⟨rfl, fun _ => ?_⟩
    rw [Nat.add_sub_cancel]
    omega

theorem post_wideStep {big : Bool} {m : Mask × Mask × Mask} {k i : Nat} {s : S} (g : Good s.inp) (hk : 0 < k) (hk4 : k ≤ 4) :
    Post (wideStep big m k i s) fun t => Same s.inp t.inp ∧ (t.failed = false → s.failed = false ∧ t.inp.pos = s.inp.pos + k) := by
  unfold wideStep
  refine Post.ite (fun hf => Post.pure ⟨Same.refl g, fun h => ?_⟩) (fun hf => ?_)
  · rw [hf] at h; cases h
  refine (post_read g (a := k) (b := 1) (by omega)).bind fun r hr => ?_
  refine Post.ite (fun _ => Post.pure ⟨hr.1, fun h => nomatch h⟩) (fun h1 => ?_)
  have := hr.2.2 (by simpa using h1) hk
  rw [Nat.mul_one] at this
  exact Post.bind' fun d1 => Post.bind' fun d2 => Post.bind' fun d3 => Post.pure ⟨hr.1, fun _ => ⟨by simpa using hf, this⟩⟩

/-- Pixels of `k` bytes one after the other. -/
theorem post_wide {big : Bool} {m : Mask × Mask × Mask} {k n : Nat} {at_ : Nat → Nat} {s : S} (g : Good s.inp) (hk : 0 < k) (hk4 : k ≤ 4) :
    Post (loopN n (fun i s => wideStep big m k (at_ i) s) s) fun t => Same s.inp t.inp ∧ (t.failed = false → s.failed = false ∧ t.inp.pos = s.inp.pos + n * k) := by
  refine (Post.loop (fun (j : Nat) (t : S) => Same s.inp t.inp ∧ (t.failed = false → s.failed = false ∧ t.inp.pos = s.inp.pos + j * k))
    ⟨Same.refl g, fun h => ⟨h, by omega⟩⟩ ?_)
  intro j t hj ht
  refine (post_wideStep ht.1.good hk hk4).mono fun u hu => ⟨ht.1.trans hu.1, fun huf => ?_⟩
  obtain ⟨h1, h2⟩ := hu.2 huf
  obtain ⟨h3, h4⟩ := ht.2 h1
  rw [h2, h4, Nat.succ_mul, Nat.add_assoc]
  exact ⟨h3, rfl⟩

theorem post_rows16 {big : Bool} {m : Mask × Mask × Mask} {w h : Nat} {d : List UInt8} {l : R} (g : Good l) (hw : 0 < w) :
    Post (rows16 big m w h d l) fun t => t.failed = false → 0 < h → l.pos + (h - 1) * (w * 2 + (4 - w * 2 % 4) % 4) + w * 2 ≤ l.size := by
  unfold rows16
  refine (post_rows (s := ⟨d, l, false⟩) (rb := w * 2) (stride := w * 2 + (4 - w * 2 % 4) % 4) g (by omega) ?_).mono fun t ht => ht.2
  intro j s hj hs
  refine (post_wide (at_ := fun i => u32 ((j * w + i) * 3)) hs.good (by decide) (by decide)).bind fun t ht => ?_
  refine Post.ite (fun hf => Post.pure ⟨ht.1, fun h => ?_⟩) (fun hf => ?_)
  · rw [hf] at h; cases h
  obtain ⟨h1, h2⟩ := ht.2 (by simpa using hf)
  refine (post_read ht.1.good (a := 1) (b := (4 - w * 2 % 4) % 4) (by omega)).bind fun r hr => Post.pure ⟨ht.1.trans hr.1, fun _ => ⟨h1, ?_, ?_⟩⟩
  · have := ht.1.good.pos
    rw [ht.1.size] at this
    omega
  · show r.2.pos = _
    rw [hr.2.1, ht.1.size, Nat.one_mul, h2, Nat.add_assoc]

theorem post_rowsBytes {bps h : Nat} {d : List UInt8} {l : R} (g : Good l) (hb : 0 < bps) (hlt : h * bps < 4294967296) :
    Post (rowsBytes bps (h * bps) d l) fun t => t.failed = false → 0 < h → l.pos + (h - 1) * (bps + (4 - bps % 4) % 4) + bps ≤ l.size := by
  unfold rowsBytes
  refine Post.ite (fun hz => ?_) (fun hz => ?_)
  · refine (post_readAt g (by omega)).bind fun r hr => Post.pure fun hf hh => ?_
    have hf' : r.1 = h * bps := by simpa using hf
    have := hr.2.2 hf' (by decide)
    have hp := hr.1.good.pos
    rw [hr.1.size] at hp
    obtain ⟨k, rfl⟩ : ∃ k, h = k + 1 := ⟨h - 1, by omega⟩
    rw [Nat.add_mul] at this
    rw [hz, Nat.add_zero bps, Nat.add_sub_cancel]
    omega
  · rw [forStep_mul hb]
    refine (post_rows (s := ⟨d, l, false⟩) (rb := bps) (stride := bps + (4 - bps % 4) % 4) g hb ?_).mono fun t ht => ht.2
    intro j s hj hs
    have h1 : bps ≤ h * bps := Nat.le_mul_of_pos_left bps (by omega)
    refine Post.ite (fun hf => Post.pure ⟨Same.refl hs.good, fun h => ?_⟩) (fun hf => ?_)
    · rw [hf] at h; cases h
    refine (post_readAt hs.good (by omega)).bind fun r hr => ?_
    refine Post.ite (fun _ => Post.pure ⟨hr.1, fun h => nomatch h⟩) (fun hn => ?_)
    have hp := hr.2.2 (by simpa using hn) (by decide)
    refine (post_read hr.1.good (a := 1) (b := 4 - bps % 4) (by omega)).bind fun q hq => Post.pure ⟨hr.1.trans hq.1, fun _ => ⟨by simpa using hf, ?_, ?_⟩⟩
    · have := hr.1.good.pos
      rw [hr.1.size] at this
      omega
    · show q.2.pos = _
      rw [hq.2.1, hr.1.size, hp]
      omega

theorem post_readMask {big : Bool} {init : Nat} {l : R} (g : Good l) (h : l.pos + 4 ≤ l.size) :
    Post (readMask big init l) fun r => Same l r.2 ∧ r.2.pos = l.pos + 4 := by
  unfold readMask
  refine (post_read g (a := 4) (b := 1) (by decide)).bind fun r hr => Post.pure ⟨hr.1, ?_⟩
  show r.2.pos = _
  omega

theorem post_readMasks {big : Bool} {h : Head} {init : Mask × Mask × Mask} {l : R} (g : Good l) (hs : l.size < 2147483648) {o : Nat} (ho : h.off = (o : Int))
    (h12 : 12 ≤ o) (hl : o ≤ l.size) (hp : l.pos = o) : Post (readMasks big h init l) fun r => Same l r.2 ∧ r.2.pos = o := by
  unfold readMasks
  refine Post.ite (fun hc => ?_) (fun _ => Post.pure ⟨Same.refl g, hp⟩)
  rw [if_neg (by omega), ho, show (o : Int) - 12 = ((o - 12 : Nat) : Int) by omega]
  have e : seek l ((o - 12 : Nat) : Int) SEEK_SET = .ok (true, { l with pos := o - 12 }) := by
    unfold seek seekTo
    have ht : toInt l.size = (l.size : Int) := by unfold toInt; rw [if_pos (by omega)]
    rw [if_pos rfl, ht, if_neg (by omega)]
    have : ofInt ((o - 12 : Nat) : Int) = o - 12 := by unfold ofInt; omega
    rw [this]
    rfl
  rw [e, bind_ok]
  have g1 : Same l { l with pos := o - 12 } := ⟨⟨g.size, by show o - 12 ≤ l.size; omega, g.lt, g.ne⟩, rfl, rfl⟩
  refine (post_readMask g1.good (by show o - 12 + 4 ≤ l.size; omega)).bind fun r hr => ?_
  obtain ⟨b2, l2⟩ := r
  have e1 : l2.pos = o - 12 + 4 := hr.2
  have s1 : l2.size = l.size := hr.1.size
  dsimp only at hr ⊢
  refine (post_readMask hr.1.good (by omega)).bind fun r2 hr2 => ?_
  obtain ⟨b3, l3⟩ := r2
  dsimp only at hr2 ⊢
  have s2 := hr2.1.size
  refine (post_readMask hr2.1.good (by omega)).bind fun r3 hr3 => ?_
  refine Post.pure ⟨((g1.trans hr.1).trans hr2.1).trans hr3.1, ?_⟩
  show r3.2.pos = o
  omega

/-- If reading the pixels has not failed, the last pixel is in the input. -/
theorem post_readPixels {big : Bool} {h : Head} {m : Img} {l : R} (g : Good l) {bits o : Nat} (hb : h.bits = (bits : Int))
    (hbits : bits = 1 ∨ bits = 4 ∨ bits = 8 ∨ bits = 16 ∨ bits = 24 ∨ bits = 32) (hs : l.size < 2147483648) (ho : h.off = (o : Int))
    (h12 : 12 ≤ o) (hl : o ≤ l.size) (hp : l.pos = o) (hw : 0 < m.width) (hh : 0 < m.height) (hc : m.Consistent) (hd : m.depth = 1) (hbc : m.bpc = 1)
    (hbp : m.bpp = if bits ≤ 8 then 1 else 3) (hlt : m.size < 4294967296) :
    Post (readPixels big h m l) fun s => s.failed = false → o + (m.height - 1) * ((m.width * bits + 31) / 32 * 4) + (m.width * bits + 7) / 8 ≤ l.size := by
  have e1 := hc.1
  have e2 := hc.2.1
  have e3 := hc.2.2.1
  rw [hbc, Nat.mul_one] at e1 e2 e3
  rw [hd, Nat.mul_one] at e3
  unfold readPixels
  rw [hb]
  rcases hbits with rfl | rfl | rfl | rfl | rfl | rfl
  · rw [if_pos (by decide)]
    refine (post_rows (s := ⟨m.data, l, false⟩) (rb := (m.width + 7) / 8) (stride := (m.width + 7) / 8 + (32 - m.width % 32) / 8 % 4) g (by omega) ?_).mono
      fun t ht hf => ?_
    · intro j t hj ht
      exact post_smallRow (k := 8) ht.good (by decide) (fun x hx hc => post_bitStep hx hc) (by omega)
    · have := ht.2 hf hh
      dsimp only at this
      rw [← hp, show (m.width * 1 + 31) / 32 * 4 = (m.width + 7) / 8 + (32 - m.width % 32) / 8 % 4 by omega]
      omega
  · rw [if_neg (by decide), if_pos (by decide)]
    refine (post_rows (s := ⟨m.data, l, false⟩) (rb := (m.width + 1) / 2) (stride := (m.width + 1) / 2 + (8 - m.width % 8) / 2 % 4) g (by omega) ?_).mono
      fun t ht hf => ?_
    · intro j t hj ht
      exact post_smallRow (k := 2) ht.good (by decide) (fun x hx hc => post_nibbleStep hx hc) (by omega)
    · have := ht.2 hf hh
      dsimp only at this
      rw [← hp, show (m.width * 4 + 31) / 32 * 4 = (m.width + 1) / 2 + (8 - m.width % 8) / 2 % 4 by omega]
      omega
  · rw [if_neg (by decide), if_neg (by decide), if_neg (by decide), if_neg (by decide)]
    rw [if_pos (by decide)] at hbp
    rw [hbp, Nat.mul_one] at e1 e2 e3
    have : m.plane = m.height * m.bps := by rw [e2, e1, Nat.mul_comm]
    rw [this]
    refine (post_rowsBytes g (by omega) (by rw [e1, Nat.mul_comm]; omega)).mono fun t ht hf => ?_
    have := ht hf hh
    rw [hp, e1] at this
    rw [show (m.width * 8 + 31) / 32 * 4 = m.width + (4 - m.width % 4) % 4 by omega]
    omega
  · rw [if_neg (by decide), if_neg (by decide), if_pos (by decide)]
    refine (post_readMasks g hs ho h12 hl hp).bind fun r hr => ?_
    refine (post_rows16 hr.1.good hw).mono fun t ht hf => ?_
    have := ht hf hh
    rw [hr.2, hr.1.size] at this
    rw [show (m.width * 16 + 31) / 32 * 4 = m.width * 2 + (4 - m.width * 2 % 4) % 4 by omega]
    omega
  · rw [if_neg (by decide), if_neg (by decide), if_neg (by decide), if_neg (by decide)]
    rw [if_neg (by decide)] at hbp
    rw [hbp] at e1 e2 e3
    have : m.plane = m.height * m.bps := by rw [e2, e1, Nat.mul_comm]
    rw [this]
    refine (post_rowsBytes g (by omega) (by rw [e1, Nat.mul_comm]; omega)).mono fun t ht hf => ?_
    have := ht hf hh
    rw [hp, e1] at this
    rw [show (m.width * 24 + 31) / 32 * 4 = m.width * 3 + (4 - m.width * 3 % 4) % 4 by omega]
    omega
  · rw [if_neg (by decide), if_neg (by decide), if_neg (by decide), if_pos (by decide)]
    rw [if_neg (by decide)] at hbp
    refine (post_readMasks g hs ho h12 hl hp).bind fun r hr => ?_
    dsimp only
    rw [show m.size = m.height * m.width * 3 by rw [e3, hbp]; grind, forStep_mul (by decide)]
    refine (post_wide (at_ := fun k => k * 3) (s := ⟨m.data, r.2, false⟩) hr.1.good (by decide) (by decide)).mono fun t ht hf => ?_
    have h1 := (ht.2 hf).2
    have h2 := ht.1.good.pos
    rw [ht.1.size, hr.1.size] at h2
    dsimp only at h1
    rw [hr.2] at h1
    obtain ⟨k, e⟩ : ∃ k, m.height = k + 1 := ⟨m.height - 1, by omega⟩
    rw [e, Nat.add_sub_cancel, show (m.width * 32 + 31) / 32 * 4 = m.width * 4 by omega]
    rw [e, Nat.add_mul, Nat.add_mul, Nat.mul_assoc k] at h1
    omega

/-! ### Codes -/

theorem read2_end {l : R} (g : Good l) (h : l.size < l.pos + 2) : Holds (read2 l) fun r => r.1 = none ∧ Same l r.2 := by
  unfold read2
  refine (holds_read g 2 1).bind fun r hr => ?_
  obtain ⟨x, l'⟩ := r
  obtain ⟨h1, h2, h3, h4, h5⟩ := hr
  dsimp only at h1 h2 h3 h4 h5 ⊢
  have := h1.good.pos
  rw [h1.size] at this
  rw [if_pos (by decide)] at h5
  exact Holds.pure ⟨if_neg (by omega), h1⟩

theorem post_read2 {l : R} (g : Good l) : Post (read2 l) fun r => Same l r.2 ∧ (r.1 ≠ none → r.2.pos = l.pos + 2) := by
  unfold read2
  refine (post_read g (a := 2) (b := 1) (by decide)).bind fun r hr => ?_
  refine Post.pure ⟨hr.1, fun hn => ?_⟩
  by_cases h1 : r.1.ret = 1
  · exact hr.2.2 h1 (by decide)
  · exact absurd (if_neg h1) hn

theorem post_padByte {odd : Bool} {s : L} (g : Good s.inp) (hs : s.failed = false) :
    Post (padByte odd s) fun t => t.failed = false → Same s.inp t.inp ∧ t.inp.pos = s.inp.pos + if odd then 1 else 0 := by
  unfold padByte
  refine Post.ite (fun ho => ?_) (fun ho => Post.pure fun _ => ⟨Same.refl g, by rw [if_neg ho]; rfl⟩)
  refine (post_readByte g).bind fun r hr => ?_
  obtain ⟨b, l⟩ := r
  dsimp only at hr ⊢
  cases b with
  | none => exact Post.pure fun h => nomatch h
  | some b => exact Post.pure fun _ => ⟨hr.1, by rw [if_pos ho]; exact hr.2 (by simp)⟩

theorem post_nibbles {count : Nat} {s : L} (g : Good s.inp) :
    Post (nibbles count s) fun t => t.1.failed = false → Same s.inp t.1.inp ∧ t.1.inp.pos = s.inp.pos + (count + 1) / 2 := by
  unfold nibbles
  refine Post.loop (fun (i : Nat) (t : L × UInt8) => t.1.failed = false → Same s.inp t.1.inp ∧ t.1.inp.pos = s.inp.pos + (i + 1) / 2)
    (fun _ => ⟨Same.refl g, rfl⟩) ?_
  intro i t hi ht
  unfold nibble
  refine Post.ite (fun hf => Post.pure fun h => ?_) (fun hf => ?_)
  · rw [hf] at h; cases h
  obtain ⟨h1, h2⟩ := ht (by simpa using hf)
  have hread : Post (if i % 2 = 0 then readByte t.1.inp else pure (some t.2, t.1.inp) : C _) fun r => Same s.inp r.2 ∧
      (r.1 ≠ none → r.2.pos = s.inp.pos + (i + 1 + 1) / 2) := by
    refine Post.ite (fun he => ?_) (fun he => Post.pure ⟨h1, fun _ => ?_⟩)
    · refine (post_readByte h1.good).mono fun r hr => ⟨h1.trans hr.1, fun hn => ?_⟩
      rw [hr.2 hn, h2]
      omega
    · show t.1.inp.pos = _
      rw [h2]
      omega
  refine hread.bind fun r hr => ?_
  obtain ⟨b, l⟩ := r
  dsimp only at hr ⊢
  cases b with
  | none => exact Post.pure fun h => nomatch h
  | some b => exact Post.bind' fun d => Post.pure fun _ => ⟨hr.1, hr.2 (by simp)⟩

/-- A code of which some bytes are missing makes the decoder fail. -/
theorem step_cut {four : Bool} {w h : Nat} {c : Cur} {s : L} (r : Rel w h c s) {code : Code} {cut miss : List UInt8}
    (hb : code.bytes four = cut ++ miss) (hm : miss ≠ []) (ha : At s.inp cut) (hok : code.Ok four) (hf : code.Fits four w h c) :
    Post (stepOf four w (h * w) s) fun t => t.failed = true := by
  have hg := ha.1
  have hlen := ha.len
  have hpos := hg.pos
  by_cases h2 : cut.length < 2
  · obtain ⟨x, e, h1, hx⟩ := read2_end hg (by omega)
    obtain ⟨b, l'⟩ := x
    dsimp only at h1 hx
    subst h1
    cases four
    · show Post (step8 w (h * w) s) _
      unfold step8
      rw [e, bind_ok]
      exact Post.pure rfl
    · show Post (step4 w (h * w) s) _
      unfold step4
      rw [e, bind_ok]
      exact Post.pure rfl
  · have hml : 0 < miss.length := List.length_pos_iff.2 hm
    have hbl := congrArg List.length hb
    rw [List.length_append] at hbl
    -- the code has more than two bytes
    cases code with
    | run n v => simp [Code.bytes] at hbl; omega
    | eol => simp [Code.bytes] at hbl; omega
    | delta dx dy =>
      obtain ⟨t, e⟩ : ∃ t, cut = 0 :: 2 :: t := by
        match cut, h2, hb with
        | a :: b :: t, _, hb =>
          simp only [Code.bytes, List.cons_append, List.cons.injEq] at hb
          exact ⟨t, by rw [← hb.1, ← hb.2.1]⟩
        | [], h2, _ => simp at h2
        | [_], h2, _ => simp at h2
      subst e
      have hesc : Post (escape w (h * w) 2 { s with inp := adv s.inp 2 }) fun t => t.failed = true := by
        have gadv := At.adv (bs := [0, 2]) (rest := t) ha
        simp only [Code.bytes, List.length_cons, List.length_nil] at hbl hlen
        obtain ⟨x, e, h1, hx⟩ := read2_end gadv.1 (by show s.inp.size < s.inp.pos + 2 + 2; omega)
        unfold escape
        rw [if_neg (by decide), if_neg (by decide)]
        dsimp only
        erw [e]
        obtain ⟨b, l'⟩ := x
        dsimp only at h1
        subst h1
        exact Post.pure rfl
      cases four
      · show Post (step8 w (h * w) s) _
        unfold step8
        rw [At.read2 ha, bind_ok]
        dsimp only
        rw [if_pos rfl, if_pos (by decide)]
        exact hesc
      · show Post (step4 w (h * w) s) _
        unfold step4
        rw [At.read2 ha, bind_ok]
        dsimp only
        rw [if_pos rfl, if_pos (by decide)]
        exact hesc
    | lit vs fill =>
      obtain ⟨t, e⟩ : ∃ t, cut = 0 :: UInt8.ofNat vs.length :: t := by
        match cut, h2, hb with
        | a :: b :: t, _, hb =>
          simp only [Code.bytes, List.cons_append, List.cons.injEq] at hb
          exact ⟨t, by rw [← hb.1, ← hb.2.1]⟩
        | [], h2, _ => simp at h2
        | [_], h2, _ => simp at h2
      subst e
      have hle : c.y * w + w ≤ h * w := by rw [← Nat.succ_mul]; exact Nat.mul_le_mul_right _ hf.1
      have hfit := hf.2
      have hoff := r.off
      have hvl : (UInt8.ofNat vs.length).toNat = vs.length := u8_ofNat hok.2.1
      have h3 := hok.1
      have h255 := hok.2.1
      have gadv := (At.adv (bs := [0, UInt8.ofNat vs.length]) (rest := t) ha).1
      have hbl' : (litBytes four vs fill).length = t.length + miss.length := by
        simp only [Code.bytes, List.length_append, List.length_cons, List.length_nil] at hbl
        omega
      simp only [List.length_cons] at hlen
      have key : ∀ (l' : R), Same (adv s.inp 2) l' → l'.pos = s.inp.pos + 2 + (litBytes four vs fill).length → False := by
        intro l' h1 h2
        have := h1.good.pos
        rw [h1.size] at this
        have : l'.pos ≤ s.inp.size := this
        omega
      cases four
      · show Post (step8 w (h * w) s) _
        unfold step8
        rw [At.read2 ha, bind_ok]
        dsimp only
        rw [if_pos rfl, hvl, if_neg (by omega), Nat.min_eq_left (by omega)]
        refine (post_readAt gadv (by omega)).bind fun q hq => ?_
        refine Post.ite (fun _ => Post.pure rfl) (fun hk => ?_)
        refine (post_padByte (s := { s with off := s.off + vs.length, data := q.2.1, inp := q.2.2 }) hq.1.good r.ok).mono fun u hu => ?_
        by_cases huf : u.failed = true
        · exact huf
        exfalso
        obtain ⟨h4, h5⟩ := hu (by simpa using huf)
        have h6 := hq.2.2 (by simpa using hk) (by omega)
        refine key u.inp (hq.1.trans h4) ?_
        rw [h5]
        show q.2.2.pos + _ = _
        rw [h6]
        show s.inp.pos + 2 + _ + _ = _
        have e8 : (litBytes false vs fill).length = vs.length + vs.length % 2 := by
          show (vs ++ List.replicate (vs.length % 2) fill).length = _
          rw [List.length_append, List.length_replicate]
        rw [e8]
        by_cases ho : vs.length % 2 = 1
        · rw [decide_eq_true ho, if_pos rfl]; omega
        · rw [decide_eq_false ho, if_neg (by decide)]; omega
      · show Post (step4 w (h * w) s) _
        unfold step4
        rw [At.read2 ha, bind_ok]
        dsimp only
        rw [if_pos rfl, hvl, if_neg (by omega), Nat.min_eq_left (by omega)]
        refine (post_nibbles (s := { s with inp := adv s.inp 2 }) gadv).bind fun q hq => ?_
        refine Post.ite (fun hqf => Post.pure hqf) (fun hqf => ?_)
        obtain ⟨h6, h7⟩ := hq (by simpa using hqf)
        refine (post_padByte h6.good (by simpa using hqf)).mono fun u hu => ?_
        by_cases huf : u.failed = true
        · exact huf
        exfalso
        obtain ⟨h4, h5⟩ := hu (by simpa using huf)
        refine key u.inp (h6.trans h4) ?_
        rw [h5, h7]
        show s.inp.pos + 2 + _ + _ = _
        have e8 : (litBytes true vs fill).length = (pack vs).length + (pack vs).length % 2 := by
          show (pack vs ++ List.replicate ((pack vs).length % 2) fill).length = _
          rw [List.length_append, List.length_replicate]
        rw [e8, pack_length]
        by_cases ho : vs.length % 4 = 1 ∨ vs.length % 4 = 2
        · rw [decide_eq_true ho, if_pos rfl]; omega
        · rw [decide_eq_false ho, if_neg (by decide)]; omega

theorem fits_left {four : Bool} {w h : Nat} {code : Code} (cs : List Code) : ∀ c : Cur, Fits four w h c (cs ++ [code]) → Fits four w h c cs := by
  induction cs with
  | nil => intro _ _; trivial
  | cons a cs ih => intro c hf; exact ⟨hf.1, hf.2.1, ih _ hf.2.2⟩

/-- Codes do not move back. -/
theorem exec_mono {four : Bool} {w h : Nat} (cs : List Code) : ∀ c : Cur, c.x ≤ w → Fits four w h c cs →
    c.y * w + c.x ≤ (cs.foldl (Code.exec four) c).y * w + (cs.foldl (Code.exec four) c).x := by
  induction cs with
  | nil => intro _ _ _; exact Nat.le_refl _
  | cons code cs ih =>
    intro c hx hf
    obtain ⟨hok, hfit, hrest⟩ := hf
    rw [List.foldl_cons]
    have hput : ∀ vs : List UInt8, (c.put vs).x = c.x + vs.length := fun _ => rfl
    have hpl : ∀ n v, ((Code.run n v).pixels four).length = n := fun n v => by
      show ((List.range n).map _).length = n
      rw [List.length_map, List.length_range]
    cases code with
    | run n v =>
      refine Nat.le_trans ?_ (ih _ (by show c.x + _ ≤ w; rw [hpl]; exact hfit.2) hrest)
      show _ ≤ c.y * w + (c.x + _)
      omega
    | lit vs f =>
      refine Nat.le_trans ?_ (ih _ hfit.2 hrest)
      show _ ≤ c.y * w + (c.x + _)
      omega
    | eol =>
      refine Nat.le_trans ?_ (ih _ (Nat.zero_le _) hrest)
      show _ ≤ (c.y + 1) * w + 0
      rw [Nat.succ_mul]; omega
    | delta dx dy =>
      refine Nat.le_trans ?_ (ih _ hfit.2 hrest)
      show _ ≤ (c.y + dy.toNat) * w + (c.x + dx.toNat)
      rw [Nat.add_mul]; omega

/-- Whole codes, then one cut short, before the last pixel: the decoder fails. -/
theorem codes_cut {four : Bool} {w h : Nat} (hlt : h * w < 4294967296) {code : Code} {cut miss : List UInt8} (hb : code.bytes four = cut ++ miss) (hm : miss ≠ [])
    (cs : List Code) : ∀ (c : Cur) (s : L) (fuel : Nat),
    Rel w h c s → Fits four w h c (cs ++ [code]) → At s.inp (cs.flatMap (Code.bytes four) ++ cut) →
    (cs.foldl (Code.exec four) c).y * w + (cs.foldl (Code.exec four) c).x < h * w →
    Post (whileF (fun s : L => !s.failed && decide (s.off < h * w)) (stepOf four w (h * w)) fuel s) fun t => t.failed = true := by
  induction cs with
  | nil =>
    intro c s fuel r hf ha hin
    have ho : c.y * w + c.x < h * w := hin
    rw [← r.off] at ho
    cases fuel with
    | zero => exact Post.error _
    | succ fuel =>
      unfold whileF
      rw [if_pos (by simp [r.ok, ho])]
      refine (step_cut r hb hm (by simpa using ha) hf.1 hf.2.1).bind fun t ht => ?_
      cases fuel with
      | zero => exact Post.error _
      | succ fuel =>
        unfold whileF
        rw [if_neg (by simp [ht])]
        exact Post.ok ht
  | cons code' cs ih =>
    intro c s fuel r hf ha hin
    have ho : c.y * w + c.x < h * w := Nat.lt_of_le_of_lt (exec_mono (code' :: cs) c r.x (fits_left (code' :: cs) c hf)) hin
    rw [← r.off] at ho
    cases fuel with
    | zero => exact Post.error _
    | succ fuel =>
      unfold whileF
      rw [List.flatMap_cons, List.append_assoc] at ha
      obtain ⟨s1, e1, r1, a1⟩ := step_spec r hlt ha hf.1 hf.2.1
      rw [if_pos (by simp [r.ok, ho]), e1, bind_ok]
      exact ih _ s1 fuel r1 hf.2.2 a1 hin

end DevIL.Bmp
