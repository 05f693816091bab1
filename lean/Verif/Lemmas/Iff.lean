import Verif.Model.Iff
import Verif.Spec.Iff
import Verif.Hoare
import Mathlib.Tactic.Ring
/-! Lemmas for the tiles of Maya IFF pictures. -/
set_option autoImplicit false
namespace DevIL.Iff
open DevIL.IffSpec

theorem fill_splice {d : List UInt8} {q n : Nat} {v : UInt8} (hd : q + n ≤ d.length) :
    loopN n (fun i d => wr d (q + i) v) d = .ok (splice d q (List.replicate n v)) := by
  obtain ⟨t, e, ht⟩ := loopN_inv (n := n) (s := d) (f := fun i d => wr d (q + i) v)
    (fun k t => t = splice d q (List.replicate k v)) (by simp) (by
      rintro k t hk rfl
      refine ⟨_, ?_, rfl⟩
      rw [wr_splice (by rw [splice_length (by simp; omega)]; omega)]
      congr 1
      have h2 := splice_splice (d := d) (o := List.replicate k v) (o' := [v]) (q := q) (by omega)
      rw [List.length_replicate] at h2
      rw [h2, List.replicate_succ'])
  rw [e, ht]

/-- One packet. -/
theorem rle_step {z : List UInt8} {num f b p : Nat} {d : List UInt8} {k : Packet} (hk : k.Ok) {pre post : List UInt8} (hz : z = pre ++ (k.bytes ++ post)) (hp : p = pre.length)
    (hd : d.length = num) (hb : b + k.means.length ≤ num) :
    rle z num (f + 1) d b p = rle z num f (splice d b k.means) (b + k.means.length) (p + k.bytes.length) := by
  obtain ⟨h1, h2⟩ := hk
  subst hp
  have hlt : pre.length < z.length := by
    subst hz
    cases k <;> simp [Packet.bytes]
  have key : ∀ c : UInt8, z[pre.length]? = some c → rd z pre.length = .ok c := fun c h => rd_of_some h
  cases k with
  | run n v =>
    simp only [Packet.means, List.length_replicate] at h1 h2 hb ⊢
    have hc : (UInt8.ofNat (128 + (n - 1))).toNat = 128 + (n - 1) := by simp; omega
    have e0 : z[pre.length]? = some (UInt8.ofNat (128 + (n - 1))) := by subst hz; simp [Packet.bytes]
    have e1 : z[pre.length + 1]? = some v := by subst hz; simp [Packet.bytes]
    have hn : (128 + (n - 1)) % 128 + 1 = n := by omega
    rw [rle]
    simp only []
    rw [if_pos ⟨by omega, hlt⟩, rd_of_some e0, bind_ok, hc, hn, if_neg (by omega), if_pos (by omega), rd_of_some e1, bind_ok, fill_splice (by omega), bind_ok]
    rfl
  | lit g =>
    simp only [Packet.means] at h1 h2 hb ⊢
    have hc : (UInt8.ofNat (g.length - 1)).toNat = g.length - 1 := by simp; omega
    have e0 : z[pre.length]? = some (UInt8.ofNat (g.length - 1)) := by subst hz; simp [Packet.bytes]
    have hn : (g.length - 1) % 128 + 1 = g.length := by omega
    have hs : pre.length + 1 + g.length ≤ z.length := by subst hz; simp [Packet.bytes]; omega
    have hg : (z.drop (pre.length + 1)).take g.length = g := by
      subst hz
      rw [← List.drop_drop]
      simp [Packet.bytes]
    rw [rle]
    simp only []
    rw [if_pos ⟨by omega, hlt⟩, rd_of_some e0, bind_ok, hc, hn, if_neg (by omega), if_neg (by omega), copy_splice hs (by omega), bind_ok, hg]
    congr 1
    simp [Packet.bytes]; omega

/-- All packets of a channel. -/
theorem rle_all {z : List UInt8} {num : Nat} : ∀ (ps : List Packet) (_ : ∀ p ∈ ps, p.Ok) (f b p : Nat) (d pre post : List UInt8) (_ : z = pre ++ (ps.flatMap Packet.bytes ++ post)) (_ : p = pre.length)
    (_ : d.length = num) (_ : b + (ps.flatMap Packet.means).length = num) (_ : (ps.flatMap Packet.means).length ≤ f),
    rle z num f d b p = .ok (splice d b (ps.flatMap Packet.means), p + (ps.flatMap Packet.bytes).length) := by
  intro ps
  induction ps with
  | nil =>
    intro _ f b p d pre post hz hp hd hb hf
    simp only [List.flatMap_nil, List.length_nil, Nat.add_zero, splice_nil] at *
    cases f <;> rw [rle, if_neg (by omega)] <;> rfl
  | cons k ps ih =>
    intro hok f b p d pre post hz hp hd hb hf
    have hk := hok k (by simp)
    simp only [List.flatMap_cons, List.length_append] at *
    have h1 := hk.1
    obtain ⟨f, rfl⟩ : ∃ g, f = g + 1 := ⟨f - 1, by omega⟩
    rw [rle_step hk (pre := pre) (post := ps.flatMap Packet.bytes ++ post) (by rw [hz]; simp) hp hd (by omega),
      ih (fun q hq => hok q (by simp [hq])) f _ _ _ (pre ++ k.bytes) post (by rw [hz]; simp) (by simp [hp]) (by rw [splice_length (by omega)]; exact hd) (by omega) (by omega),
      splice_splice (by omega)]
    congr 2
    omega

theorem channel {n : Nat} {ps : List Packet} (H : Channel ps n) (pre post : List UInt8) :
    iff_decompress_rle n (pre ++ (ps.flatMap Packet.bytes ++ post)) pre.length = .ok (ps.flatMap Packet.means, (pre ++ ps.flatMap Packet.bytes).length) := by
  unfold iff_decompress_rle
  rw [rle_all ps H.ok n 0 _ _ pre post rfl rfl (by simp) (by simp [H.size]) (Nat.le_of_eq H.size), splice_all (by simp [H.size])]
  simp

/-- The four channels put together. -/
theorem weave (junk : Nat → UInt8) {n : Nat} {c0 c1 c2 c3 : List UInt8} (h0 : c0.length = n) (h1 : c1.length = n) (h2 : c2.length = n) (h3 : c3.length = n) :
    ∃ t, loopN n (fun i d => loopN 4 (fun k d => do
      let c ← rd [c0, c1, c2, c3] k
      let v ← rd c i
      wr d (4 * i + k) v) d) (alloc junk (n * 4)) = .ok t ∧ t.length = n * 4 ∧ ∀ i c, i < n → c < 4 → t[4 * i + c]? = (if c = 0 then c0 else if c = 1 then c1 else if c = 2 then c2 else c3)[i]? := by
  let ch := fun c => if c = 0 then c0 else if c = 1 then c1 else if c = 2 then c2 else c3
  have hch : ∀ k, k < 4 → rd [c0, c1, c2, c3] k = .ok (ch k) ∧ (ch k).length = n := by
    intro k hk
    obtain rfl | rfl | rfl | rfl : k = 0 ∨ k = 1 ∨ k = 2 ∨ k = 3 := by omega
    all_goals exact ⟨rfl, by assumption⟩
  obtain ⟨t, e, hl, ht⟩ := (Upd.loopW (n := n) (d0 := alloc junk (n * 4)) (v := fun j => (ch (j % 4))[j / 4]?) (body := fun i d => loopN 4 (fun k d => do
      let c ← rd [c0, c1, c2, c3] k
      let v ← rd c i
      wr d (4 * i + k) v) d) (R := fun i j => ∃ k, k < 4 ∧ j = 4 * i + k) (fun i hi => Upd.loopW (fun k hk => by
        obtain ⟨e1, l⟩ := hch k hk
        have e2 : (ch k)[i]? = some ((ch k)[i]'(by omega)) := List.getElem?_eq_getElem _
        simp only [e1, bind_ok, rd_of_some e2]
        refine Upd.wr (by simp; omega) ?_
        show (ch ((4 * i + k) % 4))[(4 * i + k) / 4]? = _
        rw [show (4 * i + k) % 4 = k by omega, show (4 * i + k) / 4 = i by omega]
        exact e2))) _ rfl (fun _ h => h.elim)
  refine ⟨t, e, by simpa using hl, ?_⟩
  intro i c hi hc
  rw [(ht (4 * i + c) (by simp; omega)).1 ⟨i, hi, c, hc, rfl⟩]
  show (ch ((4 * i + c) % 4))[(4 * i + c) / 4]? = _
  rw [show (4 * i + c) % 4 = c by omega, show (4 * i + c) / 4 = i by omega]

theorem tile_rle (junk : Nat → UInt8) {w h : Nat} {r g b a : List Packet} (R : Channel r (w * h)) (G : Channel g (w * h)) (B : Channel b (w * h)) (A : Channel a (w * h)) :
    ∃ t, iff_decompress_tile_rle junk w h 4 (packed r g b a) = .ok (some t) ∧ t.length = w * h * 4 ∧ ∀ i c, i < w * h → c < 4 → t[4 * i + c]? = value r g b a i c := by
  obtain ⟨t, e, hl, ht⟩ := weave junk R.size G.size B.size A.size
  refine ⟨t, ?_, hl, ?_⟩
  · unfold iff_decompress_tile_rle
    rw [if_neg (by omega)]
    have q1 := channel A [] (b.flatMap Packet.bytes ++ (g.flatMap Packet.bytes ++ r.flatMap Packet.bytes))
    have q2 := channel B (a.flatMap Packet.bytes) (g.flatMap Packet.bytes ++ r.flatMap Packet.bytes)
    have q3 := channel G (a.flatMap Packet.bytes ++ b.flatMap Packet.bytes) (r.flatMap Packet.bytes)
    have q4 := channel R (a.flatMap Packet.bytes ++ b.flatMap Packet.bytes ++ g.flatMap Packet.bytes) []
    simp only [List.nil_append, List.append_nil, List.append_assoc, List.length_nil] at q1 q2 q3 q4
    unfold packed
    rw [q1, bind_ok]
    simp only []
    rw [q2, bind_ok]
    simp only []
    rw [q3, bind_ok]
    simp only []
    rw [q4, bind_ok]
    simp only []
    rw [e, bind_ok]
    rfl
  · intro i c hi hc
    rw [ht i c hi hc]
    unfold value
    split
    · rfl
    · split
      · rfl
      · split <;> rfl

/-- Copying a tile that is in the image. -/
theorem paste {width height k x1 y1 tw th : Nat} {d t : List UInt8} (hk : 0 < k) (hd : d.length = width * height * k) (hs : width * height * k < 4294967296) (ht : tw * th * k ≤ t.length)
    (hx : x1 + tw ≤ width) (hy : y1 + th ≤ height) :
    ∃ d', loopN th (fun i d => memcpy d (u32 (u32 (k * (width * y1 + x1)) + k * i * width)) t (k * i * tw) (tw * k)) d = .ok d' ∧ d'.length = d.length ∧
      ∀ x y c, x < width → y < height → c < k → d'[(y * width + x) * k + c]? = if x1 ≤ x ∧ x < x1 + tw ∧ y1 ≤ y ∧ y < y1 + th then t[((y - y1) * tw + (x - x1)) * k + c]? else d[(y * width + x) * k + c]? := by
  have row : ∀ i, i < th → k * (width * y1 + x1) + k * i * width = ((y1 + i) * width + x1) * k := by intro i _; ring_nf
  have le : ∀ i, i < th → ((y1 + i) * width + x1) * k + tw * k ≤ width * height * k := by
    intro i hi
    rw [← Nat.add_mul]
    refine Nat.mul_le_mul_right k ?_
    have := Nat.mul_le_mul_right width (show y1 + i + 1 ≤ height by omega)
    rw [Nat.add_mul, Nat.one_mul, Nat.mul_comm height] at this
    omega
  have src : ∀ i, i < th → k * i * tw + tw * k ≤ t.length := by
    intro i hi
    have := Nat.mul_le_mul_right (tw * k) (show i + 1 ≤ th by omega)
    rw [show (i + 1) * (tw * k) = k * i * tw + tw * k by ring, show th * (tw * k) = tw * th * k by ring] at this
    omega
  have same : ∀ i, i < th → u32 (u32 (k * (width * y1 + x1)) + k * i * width) = ((y1 + i) * width + x1) * k := by
    intro i hi
    unfold u32
    rw [Nat.mod_add_mod, row i hi]
    by_cases h0 : tw = 0
    · subst h0
      rcases Nat.eq_zero_or_pos width with rfl | hw
      · simp at *
        subst hx
        simp
      · have hwk : 0 < width * k := Nat.mul_pos hw hk
        have := le i hi
        rcases Nat.lt_or_ge (((y1 + i) * width + x1) * k) 4294967296 with h | h
        · exact Nat.mod_eq_of_lt h
        · omega
    · have := le i hi
      exact Nat.mod_eq_of_lt (by omega)
  obtain ⟨d', e, hl, hv⟩ := (Upd.loopW (n := th) (d0 := d) (body := fun i d => memcpy d (u32 (u32 (k * (width * y1 + x1)) + k * i * width)) t (k * i * tw) (tw * k))
      (v := fun j => t[((j / (width * k) - y1) * tw) * k + (j % (width * k) - x1 * k)]?) (R := fun i j => ((y1 + i) * width + x1) * k ≤ j ∧ j < ((y1 + i) * width + x1) * k + tw * k) (fun i hi => by
        rw [same i hi]
        refine memcpy_upd (src i hi) (by have := le i hi; omega) ?_
        intro j h1 h2
        obtain ⟨q, rfl⟩ : ∃ q, j = ((y1 + i) * width + x1) * k + q := ⟨j - ((y1 + i) * width + x1) * k, by omega⟩
        have hq : x1 * k + q < width * k := by
          have := Nat.mul_le_mul_right k hx
          rw [Nat.add_mul] at this
          omega
        have e : ((y1 + i) * width + x1) * k + q = (width * k) * (y1 + i) + (x1 * k + q) := by ring
        show _ = t[_]?
        rw [e, Nat.mul_add_div (by omega), Nat.div_eq_of_lt hq, Nat.mul_add_mod, Nat.mod_eq_of_lt hq]
        congr 1
        rw [show y1 + i + 0 - y1 = i by omega, show x1 * k + q - x1 * k = q by omega, show width * k * (y1 + i) + (x1 * k + q) - ((y1 + i) * width + x1) * k = q by rw [← e]; omega]
        ring)) _ rfl (fun _ h => h.elim)
  refine ⟨d', e, hl, ?_⟩
  intro x y c hx' hy' hc
  have hin : (y * width + x) * k + c < d.length := by
    rw [hd]
    have h1 : y * width + x + 1 ≤ width * height := by
      have := Nat.mul_le_mul_right width (show y + 1 ≤ height by omega)
      rw [Nat.add_mul, Nat.one_mul, Nat.mul_comm height] at this
      omega
    have := Nat.mul_le_mul_right k h1
    rw [Nat.add_mul _ 1] at this
    omega
  have hxc : x * k + c < width * k := by
    have := Nat.mul_le_mul_right k (show x + 1 ≤ width by omega)
    rw [Nat.add_mul] at this
    omega
  by_cases hi : x1 ≤ x ∧ x < x1 + tw ∧ y1 ≤ y ∧ y < y1 + th
  · obtain ⟨i1, i2, i3, i4⟩ := hi
    rw [if_pos ⟨i1, i2, i3, i4⟩]
    rw [(hv _ hin).1 ⟨y - y1, by omega, ?_, ?_⟩]
    · show t[_]? = _
      rw [show (y * width + x) * k + c = (width * k) * y + (x * k + c) by ring, Nat.mul_add_div (by omega), Nat.div_eq_of_lt hxc, Nat.mul_add_mod, Nat.mod_eq_of_lt hxc]
      congr 1
      have := Nat.mul_le_mul_right k i1
      rw [Nat.add_zero, Nat.add_mul _ _ k, Nat.sub_mul x x1 k]
      omega
    · rw [show y1 + (y - y1) = y by omega]
      have := Nat.mul_le_mul_right k (show y * width + x1 ≤ y * width + x by omega)
      omega
    · rw [show y1 + (y - y1) = y by omega, ← Nat.add_mul]
      have := Nat.mul_le_mul_right k (show y * width + x + 1 ≤ y * width + x1 + tw by omega)
      rw [Nat.add_mul _ 1] at this
      omega
  · rw [if_neg hi]
    refine (hv _ hin).2 ?_
    rintro ⟨i, h1, h2, h3⟩
    apply hi
    rw [show (y * width + x) * k + c = (width * k) * y + (x * k + c) by ring] at h2 h3
    rw [show ((y1 + i) * width + x1) * k = (width * k) * (y1 + i) + x1 * k by ring] at h2 h3
    have hxx := Nat.mul_le_mul_right k hx
    rw [Nat.add_mul] at hxx
    have hy3 : y = y1 + i := by
      rcases Nat.lt_trichotomy y (y1 + i) with h | h | h
      · have := Nat.mul_le_mul_left (width * k) (show y + 1 ≤ y1 + i by omega)
        rw [Nat.mul_add] at this
        omega
      · exact h
      · have := Nat.mul_le_mul_left (width * k) (show y1 + i + 1 ≤ y by omega)
        rw [Nat.mul_add _ _ 1] at this
        omega
    subst hy3
    have hx1 : x1 ≤ x := by
      rcases Nat.lt_or_ge x x1 with h | h
      · have := Nat.mul_le_mul_right k (show x + 1 ≤ x1 by omega)
        rw [Nat.add_mul] at this
        omega
      · exact h
    have hx2 : x < x1 + tw := by
      rcases Nat.lt_or_ge x (x1 + tw) with h | h
      · exact h
      · have := Nat.mul_le_mul_right k h
        rw [Nat.add_mul] at this
        omega
    exact ⟨hx1, hx2, by omega, by omega⟩

end DevIL.Iff
