import Verif.Model.Dds
import Verif.Spec.Dds
import Verif.Lemmas.GamesG
import Verif.Lemmas.Dxt
import Verif.Props.Half
/-! The loader of DDS files up to the decoding of the pixels: header, size of the data, image. -/
set_option autoImplicit false
namespace DevIL.Dds

open DevIL.Detect DevIL.DetectSpec DevIL.DdsSpec DevIL.Image DevIL.Games

theorem bit_and (n k : Nat) : (n &&& 2 ^ k ≠ 0) ↔ bit n k = true := by
  rw [Half.bit_ne]; unfold bit; exact (beq_iff_eq).symm

theorem bit_not (n k : Nat) : (n &&& 2 ^ k = 0) ↔ bit n k = false := by
  have := bit_and n k
  cases h : bit n k with
  | true => rw [h] at this; simp only [ne_eq, true_iff, iff_true] at this; simp [this]
  | false => rw [h] at this; simp only [ne_eq, Bool.false_eq_true, iff_false, not_not] at this; simp [this]

variable {σ : Type} {o : Ops σ} {At : σ → List UInt8 → Nat → Prop}

/-- The header as the file has it. -/
def hdOf (bs : List UInt8) : Hd :=
  { flags1 := leAt bs 8 4, height := leAt bs 12 4, width := leAt bs 16 4, linear := leAt bs 20 4,
    depth := if leAt bs 24 4 = 0 then 1 else leAt bs 24 4, mips := leAt bs 28 4, flags2 := leAt bs 80 4, fourCC := leAt bs 84 4,
    bits := leAt bs 88 4, rmask := leAt bs 92 4, gmask := leAt bs 96 4, bmask := leAt bs 100 4, amask := leAt bs 104 4,
    caps1 := leAt bs 108 4, caps2 := leAt bs 112 4 }

theorem header_spec (L : Laws2 o At) (junk : Nat → UInt8) {s : σ} {bs : List UInt8} (hs : At s bs 0) (hlen : 128 ≤ bs.length) :
    Holds (head o junk headFields s) (fun r => At r.2 bs 128 ∧ hd r.1 = hdOf bs ∧ fld r.1 0 = at_ bs 0 4 ∧ fle r.1 1 = leAt bs 4 4 ∧
      fle r.1 10 = leAt bs 76 4 ∧ fle r.1 4 = leAt bs 16 4 ∧ fle r.1 3 = leAt bs 12 4) := by
  refine (head_spec L.toLaws junk bs headFields s 0 hs (by decide)).mono (fun r hr => ?_)
  obtain ⟨-, h1, h2⟩ := hr
  have fl : ∀ i off, headFields[i]? = some u32f → start headFields i = off → off + 4 ≤ 128 → fle r.1 i = leAt bs off 4 := by
    intro i off h e hb
    have := h2 i u32f h (by rw [e]; show 0 + off + 4 ≤ _; omega)
    show le (fld r.1 i) = _
    rw [this, e, Nat.zero_add]; rfl
  have e0 := h2 0 (arr 4) rfl (by show 0 + 0 + 4 ≤ _; omega)
  refine ⟨h1 (by show 0 + 128 ≤ _; omega), ?_, e0, fl 1 4 rfl rfl (by decide), fl 10 76 rfl rfl (by decide), fl 4 16 rfl rfl (by decide),
    fl 3 12 rfl rfl (by decide)⟩
  unfold hd hdOf
  rw [fl 2 8 rfl rfl (by decide), fl 3 12 rfl rfl (by decide), fl 4 16 rfl rfl (by decide), fl 5 20 rfl rfl (by decide), fl 6 24 rfl rfl (by decide),
    fl 7 28 rfl rfl (by decide), fl 11 80 rfl rfl (by decide), fl 12 84 rfl rfl (by decide), fl 13 88 rfl rfl (by decide),
    fl 14 92 rfl rfl (by decide), fl 15 96 rfl rfl (by decide), fl 16 100 rfl rfl (by decide), fl 17 104 rfl rfl (by decide),
    fl 18 108 rfl rfl (by decide), fl 19 112 rfl rfl (by decide)]

theorem hd_depth {bs : List UInt8} {w h : Nat} (H : Header bs w h) : (hdOf bs).depth = 1 := by
  have := H.depth
  show (if _ then _ else _) = _
  split <;> omega

/-! ### Reading the data -/

theorem at_split' (bs : List UInt8) (p a b : Nat) : at_ bs p (a + b) = at_ bs p a ++ at_ bs (p + a) b := at_split bs p a b

theorem ints_of {n : Nat} (h : n < 2147483648) : ints n = n := by
  unfold ints Lump.toInt; rw [if_pos h]; rfl

theorem mem_put {d g : List UInt8} {t : Nat} (h : t + g.length ≤ d.length) :
    memcpy d t g 0 g.length = .ok (d.take t ++ (g ++ d.drop (t + g.length))) := by
  unfold memcpy
  rw [if_pos (by omega), if_pos h]
  simp

/-- The data of a size the header gives, or which follows from the format. -/
theorem read_linear (L : Laws2 o At) (junk : Nat → UInt8) {s : σ} {bs : List UInt8} {p : Nat} (hs : At s bs p) (hp : p ≤ bs.length) (h : Hd)
    (isDx10 : Bool) (w ht d : Nat) (hf : h.flags1 &&& LINEARSIZE ≠ 0) (hn : h.linear < 4294967296) :
    Holds (readData o junk h isDx10 w ht d s) (fun r => (p + h.linear ≤ bs.length → r.1 = some (at_ bs p h.linear) ∧ At r.2 bs (p + h.linear)) ∧
      (bs.length < p + h.linear → r.1 = none) ∧ ∃ q, At r.2 bs q) := by
  unfold readData
  rw [if_pos hf]
  refine (into_spec L (alloc junk h.linear) 1 h.linear hs (by decide) (by omega) (by rw [alloc_length]; omega)).bind (fun r hr => ?_)
  obtain ⟨n, c, t⟩ := r
  obtain ⟨h1, h2, h3⟩ := hr
  simp only [Nat.one_mul, Nat.div_one] at h1 h2 h3 ⊢
  have hlen := at_length bs p h.linear
  refine Holds.ite (fun hne => ?_) (fun he => ?_)
  · refine Holds.pure ⟨fun hle => absurd (h1.trans (by rw [hlen]; omega)) hne, fun _ => rfl, _, h3⟩
  · simp only [ne_eq, not_not] at he
    refine Holds.pure ⟨fun hle => ⟨?_, ?_⟩, fun hlt => absurd (h1.symm.trans he) (by rw [hlen]; omega), _, h3⟩
    · show some c = _
      rw [h2, ← h1, he, List.drop_eq_nil_of_le (by rw [alloc_length]), List.append_nil]
    · rw [← h1, he] at h3; exact h3

/-- The data row by row. -/
theorem read_rows (L : Laws2 o At) (junk : Nat → UInt8) {s : σ} {bs : List UInt8} {p : Nat} (hs : At s bs p) (hp : p ≤ bs.length) (h : Hd)
    (isDx10 : Bool) (w ht b n : Nat) (hf : h.flags1 &&& LINEARSIZE = 0) (hb : (if isDx10 then h.linear else u32 (w * h.bits) / 8) = b)
    (hn : b * ht = n) (hht : ht < 2147483648) (h0 : 0 < n) (hlt : n < 4294967296) :
    Holds (readData o junk h isDx10 w ht 1 s) (fun r => (p + n ≤ bs.length → r.1 = some (at_ bs p n) ∧ At r.2 bs (p + n)) ∧
      (bs.length < p + n → r.1 = none) ∧ ∃ q, At r.2 bs q) := by
  unfold readData
  rw [if_neg (by simpa using hf)]
  simp only [hb, Nat.mul_one, hn, u32_of_lt hlt]
  rw [if_neg (by omega), ints_of (show 1 < 2147483648 by decide), ints_of hht, loopN_succ, loopN_zero]
  have hblt : b ≤ n := by
    rw [← hn]
    exact Nat.le_mul_of_pos_right b (by
      rcases Nat.eq_zero_or_pos ht with h | h
      · rw [h, Nat.mul_zero] at hn; omega
      · exact h)
  have key := Holds.loop (f := fun _ r => readRow o b r) (n := ht) (s := ⟨alloc junk n, 0, s, false⟩)
    (fun j (r : Rows σ) => r.data.length = n ∧ ((r.failed = false ∧ r.t = j * b ∧ p + j * b ≤ bs.length ∧ r.data.take (j * b) = at_ bs p (j * b) ∧
      At r.inp bs (p + j * b)) ∨ (r.failed = true ∧ bs.length < p + n ∧ ∃ q, At r.inp bs q)))
    ⟨alloc_length _ _, .inl ⟨rfl, by simp, by simpa using hp, by simp [at_], by simpa using hs⟩⟩ (fun j r hj hI => ?_)
  · refine Holds.bind (P := fun r => r.data.length = n ∧ ((r.failed = false ∧ r.t = ht * b ∧ p + ht * b ≤ bs.length ∧
      r.data.take (ht * b) = at_ bs p (ht * b) ∧ At r.inp bs (p + ht * b)) ∨ (r.failed = true ∧ bs.length < p + n ∧ ∃ q, At r.inp bs q))) ?_ (fun r hr => ?_)
    · rw [bind_ok]; exact key
    · rw [Nat.mul_comm ht b, hn] at hr
      obtain ⟨hl, ⟨hfl, ht', hle, htk, hat⟩ | ⟨hfl, hlt', q, hq⟩⟩ := hr
      · rw [if_neg (by simp [hfl])]
        refine Holds.pure ⟨fun _ => ⟨?_, hat⟩, fun h => by omega, _, hat⟩
        show some r.data = _
        rw [← htk, List.take_of_length_le (by omega)]
      · rw [if_pos hfl]
        exact Holds.pure ⟨fun h => by omega, fun _ => rfl, q, hq⟩
  · obtain ⟨hl, ⟨hfl, ht', hle, htk, hat⟩ | ⟨hfl, hlt', q, hq⟩⟩ := hI
    · unfold readRow
      rw [if_neg (by simp [hfl])]
      have hjb : j * b + b ≤ n := by
        rw [← hn]
        calc j * b + b = (j + 1) * b := by rw [Nat.add_mul, Nat.one_mul]
          _ ≤ ht * b := Nat.mul_le_mul_right b hj
          _ = b * ht := Nat.mul_comm _ _
      refine (L.read 1 b hat (by decide) (by omega)).bind (fun g hg => ?_)
      obtain ⟨g1, g2, g3⟩ := hg
      obtain ⟨g, k, t⟩ := g
      simp only [Nat.one_mul, Nat.div_one] at g1 g2 g3 ⊢
      have hgl : g.length = min b (bs.length - (p + j * b)) := by rw [g1, at_length]
      rw [mem_put (by omega), bind_ok]
      refine Holds.ite (fun hne => ?_) (fun he => ?_)
      · refine Holds.pure ⟨?_, .inr ⟨rfl, ?_, _, g3⟩⟩
        · simp; omega
        · omega
      · simp only [ne_eq, not_not] at he
        have hgb : g.length = b := by omega
        refine Holds.pure ⟨by simp; omega, .inl ⟨rfl, ?_, ?_, ?_, ?_⟩⟩
        · show r.t + b = _; rw [ht', Nat.add_mul, Nat.one_mul]
        · rw [Nat.add_mul, Nat.one_mul]; omega
        · show (r.data.take r.t ++ (g ++ r.data.drop (r.t + g.length))).take _ = _
          rw [Nat.add_mul, Nat.one_mul, at_split', ← g1, ← htk, ht', ← List.append_assoc, List.take_append_of_le_length (by simp; omega),
            List.take_of_length_le (by simp; omega)]
        · rw [Nat.add_mul, Nat.one_mul, ← Nat.add_assoc]
          rw [hgb] at g3
          exact g3
    · unfold readRow
      rw [if_pos hfl]
      exact Holds.pure ⟨hl, .inr ⟨hfl, hlt', q, hq⟩⟩

/-! ### The whole loader -/

theorem no_mips (junk : Nat → UInt8) (h : Hd) (f : PF) (w ht d : Nat) (s : σ) (hm : h.flags1 &&& MIPMAPCOUNT = 0 ∨ h.mips ≤ 1) :
    readMipmaps o junk h f w ht d s = .ok (some [], s) := by
  unfold readMipmaps
  have e : (if h.flags1 &&& MIPMAPCOUNT = 0 ∨ h.mips = 0 then 1 else h.mips) - 1 = 0 := by
    rcases hm with hm | hm
    · rw [if_pos (.inl hm)]
    · split
      · rfl
      · omega
  simp only [e]
  rfl

theorem or_and (n k j : Nat) : (n ||| 2 ^ k) &&& 2 ^ j = 0 ↔ bit n j = false ∧ k ≠ j := by
  rw [bit_not]
  unfold bit
  constructor
  · intro h
    have hb : (n ||| 2 ^ k).testBit j = false := by
      rw [Nat.testBit_eq_decide_div_mod_eq]
      simpa using h
    rw [Nat.testBit_or, Nat.testBit_two_pow] at hb
    simp only [Bool.or_eq_false_iff, decide_eq_false_iff_not] at hb
    refine ⟨?_, hb.2⟩
    rw [Nat.testBit_eq_decide_div_mod_eq] at hb
    simpa using hb.1
  · rintro ⟨h, hk⟩
    have hb : (n ||| 2 ^ k).testBit j = false := by
      rw [Nat.testBit_or, Nat.testBit_two_pow]
      simp only [Bool.or_eq_false_iff, decide_eq_false_iff_not]
      refine ⟨?_, hk⟩
      rw [Nat.testBit_eq_decide_div_mod_eq]
      simpa using h
    rw [Nat.testBit_eq_decide_div_mod_eq] at hb
    simpa using hb

theorem and_or (n j k : Nat) : n &&& (2 ^ j ||| 2 ^ k) = 0 ↔ bit n j = false ∧ bit n k = false := by
  rw [Nat.and_or_distrib_left, ← bit_not, ← bit_not]
  constructor
  · intro h
    exact ⟨Nat.eq_zero_of_not_pos fun hp => by
        have := Nat.left_le_or (n := n &&& 2 ^ j) (m := n &&& 2 ^ k); omega,
      Nat.eq_zero_of_not_pos fun hp => by
        have := Nat.right_le_or (n := n &&& 2 ^ j) (m := n &&& 2 ^ k); omega⟩
  · rintro ⟨a, b⟩
    rw [a, b]; rfl

/-- The ways a header can declare the size of the data. -/
theorem declared {bs : List UInt8} {n : Nat} (hd : Declares bs n) :
    (fixSize (hdOf bs) n).flags1 &&& LINEARSIZE ≠ 0 ∧ (fixSize (hdOf bs) n).linear = n := by
  have e : LINEARSIZE = 2 ^ 19 := rfl
  have e' : PITCH = 2 ^ 3 := rfl
  unfold fixSize
  rw [e, e']
  by_cases hc : (hdOf bs).flags1 &&& (2 ^ 19 ||| 2 ^ 3) = 0 ∨ (hdOf bs).linear = 0
  · rw [if_pos hc]
    refine ⟨fun h => ?_, rfl⟩
    exact ((or_and _ 19 19).mp h).2 rfl
  · rw [if_neg hc]
    rcases hd with h | h | h
    · exact absurd (.inr h) hc
    · exact absurd (.inl ((and_or _ 19 3).mpr h)) hc
    · exact ⟨(bit_and _ 19).mpr h.1, h.2⟩

theorem pitched {bs : List UInt8} (n : Nat) (hp : Pitch bs) : fixSize (hdOf bs) n = hdOf bs ∧ (hdOf bs).flags1 &&& LINEARSIZE = 0 := by
  have e : LINEARSIZE = 2 ^ 19 := rfl
  have e' : PITCH = 2 ^ 3 := rfl
  refine ⟨?_, (bit_not _ 19).mpr hp.2.1⟩
  unfold fixSize
  rw [e, e', if_neg]
  rintro (h | h)
  · have := ((and_or _ 19 3).mp h).2
    rw [show bit (hdOf bs).flags1 3 = bit (leAt bs 8 4) 3 from rfl, hp.2.2] at this
    cases this
  · exact hp.1 h

/-- Only these two fields change. -/
theorem fixSize_same (h : Hd) (n : Nat) : fixSize h n = { h with flags1 := (fixSize h n).flags1, linear := (fixSize h n).linear } := by
  unfold fixSize; split <;> rfl

/-- Loading a file with one picture: it comes down to decoding the `n` bytes after the header. -/
theorem load_spec (L : Laws2 o At) (junk : Nat → UInt8) (cube : Hd → σ → C (Bool × List Img × σ)) (cur : Img) {s : σ} {bs : List UInt8} {w h : Nat}
    (hs : At s bs 0) (H : Header bs w h) (f : PF) (n block : Nat) (hpf : decodePixelFormat (hdOf bs) = (f, block)) (hu : f ≠ .unknown) (hx : f ≠ .dx10)
    (hn : n < 4294967296) (hh : h < 2147483648)
    (hsize : (Declares bs n ∧ block = n) ∨ (Pitch bs ∧ 0 < n ∧ u32 (w * leAt bs 88 4) / 8 * h = n)) (ok : Bool) (p : List UInt8)
    (hd : ∀ fl li : Nat, 128 + n ≤ bs.length →
      ddsDecompress { hdOf bs with flags1 := fl, linear := li } f w h 1 (texN junk w h 1 (imageKind (hdOf bs) f).1 (imageKind (hdOf bs) f).2.1 (imageKind (hdOf bs) f).2.2) (at_ bs 128 n) = .ok (ok, p)) :
    Holds (iLoadDdsInternal o junk cube cur s) (fun r => (128 + n ≤ bs.length → r.1 = ok ∧
        r.2.1 = [{ texN junk w h 1 (imageKind (hdOf bs) f).1 (imageKind (hdOf bs) f).2.1 (imageKind (hdOf bs) f).2.2 with data := p }]) ∧
      (bs.length < 128 + n → r.1 = false ∧ r.2.1 = [cur]) ∧ ∃ q, At r.2.2 bs q) := by
  unfold iLoadDdsInternal
  refine (header_spec L junk hs H.len).bind (fun r hr => ?_)
  obtain ⟨hdr, t⟩ := r
  obtain ⟨ha, e1, e2, e3, e4, e5, e6⟩ := hr
  simp only at ha e1 e2 e3 e4 e5 e6 ⊢
  have hck : iCheckDds hdr = true := by
    unfold iCheckDds
    rw [e2, H.magic, e3, H.size1, e4, H.size2, e5, H.width, e6, H.height]
    have := H.w0
    have := H.h0
    simp; omega
  rw [hck, if_neg (by simp), e1]
  simp only [hpf]
  rw [if_neg hu, if_neg (by
    rintro ⟨-, h2⟩
    have := (bit_and (leAt bs 112 4) 9).mp h2
    rw [H.cube] at this; cases this), if_neg hx]
  unfold loadSurface
  set_option linter.unusedSimpArgs false in
  have ew : (fixSize (hdOf bs) block).width = w := by rw [fixSize_same]; exact H.width
  have eh : (fixSize (hdOf bs) block).height = h := by rw [fixSize_same]; exact H.height
  have ed : (fixSize (hdOf bs) block).depth = 1 := by rw [fixSize_same]; exact hd_depth H
  have ek : imageKind (fixSize (hdOf bs) block) f = imageKind (hdOf bs) f := by rw [fixSize_same]; cases f <;> rfl
  have ea : adjustVolume (fixSize (hdOf bs) block) f false = (fixSize (hdOf bs) block, 1) := by
    unfold adjustVolume
    rw [if_pos (.inl (by omega)), ed]
  simp only [ea, ew, eh, ek]
  have em : (fixSize (hdOf bs) block).flags1 &&& MIPMAPCOUNT = 0 ∨ (fixSize (hdOf bs) block).mips ≤ 1 := by
    rcases H.mips with hm | hm
    · refine .inl ?_
      unfold fixSize
      split
      · exact (or_and _ 19 17).mpr ⟨hm, by decide⟩
      · exact (bit_not _ 17).mpr hm
    · right; rw [fixSize_same]; exact hm
  have hrd : Holds (readData o junk (fixSize (hdOf bs) block) false w h 1 t) (fun r => (128 + n ≤ bs.length → r.1 = some (at_ bs 128 n) ∧ At r.2 bs (128 + n)) ∧
      (bs.length < 128 + n → r.1 = none) ∧ ∃ q, At r.2 bs q) := by
    rcases hsize with ⟨hdc, rfl⟩ | ⟨hpt, h0, hrow⟩
    · obtain ⟨g1, g2⟩ := declared hdc
      have := read_linear L junk ha H.len (fixSize (hdOf bs) block) false w h 1 g1 (by rw [g2]; exact hn)
      rw [g2] at this
      exact this
    · obtain ⟨g1, g2⟩ := pitched block hpt
      rw [g1]
      exact read_rows L junk ha H.len (hdOf bs) false w h _ n g2 rfl hrow hh h0 hn
  refine hrd.bind (fun r hr => ?_)
  obtain ⟨c, t'⟩ := r
  obtain ⟨h1, h2, q, hq⟩ := hr
  simp only at h1 h2 hq ⊢
  by_cases hl : 128 + n ≤ bs.length
  · obtain ⟨hc, hat⟩ := h1 hl
    subst hc
    have := hd (fixSize (hdOf bs) block).flags1 (fixSize (hdOf bs) block).linear hl
    rw [← fixSize_same] at this
    simp only [this, bind_ok]
    cases ok with
    | true =>
      simp only [if_true]
      rw [no_mips junk _ _ _ _ _ _ em, bind_ok]
      exact Holds.pure ⟨fun _ => ⟨rfl, rfl⟩, fun h => by omega, _, hat⟩
    | false => exact Holds.pure ⟨fun _ => ⟨rfl, rfl⟩, fun h => by omega, _, hat⟩
  · have hc := h2 (by omega)
    subst hc
    exact Holds.pure ⟨fun h => by omega, fun _ => ⟨rfl, rfl⟩, q, hq⟩

end DevIL.Dds
