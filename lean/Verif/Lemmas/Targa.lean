import Verif.Model.Targa
import Verif.Lemmas.Rle
import Verif.Lemmas.Stream
import Verif.Props.Lump
import Verif.Props.Image
/-! Lemmas about the Targa loader and saver. -/
set_option autoImplicit false
namespace DevIL.Targa
open DevIL.Lump DevIL.Endian DevIL.Image DevIL.Utility DevIL.Rle

theorem putPix_spec {color : List UInt8} {at_ size : Nat} : ∀ (k c : Nat) (d : List UInt8), c + k ≤ color.length →
    d.length = size → at_ + c + k < 4294967296 →
    putPix color at_ size k c d = .ok (clip d (at_ + c) ((color.drop c).take k)) := by
  intro k
  induction k with
  | zero => intro c d _ _ _; simp [putPix]
  | succ k ih =>
    intro c d hc hd hlt
    unfold putPix
    rw [u32_of_lt (by omega)]
    by_cases h : at_ + c < size
    · rw [if_pos h, rd_of_lt (by omega), bind_ok, wr_splice (by omega), bind_ok,
        ih (c + 1) _ (by omega) (by rw [splice_length (by simp; omega)]; exact hd) (by omega)]
      rw [splice_eq_clip (by simp; omega)]
      have := clip_clip d (at_ + c) [color[c]] ((color.drop (c + 1)).take k)
      simp only [List.length_singleton, List.singleton_append] at this
      rw [← Nat.add_assoc, this]
      congr 2
      rw [List.drop_eq_getElem_cons (i := c) (by omega), List.take_succ_cons]
    · rw [if_neg h]
      unfold clip
      rw [show d.length - (at_ + c) = 0 by omega]
      simp

/-- The body of a run packet stores the pixel `n` times. -/
theorem run_spec {px tail : List UInt8} {done size bpp n : Nat} (hb : px.length = bpp) (d : List UInt8)
    (hd : d.length = size) (hlt : done + n * bpp < 4294967296) :
    loopN n (fun i d => putPix (px ++ tail) (done + i * bpp) size bpp 0 d) d =
      .ok (clip d done (List.replicate n px).flatten) := by
  obtain ⟨t, e, ht⟩ := loopN_inv (n := n) (s := d) (f := fun i d => putPix (px ++ tail) (done + i * bpp) size bpp 0 d)
    (fun k t => t = clip d done (List.replicate k px).flatten) (by simp) (by
      rintro k t hk rfl
      refine ⟨_, ?_, rfl⟩
      have hkb : (k + 1) * bpp ≤ n * bpp := Nat.mul_le_mul_right _ hk
      rw [Nat.add_mul, Nat.one_mul] at hkb
      rw [putPix_spec bpp 0 _ (by simp; omega) (by rw [clip_length]; exact hd) (by omega)]
      have hfl : (List.replicate k px).flatten.length = k * bpp := by simp [hb]
      have := clip_clip d done (List.replicate k px).flatten px
      rw [hfl] at this
      rw [Nat.add_zero, List.drop_zero, List.take_left' hb, this]
      congr 2
      rw [List.replicate_succ']
      simp)
  rw [e, ht]

theorem getb_end {l : R} (h : Good l) (hp : l.pos = l.size) : getb l = .ok (255, { l with pos := l.size - 1 }) := by
  unfold getb
  rw [getc_end h hp]
  rfl

theorem seek_zero {l : R} (h : Good l) : seek l 0 SEEK_CUR = .ok (true, l) := by
  have hp := h.pos
  have hlt := h.lt
  have e : ofInt ((l.pos : Int) + 0) = l.pos := by unfold ofInt; omega
  unfold seek seekTo
  rw [if_neg (by decide), if_pos rfl, if_neg (by rw [e]; omega), e]
  rfl

/-! ### Safety of the decoder -/

theorem tgaStep_safe {junk : Nat → UInt8} {bpp size : Nat} (h0 : 0 < bpp) (h4 : bpp ≤ 4) (hsz : size + 512 ≤ 4294967296) (s : D)
    (hd : s.data.length = size) (hg : Good s.inp) (hdone : s.done < size) (hnf : s.failed = false) :
    Holds (tgaStep junk bpp size s) (fun t => t.data.length = size ∧ Good t.inp ∧ (t.failed = true ∨ (s.done < t.done ∧ t.failed = false))) := by
  unfold tgaStep
  refine (holds_getb hg).bind fun r hr => ?_
  obtain ⟨h, l⟩ := r
  obtain ⟨hg1, _⟩ := hr
  simp only at hg1 ⊢
  have hh := h.toNat_lt
  refine Holds.ite (fun h7 => ?_) (fun h7 => ?_)
  · unfold runStep
    refine (holds_readAt (off := 0) (dst := alloc junk 4) (size := 1) (number := bpp) hg1 ?_).bind fun r hr => ?_
    · rw [Nat.one_mul, u32_of_lt (by omega)]; simp; omega
    obtain ⟨n, color, l2⟩ := r
    obtain ⟨hg2, _, hc⟩ := hr
    simp only [alloc_length] at hg2 hc ⊢
    refine Holds.ite (fun _ => ?_) (fun _ => ?_)
    · exact Holds.pure ⟨hd, hg2, Or.inl rfl⟩
    · have hrun : (h.toNat % 128 + 1) * bpp ≤ 128 * 4 := Nat.mul_le_mul (by omega) h4
      have hrun1 : bpp ≤ (h.toNat % 128 + 1) * bpp := Nat.le_mul_of_pos_left _ (by omega)
      refine (Holds.loop (I := fun _ (b : List UInt8) => b.length = size) hd ?_).bind fun data hdata => ?_
      · intro k t hk ht
        have hkb : (k + 1) * bpp ≤ (h.toNat % 128 + 1) * bpp := Nat.mul_le_mul_right _ hk
        rw [Nat.add_mul, Nat.one_mul] at hkb
        exact ⟨_, putPix_spec bpp 0 t (by omega) ht (by omega), (clip_length _ _ _).trans ht⟩
      · refine Holds.pure ⟨hdata, hg2, Or.inr ⟨?_, hnf⟩⟩
        show s.done < u32 (s.done + (h.toNat % 128 + 1) * bpp)
        rw [u32_of_lt (by omega)]
        omega
  · unfold rawStep
    have hrun : (h.toNat + 1) * bpp ≤ 128 * 4 := Nat.mul_le_mul (by omega) h4
    have hrun1 : bpp ≤ (h.toNat + 1) * bpp := Nat.le_mul_of_pos_left _ (by omega)
    have e1 : u32 (s.done + (h.toNat + 1) * bpp) = s.done + (h.toNat + 1) * bpp := u32_of_lt (by omega)
    simp only []
    rw [e1, u32_of_lt (show size - s.done < 4294967296 by omega)]
    have htr : s.done + (if s.done + (h.toNat + 1) * bpp > size then size - s.done else (h.toNat + 1) * bpp) ≤ size := by
      split <;> omega
    refine (holds_readAt (off := s.done) (dst := s.data) (size := 1) hg1 ?_).bind fun r hr => ?_
    · rw [Nat.one_mul, u32_of_lt (by split <;> omega), hd]; exact htr
    obtain ⟨n, data, l2⟩ := r
    obtain ⟨hg2, _, hdata⟩ := hr
    simp only at hg2 hdata ⊢
    refine Holds.ite (fun _ => ?_) (fun _ => ?_)
    · exact Holds.pure ⟨by show data.length = size; omega, hg2, Or.inl rfl⟩
    · refine Holds.ite (fun _ => ?_) (fun _ => ?_)
      · obtain ⟨b, l3, e3, hg3⟩ := seek_ok (l := l2) (mode := SEEK_CUR) (off := ((h.toNat + 1) * bpp : Nat) -
          ((if s.done + (h.toNat + 1) * bpp > size then size - s.done else (h.toNat + 1) * bpp : Nat) : Int)) hg2
          (fun h => absurd h (by decide)) (fun h => absurd h (by decide))
        rw [e3]
        exact Holds.pure ⟨by show data.length = size; omega, hg3, Or.inr ⟨by show s.done < s.done + (h.toNat + 1) * bpp; omega, hnf⟩⟩
      · exact Holds.pure ⟨by show data.length = size; omega, hg2, Or.inr ⟨by show s.done < s.done + (h.toNat + 1) * bpp; omega, hnf⟩⟩

theorem decode_safe {junk : Nat → UInt8} {bpp size : Nat} (h0 : 0 < bpp) (h4 : bpp ≤ 4) (hsz : size + 512 ≤ 4294967296) (d : List UInt8)
    (l : R) (hd : d.length = size) (hg : Good l) :
    Holds (whileF (fun s : D => !s.failed && decide (s.done < size)) (tgaStep junk bpp size) (size + 1) ⟨0, d, l, false⟩)
      (fun t => t.data.length = size ∧ Good t.inp ∧ (t.failed = false → size ≤ t.done)) := by
  refine (Holds.while (fun s : D => s.data.length = size ∧ Good s.inp) (fun s => if s.failed then 0 else size - s.done) ?_
    (size + 1) ⟨0, d, l, false⟩ ⟨hd, hg⟩ (by simp)).mono ?_
  · intro s hi hc
    simp only [Bool.and_eq_true, Bool.not_eq_true', decide_eq_true_eq] at hc
    refine (tgaStep_safe h0 h4 hsz s hi.1 hi.2 hc.2 hc.1).mono fun t ht => ⟨⟨ht.1, ht.2.1⟩, ?_⟩
    rw [hc.1]
    rcases ht.2.2 with h | ⟨h1, h2⟩
    · rw [h]; simp; omega
    · rw [h2]; simp; omega
  · rintro t ⟨⟨h1, h2⟩, h3⟩
    refine ⟨h1, h2, fun hf => ?_⟩
    rw [hf] at h3
    simpa using h3

/-! ### The decoder on a well-formed stream -/

theorem packets_nil {bpp : Nat} (h0 : 0 < bpp) {s out : List UInt8} (h : Packets tgaHeader bpp s out) (ho : out = []) : s = [] := by
  have tn : ∀ h : UInt8, 0 < (tgaHeader h).2 := fun h => Nat.succ_pos _
  cases h with
  | nil => rfl
  | raw h n px s out hh hpos hl rest =>
    exfalso
    have e := congrArg List.length ho
    have n1 : 0 < n := by have := tn h; rw [hh] at this; exact this
    have hpos : 0 < n * bpp := Nat.mul_pos n1 h0
    simp [hl] at e; omega
  | run h n px s out hh hpos hl rest =>
    exfalso
    have e := congrArg List.length ho
    have n1 : 0 < n := by have := tn h; rw [hh] at this; exact this
    have hpos : 0 < n * bpp := Nat.mul_pos n1 h0
    simp [hl] at e; omega

theorem decode_spec {junk : Nat → UInt8} {bpp size : Nat} (h0 : 0 < bpp) (h4 : bpp ≤ 4) (hsz : size + 512 ≤ 4294967296)
    {s out : List UInt8} (hp : Packets tgaHeader bpp s out) : ∀ (fuel : Nat) (rest out0 d0 : List UInt8) (l : R),
    size - out0.length < fuel → At l (s ++ rest) → d0.length = size → size ≤ (out0 ++ out).length →
    ∃ t, whileF (fun s : D => !s.failed && decide (s.done < size)) (tgaStep junk bpp size) fuel
        ⟨out0.length, clip d0 0 out0, l, false⟩ = .ok t ∧
      t.data = (out0 ++ out).take size ∧ t.failed = false ∧ ((out0 ++ out).length = size → t.inp = adv l s.length) := by
  have stop : ∀ (fuel : Nat) (s out rest out0 d0 : List UInt8) (l : R), size - out0.length < fuel → Packets tgaHeader bpp s out →
      At l (s ++ rest) → d0.length = size → size ≤ out0.length →
      ∃ t, whileF (fun s : D => !s.failed && decide (s.done < size)) (tgaStep junk bpp size) fuel
          ⟨out0.length, clip d0 0 out0, l, false⟩ = .ok t ∧
        t.data = (out0 ++ out).take size ∧ t.failed = false ∧ ((out0 ++ out).length = size → t.inp = adv l s.length) := by
    intro fuel s out rest out0 d0 l hf hp hl hd hs
    cases fuel with
    | zero => omega
    | succ fuel =>
      unfold whileF
      rw [if_neg (by simp; omega)]
      refine ⟨_, rfl, ?_, rfl, ?_⟩
      · show clip d0 0 out0 = _
        rw [clip_full (by omega), hd, List.take_append_of_le_length (by omega)]
      · intro he
        rw [List.length_append] at he
        have ho : out = [] := List.length_eq_zero_iff.mp (by omega)
        rw [packets_nil h0 hp ho]
        rfl
  induction hp with
  | nil =>
    intro fuel rest out0 d0 l hf hl hd hs
    exact stop fuel [] [] rest out0 d0 l hf .nil hl hd (by simpa using hs)
  | raw h n px s out hh hpos hpx rest' ih =>
    intro fuel rest out0 d0 l hf hl hd hs
    by_cases hdone : size ≤ out0.length
    · exact stop fuel _ _ rest out0 d0 l hf (.raw h n px s out hh hpos hpx rest') hl hd hdone
    cases fuel with
    | zero => omega
    | succ fuel =>
      unfold whileF
      rw [if_pos (by simp; omega)]
      unfold tgaHeader at hh
      simp only [Prod.mk.injEq, decide_eq_false_iff_not] at hh
      have hn : h.toNat + 1 = n := by omega
      have hrun : n * bpp ≤ 128 * 4 := Nat.mul_le_mul (by omega) h4
      have hrun1 : bpp ≤ n * bpp := Nat.le_mul_of_pos_left _ (by omega)
      rw [List.cons_append, List.append_assoc] at hl
      have hl1 := hl.adv_cons
      obtain ⟨l1, hl1e⟩ : ∃ l1, l1 = adv l 1 := ⟨_, rfl⟩
      rw [← hl1e] at hl1
      have hstep : ∃ l2, tgaStep junk bpp size ⟨out0.length, clip d0 0 out0, l, false⟩ =
          .ok ⟨(out0 ++ px).length, clip d0 0 (out0 ++ px), l2, false⟩ ∧
          (out0.length + n * bpp ≤ size → l2 = adv l (1 + px.length)) := by
        unfold tgaStep
        rw [hl.getb, bind_ok, ← hl1e]
        simp only []
        rw [if_neg hh.1]
        unfold rawStep
        simp only []
        rw [hn, u32_of_lt (show out0.length + n * bpp < 4294967296 by omega), u32_of_lt (show size - out0.length < 4294967296 by omega)]
        obtain ⟨k, hk⟩ : ∃ k, k = if out0.length + n * bpp > size then size - out0.length else n * bpp := ⟨_, rfl⟩
        have hkp : k = (px.take (size - out0.length)).length := by
          rw [hk, List.length_take, hpx]; split <;> omega
        have hkle : k ≤ n * bpp := by rw [hk]; split <;> omega
        have hkb : out0.length + k ≤ size := by rw [hk]; split <;> omega
        rw [← hk]
        have hl1' : At l1 (px.take (size - out0.length) ++ (px.drop (size - out0.length) ++ (s ++ rest))) := by
          rw [← List.append_assoc, List.take_append_drop]; exact hl1
        rw [hl1'.readAt (off := out0.length) (dst := clip d0 0 out0) (size := 1) (number := k) (by omega) (by decide)
          (by rw [clip_length]; omega), bind_ok]
        simp only []
        rw [if_neg (by simp)]
        have hdata : (clip d0 0 out0).take out0.length ++ (px.take (size - out0.length) ++
            (clip d0 0 out0).drop (out0.length + (px.take (size - out0.length)).length)) = clip d0 0 (out0 ++ px) := by
          have := clip_clip d0 0 out0 px
          rw [Nat.zero_add] at this
          rw [← this]
          unfold clip
          rw [show (splice d0 0 (out0.take (d0.length - 0))).length = size from by
            have := clip_length d0 0 out0; unfold clip at this; rw [this]; exact hd]
          rfl
        rw [hdata]
        have hlen : (out0 ++ px).length = out0.length + n * bpp := by rw [List.length_append, hpx]
        have g2 : Good (adv l1 (px.take (size - out0.length)).length) := (hl1'.adv).good
        by_cases hc : u32 (out0.length + n * bpp + n * bpp) > size
        · rw [if_pos hc]
          by_cases hfit : out0.length + n * bpp ≤ size
          · have hkn : k = n * bpp := by rw [hk, if_neg (by omega)]
            rw [hkn, Int.sub_self, seek_zero g2]
            refine ⟨_, by rw [hlen]; rfl, fun _ => ?_⟩
            rw [← hkp, hkn, hl1e, adv_adv, hpx]
          · obtain ⟨b, l3, e3, _⟩ := seek_ok (off := ((n * bpp : Nat) : Int) - (k : Int)) (mode := SEEK_CUR) g2
              (fun h => absurd h (by decide)) (fun h => absurd h (by decide))
            rw [e3]
            exact ⟨l3, by rw [hlen]; rfl, fun h => absurd h hfit⟩
        · rw [if_neg hc]
          refine ⟨_, by rw [hlen]; rfl, fun hfit => ?_⟩
          have hkn : k = n * bpp := by rw [hk, if_neg (by omega)]
          rw [← hkp, hkn, hl1e, adv_adv, hpx]
      obtain ⟨l2, e, hl2⟩ := hstep
      rw [e, bind_ok]
      rw [← List.append_assoc] at hs ⊢
      by_cases hfit : out0.length + n * bpp ≤ size
      · have hl2 := hl2 hfit
        have hat : At l2 (s ++ rest) := by
          rw [hl2, ← adv_adv, ← hl1e]; exact hl1.adv
        obtain ⟨t, e2, h2, h3, h5⟩ := ih fuel rest (out0 ++ px) d0 l2 (by rw [List.length_append, hpx]; omega) hat hd hs
        refine ⟨t, e2, h2, h3, fun he => ?_⟩
        rw [h5 he, hl2, adv_adv]
        congr 1
        simp; omega
      · have hge : size ≤ (out0 ++ px).length := by rw [List.length_append, hpx]; omega
        cases fuel with
        | zero => omega
        | succ fuel =>
          unfold whileF
          rw [if_neg (by simp only [Bool.not_false, Bool.true_and, decide_eq_true_eq]; omega)]
          refine ⟨_, rfl, ?_, rfl, ?_⟩
          · show clip d0 0 (out0 ++ px) = _
            rw [clip_full (by omega), hd, List.take_append_of_le_length hge]
          · intro he
            rw [List.length_append, List.length_append, hpx] at he
            omega
  | run h n px s out hh hpos hpx rest' ih =>
    intro fuel rest out0 d0 l hf hl hd hs
    by_cases hdone : size ≤ out0.length
    · exact stop fuel _ _ rest out0 d0 l hf (.run h n px s out hh hpos hpx rest') hl hd hdone
    cases fuel with
    | zero => omega
    | succ fuel =>
      unfold whileF
      rw [if_pos (by simp; omega)]
      unfold tgaHeader at hh
      simp only [Prod.mk.injEq, decide_eq_true_eq] at hh
      have hn : h.toNat % 128 + 1 = n := hh.2
      have hrun : n * bpp ≤ 128 * 4 := Nat.mul_le_mul (by omega) h4
      have hrun1 : bpp ≤ n * bpp := Nat.le_mul_of_pos_left _ (by omega)
      rw [List.cons_append, List.append_assoc] at hl
      have hl1 := hl.adv_cons
      have e : tgaStep junk bpp size ⟨out0.length, clip d0 0 out0, l, false⟩ =
          .ok ⟨(out0 ++ (List.replicate n px).flatten).length, clip d0 0 (out0 ++ (List.replicate n px).flatten),
            adv (adv l 1) px.length, false⟩ := by
        unfold tgaStep
        rw [hl.getb, bind_ok]
        simp only []
        rw [if_pos hh.1]
        unfold runStep
        rw [hl1.readAt (off := 0) (dst := alloc junk 4) (size := 1) (number := bpp) (by omega) (by decide)
          (by rw [alloc_length]; omega), bind_ok]
        simp only []
        rw [if_neg (by simp), hn, List.take_zero, List.nil_append,
          run_spec hpx _ (by rw [clip_length]; exact hd) (by omega), bind_ok]
        have := clip_clip d0 0 out0 (List.replicate n px).flatten
        rw [Nat.zero_add] at this
        rw [this, u32_of_lt (by omega)]
        have hfl : (List.replicate n px).flatten.length = n * bpp := by simp [hpx]
        rw [List.length_append, hfl]
        rfl
      rw [e, bind_ok]
      rw [← List.append_assoc] at hs ⊢
      obtain ⟨t, e2, h2, h3, h5⟩ := ih fuel rest (out0 ++ (List.replicate n px).flatten) d0 _
        (by rw [List.length_append]
            have hfl : (List.replicate n px).flatten.length = n * bpp := by simp [hpx]
            omega) hl1.adv hd hs
      refine ⟨t, e2, h2, h3, fun he => ?_⟩
      rw [h5 he, adv_adv, adv_adv]
      congr 1
      simp; omega

end DevIL.Targa
