import Verif.Lemmas.Pcd
import Verif.Props.Tpl
/-! Photo CD: C234 (the picture), C235 (safety). -/
set_option autoImplicit false
namespace DevIL.Pcd
open DevIL.Games DevIL.Detect DevIL.Image DevIL.DetectSpec DevIL.PcdSpec
open DevIL.GamesSpec (Shows)

/-- Loading from an open file and from memory. -/
def Loads (junk : Nat → UInt8) (conv : Conv) (pic : Nat) (cur : Img) (bs : List UInt8) (P : Bool → List Img → Prop) : Prop :=
  Both (iLoadPcdInternal fileOps junk conv pic cur) (iLoadPcdInternal lumpOps junk conv pic cur) bs P

theorem sizes_ok {pic w h off : Nat} (hp : sizes[pic]? = some (w, h, off)) : picture pic = some (w, h, (off : Int)) ∧ w % 2 = 0 ∧ 0 < w ∧ 0 < h ∧ h / 2 * 2 = h ∧ w ≤ 768 ∧ h ≤ 512 ∧
    off < 3 * (w * (h / 2)) ∧ w * h = 2 * (w * (h / 2)) ∧ 73 ≤ off := by
  match pic, hp with
  | 0, hp => cases hp; decide
  | 1, hp => cases hp; decide
  | 2, hp => cases hp; decide
  | n + 3, hp => cases hp

/-- What is done with a file that has an orientation. -/
def After (junk : Nat → UInt8) (conv : Conv) (cur : Img) (bs : List UInt8) (w h off : Nat) (ok : Bool) (ms : List Img) : Prop :=
  ok = decide (off + 1 + 3 * (w * (h / 2)) ≤ bs.length) ∧
  (ok = true → ∃ m, ms = [m] ∧ m.origin = (if ((bs[72]?).getD 0).toNat % 64 = 8 then IL_ORIGIN_UPPER_LEFT else IL_ORIGIN_LOWER_LEFT) ∧ Pictured conv bs m w h (off + 1)) ∧
  (ok = false → ms = [cur] ∨ ∃ d, d.length = w * h * 3 ∧ ms = [{ tex junk w h 3 IL_RGB with data := d }])

section
variable {σ : Type} {o : Ops σ} {At : σ → List UInt8 → Nat → Prop}

theorem load_core (L : Laws2 o At) (junk : Nat → UInt8) (conv : Conv) (pic : Nat) (cur : Img) {bs : List UInt8} {s : σ} {w h off : Nat} (hp : sizes[pic]? = some (w, h, off)) (hA : At s bs 0) :
    Holds (iLoadPcdInternal o junk conv pic cur s) (fun r => After junk conv cur bs w h off r.1 r.2.1 ∧ ∃ q, At r.2.2 bs q) := by
  obtain ⟨ep, we, w0, h0, he, w768, h512, hbig, hwh, ho⟩ := sizes_ok hp
  have hlen := L.len hA
  have hm768 : w * (h / 2) ≤ 768 * 256 := Nat.mul_le_mul w768 (by omega)
  obtain ⟨t1, -, -, -, -, -, -, -, t9⟩ := tex_fields junk w h 3 IL_RGB w0 h0 (by decide) (by omega)
  have tl : (tex junk w h 3 IL_RGB).data.length = w * h * 3 := by rw [tex_len, t9]
  have fail : ∀ (v : List UInt8) (s4 : σ) (q : Nat), At s4 bs q → bs.length ≤ off → Holds (if o.tell s4 = 4294967295 then pure (false, [cur], s4)
      else do
        let m := { tex junk w h 3 IL_RGB with origin := IL_ORIGIN_LOWER_LEFT }
        let (ok, d, s) ← pairs o conv w (h / 2) (alloc junk w) (alloc junk w) (alloc junk w) (m.data, 0) s4
        if !ok then pure (false, [{ m with data := d }], s)
        else do
          let v ← rd v 0
          pure (true, [{ m with data := d, origin := if v.toNat &&& 0x3F ≠ 8 then IL_ORIGIN_LOWER_LEFT else IL_ORIGIN_UPPER_LEFT }], s))
      (fun r => After junk conv cur bs w h off r.1 r.2.1 ∧ ∃ q, At r.2.2 bs q) := by
    intro v s4 q A4 hin
    have hnall : ¬ off + 1 + 3 * (w * (h / 2)) ≤ bs.length := by omega
    by_cases ht : o.tell s4 = 4294967295
    · rw [if_pos ht]
      exact Holds.pure ⟨⟨by rw [decide_eq_false hnall], fun h => Bool.noConfusion h, fun _ => .inl rfl⟩, ⟨q, A4⟩⟩
    · rw [if_neg ht]
      refine (pairs_spec L conv we w0 (by omega) (h / 2) q 0 (alloc junk w) (alloc junk w) (alloc junk w) (tex junk w h 3 IL_RGB).data s4 A4 (alloc_length _ _) (alloc_length _ _) (alloc_length _ _) (by omega)).bind (fun r hr => ?_)
      obtain ⟨ok, d, s5⟩ := r
      obtain ⟨a0, a1, a2, -, a4⟩ := hr
      simp only [] at a0 a1 a2 a4 ⊢
      rw [decide_eq_false (by omega)] at a2
      subst a2
      rw [if_pos (by decide)]
      exact Holds.pure ⟨⟨by rw [decide_eq_false hnall], fun h => Bool.noConfusion h, fun _ => .inr ⟨d, by rw [a1, tl], rfl⟩⟩, a0⟩
  unfold iLoadPcdInternal
  by_cases h73 : ¬ 73 ≤ bs.length
  · refine (L.seekCur 72 hA).bind (fun r hr => ?_)
    obtain ⟨u1, s1⟩ := r
    obtain ⟨⟨q1, A1⟩, -⟩ := hr
    simp only [] at A1 ⊢
    refine (into_spec L (alloc junk 1) 1 1 A1 (by decide) (by decide) (by rw [alloc_length])).bind (fun r hr => ?_)
    obtain ⟨k, v, s2⟩ := r
    obtain ⟨-, -, A2⟩ := hr
    simp only [] at A2 ⊢
    by_cases hk : k ≠ 1
    · rw [if_pos hk]
      exact Holds.pure ⟨⟨by rw [decide_eq_false (by omega)], fun h => Bool.noConfusion h, fun _ => .inl rfl⟩, _, A2⟩
    · rw [if_neg hk]
      refine (L.seekCur (-72) A2).bind (fun r hr => ?_)
      obtain ⟨u3, s3⟩ := r
      obtain ⟨⟨q3, A3⟩, -⟩ := hr
      simp only [] at A3 ⊢
      rw [ep]
      simp only []
      refine (L.seekCur (off : Int) A3).bind (fun r hr => ?_)
      obtain ⟨u4, s4⟩ := r
      obtain ⟨⟨q4, A4⟩, -⟩ := hr
      exact fail v s4 q4 A4 (by omega)
  refine (L.seekCur 72 hA).bind (fun r hr => ?_)
  obtain ⟨u1, s1⟩ := r
  have A1 := hr.2 72 rfl (by omega)
  simp only [] at A1 ⊢
  refine (into_spec L (alloc junk 1) 1 1 A1 (by decide) (by decide) (by rw [alloc_length])).bind (fun r hr => ?_)
  obtain ⟨k, v, s2⟩ := r
  obtain ⟨h1, h2, A2⟩ := hr
  simp only [] at h1 h2 A2 ⊢
  have hl1 : (at_ bs 72 (1 * 1)).length = 1 := by rw [at_length]; omega
  rw [hl1] at h1 h2 A2
  rw [List.drop_of_length_le (by rw [alloc_length]), List.append_nil] at h2
  rw [if_neg (by rw [h1]; decide)]
  refine (L.seekCur (-72) A2).bind (fun r hr => ?_)
  obtain ⟨u3, s3⟩ := r
  have A3 := hr.2 1 rfl (by omega)
  simp only [] at A3 ⊢
  rw [ep]
  simp only []
  refine (L.seekCur (off : Int) A3).bind (fun r hr => ?_)
  obtain ⟨u4, s4⟩ := r
  obtain ⟨⟨q, A4⟩, A4'⟩ := hr
  simp only [] at A4 A4' ⊢
  by_cases hin : off + 1 ≤ bs.length
  · have A4 : At s4 bs (off + 1) := A4' (off + 1) (by omega) hin
    rw [L.tellAt A4 hin, if_neg (by omega)]
    refine (pairs_spec L conv we w0 (by omega) (h / 2) (off + 1) 0 (alloc junk w) (alloc junk w) (alloc junk w) (tex junk w h 3 IL_RGB).data s4 A4 (alloc_length _ _) (alloc_length _ _) (alloc_length _ _) (by omega)).bind (fun r hr => ?_)
    obtain ⟨ok, d, s5⟩ := r
    obtain ⟨a0, a1, a2, -, a4⟩ := hr
    simp only [] at a0 a1 a2 a4 ⊢
    by_cases hall : off + 1 + 3 * (w * (h / 2)) ≤ bs.length
    · rw [decide_eq_true (.inr hall)] at a2
      subst a2
      rw [if_neg (by decide)]
      have hv : v[0]? = bs[72]? := by rw [h2, at_get (by decide)]
      have h72 : 72 < bs.length := by omega
      rw [List.getElem?_eq_getElem h72] at hv
      rw [rd_of_some hv, bind_ok]
      refine Holds.pure ⟨⟨by rw [decide_eq_true hall], fun _ => ⟨_, rfl, ?_, ?_⟩, fun h => Bool.noConfusion h⟩, a0⟩
      · show (if _ then _ else _) = _
        rw [List.getElem?_eq_getElem h72, Option.getD_some, show (0x3F : Nat) = 2 ^ 6 - 1 by decide, Nat.and_two_pow_sub_one_eq_mod]
        show (if bs[72].toNat % 64 ≠ 8 then _ else _) = _
        by_cases g : bs[72].toNat % 64 = 8
        · rw [if_neg (by simpa using g), if_pos g]
        · rw [if_pos g, if_neg g]
      · refine Tpl.blank_shows junk w h 3 IL_RGB w0 h0 (by decide) (by omega) d (by rw [a1, tl]) _ (fun x y c hx hy hc => ?_)
        have := a4 hall x y c hx (by omega) hc
        rw [Nat.zero_add] at this
        rw [Nat.mul_comm (y * w + x)]
        exact this
    · rw [decide_eq_false (by omega)] at a2
      subst a2
      rw [if_pos (by decide)]
      exact Holds.pure ⟨⟨by rw [decide_eq_false hall], fun h => Bool.noConfusion h, fun _ => .inr ⟨d, by rw [a1, tl], rfl⟩⟩, a0⟩
  · exact fail v s4 q A4 (by omega)

theorem load_other (L : Laws2 o At) (junk : Nat → UInt8) (conv : Conv) (pic : Nat) (cur : Img) {bs : List UInt8} {s : σ} (hp : 3 ≤ pic) (hA : At s bs 0) :
    Holds (iLoadPcdInternal o junk conv pic cur s) (fun r => (r.1 = false ∧ r.2.1 = [cur]) ∧ ∃ q, At r.2.2 bs q) := by
  have ep : picture pic = none := by unfold picture; rw [if_neg (by omega), if_neg (by omega), if_neg (by omega)]
  unfold iLoadPcdInternal
  refine (L.seekCur 72 hA).bind (fun r hr => ?_)
  obtain ⟨u1, s1⟩ := r
  obtain ⟨⟨q1, A1⟩, -⟩ := hr
  simp only [] at A1 ⊢
  refine (into_spec L (alloc junk 1) 1 1 A1 (by decide) (by decide) (by rw [alloc_length])).bind (fun r hr => ?_)
  obtain ⟨k, v, s2⟩ := r
  obtain ⟨-, -, A2⟩ := hr
  simp only [] at A2 ⊢
  by_cases hk : k ≠ 1
  · rw [if_pos hk]
    exact Holds.pure ⟨⟨rfl, rfl⟩, _, A2⟩
  · rw [if_neg hk]
    refine (L.seekCur (-72) A2).bind (fun r hr => ?_)
    obtain ⟨u3, s3⟩ := r
    obtain ⟨⟨q3, A3⟩, -⟩ := hr
    simp only [] at A3 ⊢
    rw [ep]
    exact Holds.pure ⟨⟨rfl, rfl⟩, _, A3⟩

end

/-- **C234, part.** A file that holds the chosen picture and one byte more loads as the picture that begins one byte behind the place of the picture, its rows in the order of the file, and the orientation says where the
first row is.  Missing: the picture itself, which is not what is loaded; see the violation. -/
theorem C234_picture_partial (junk : Nat → UInt8) (conv : Conv) (pic : Nat) (cur : Img) (bs : List UInt8) (hl : bs.length < 2147483648) (w h off : Nat) (hp : sizes[pic]? = some (w, h, off))
    (hall : off + 1 + 3 * (w * (h / 2)) ≤ bs.length) :
    Loads junk conv pic cur bs (fun ok ms => ok = true ∧ ∃ m, ms = [m] ∧
      m.origin = (if ((bs[72]?).getD 0).toNat % 64 = 8 then IL_ORIGIN_UPPER_LEFT else IL_ORIGIN_LOWER_LEFT) ∧ Pictured conv bs m w h (off + 1)) := by
  have core : ∀ {σ : Type} {o : Ops σ} {At : σ → List UInt8 → Nat → Prop} (L : Laws2 o At) (s : σ), At s bs 0 →
      Holds (iLoadPcdInternal o junk conv pic cur s) (fun r => (r.1 = true ∧ ∃ m, r.2.1 = [m] ∧
        m.origin = (if ((bs[72]?).getD 0).toNat % 64 = 8 then IL_ORIGIN_UPPER_LEFT else IL_ORIGIN_LOWER_LEFT) ∧ Pictured conv bs m w h (off + 1)) ∧ ∃ q, At r.2.2 bs q) := by
    intro σ o At L s hA
    refine (load_core L junk conv pic cur hp hA).mono (fun r hr => ?_)
    obtain ⟨⟨h1, h2, -⟩, h4⟩ := hr
    rw [decide_eq_true hall] at h1
    exact ⟨⟨h1, h2 h1⟩, h4⟩
  exact both (by omega) hl (core fileLaws2) (core lumpLaws2)

/-- **C234 violated**: whenever a component of the file's picture differs from that one byte later, the file loads with success, but not as the file's picture. -/
theorem C234_violated_shifted (junk : Nat → UInt8) (conv : Conv) (pic : Nat) (cur : Img) (bs : List UInt8) (hl : bs.length < 2147483648) (w h off : Nat) (hp : sizes[pic]? = some (w, h, off))
    (hall : off + 1 + 3 * (w * (h / 2)) ≤ bs.length) (x y c : Nat) (hx : x < w) (hy : y < h) (hc : c < 3) (hne : pixel conv bs w off x y c ≠ pixel conv bs w (off + 1) x y c) :
    Loads junk conv pic cur bs (fun ok ms => ok = true ∧ ∃ m, ms = [m] ∧ ¬ Pictured conv bs m w h off) := by
  have imp : ∀ (ok : Bool) (ms : List Img), (ok = true ∧ ∃ m, ms = [m] ∧ m.origin = (if ((bs[72]?).getD 0).toNat % 64 = 8 then IL_ORIGIN_UPPER_LEFT else IL_ORIGIN_LOWER_LEFT) ∧ Pictured conv bs m w h (off + 1)) →
      ok = true ∧ ∃ m, ms = [m] ∧ ¬ Pictured conv bs m w h off := by
    rintro ok ms ⟨h1, m, h2, -, h3⟩
    refine ⟨h1, m, h2, fun h4 => hne ?_⟩
    rw [← (h4.px x y c hx hy hc).1, ← (h3.px x y c hx hy hc).1]
  obtain ⟨⟨ok, r, s', e, P, d1, d2⟩, ⟨ok', r', e', P'⟩⟩ := C234_picture_partial junk conv pic cur bs hl w h off hp hall
  exact ⟨⟨ok, r, s', e, imp _ _ P, d1, d2⟩, ⟨ok', r', e', imp _ _ P'⟩⟩

/-- **C235.** Whatever the bytes and whichever picture is chosen, loading ends without a fault.  It succeeds exactly if the chosen picture exists and the file is long enough; otherwise the bound image is as it was, or has the
size of the picture and a block of that size. -/
theorem C235_safe (junk : Nat → UInt8) (conv : Conv) (pic : Nat) (cur : Img) (bs : List UInt8) (h0 : 0 < bs.length) (hl : bs.length < 2147483648) :
    Loads junk conv pic cur bs (fun ok ms => (ok = true ↔ ∃ w h off, sizes[pic]? = some (w, h, off) ∧ off + 1 + 3 * (w * (h / 2)) ≤ bs.length) ∧
      (ms = [cur] ∨ ∃ m w h off, ms = [m] ∧ sizes[pic]? = some (w, h, off) ∧ m.width = w ∧ m.height = h ∧ m.size = w * h * 3 ∧ m.data.length = m.size)) := by
  have core : ∀ {σ : Type} {o : Ops σ} {At : σ → List UInt8 → Nat → Prop} (L : Laws2 o At) (s : σ), At s bs 0 →
      Holds (iLoadPcdInternal o junk conv pic cur s) (fun r => ((r.1 = true ↔ ∃ w h off, sizes[pic]? = some (w, h, off) ∧ off + 1 + 3 * (w * (h / 2)) ≤ bs.length) ∧
      (r.2.1 = [cur] ∨ ∃ m w h off, r.2.1 = [m] ∧ sizes[pic]? = some (w, h, off) ∧ m.width = w ∧ m.height = h ∧ m.size = w * h * 3 ∧ m.data.length = m.size)) ∧ ∃ q, At r.2.2 bs q) := by
    intro σ o At L s hA
    rcases Nat.lt_or_ge pic 3 with h3 | h3
    · obtain ⟨⟨w, h, off⟩, hp⟩ : ∃ t, sizes[pic]? = some t := ⟨_, List.getElem?_eq_getElem (l := sizes) h3⟩
      refine (load_core L junk conv pic cur hp hA).mono (fun r hr => ?_)
      obtain ⟨⟨h1, h2, h3⟩, h4⟩ := hr
      refine ⟨⟨⟨fun hk => ⟨w, h, off, hp, ?_⟩, fun ⟨w', h', off', hp', hall⟩ => ?_⟩, ?_⟩, h4⟩
      · rw [hk] at h1
        exact of_decide_eq_true h1.symm
      · rw [hp] at hp'
        cases hp'
        rw [h1, decide_eq_true hall]
      · obtain ⟨-, we, w0, h0, he, w768, h512, hbig, hwh, ho⟩ := sizes_ok hp
        have hm768 : w * (h / 2) ≤ 768 * 256 := Nat.mul_le_mul w768 (by omega)
        cases hk : r.1 with
        | true =>
          obtain ⟨m, e, -, S⟩ := h2 hk
          refine .inr ⟨m, w, h, off, e, hp, S.width, S.height, ?_, ?_⟩
          · have c : m.size = m.width * m.bpp * m.bpc * m.height * m.depth := S.cons.2.2.1
            rw [c, show m.width = w from S.width, show m.bpp = 3 from S.bpp, show m.bpc = 1 from S.bpc, show m.height = h from S.height, show m.depth = 1 from S.depth, Nat.mul_one, Nat.mul_one, Nat.mul_right_comm]
          · exact S.cons.2.2.2
        | false =>
          rcases h3 hk with e | ⟨d, hd, e⟩
          · exact .inl e
          · obtain ⟨t1, t2, -, -, -, -, -, -, t9⟩ := tex_fields junk w h 3 IL_RGB w0 h0 (by decide) (by omega)
            exact .inr ⟨_, w, h, off, e, hp, t1, t2, t9, by show d.length = (tex junk w h 3 IL_RGB).size; rw [hd, t9]⟩
    · refine (load_other L junk conv pic cur h3 hA).mono (fun r hr => ?_)
      obtain ⟨⟨h1, h2⟩, h4⟩ := hr
      refine ⟨⟨⟨fun hk => absurd (h1.symm.trans hk) (by decide), fun ⟨w, h, off, hp, _⟩ => ?_⟩, .inl h2⟩, h4⟩
      rw [List.getElem?_eq_none (by exact h3)] at hp
      cases hp
  exact both h0 hl (core fileLaws2) (core lumpLaws2)

/-! ### A concrete file -/

/-- The conversion of the code in exact arithmetic, in units of 1/10000000. -/
def exact : Conv := fun l cb cr =>
  let clamp (i : Int) : UInt8 := UInt8.ofNat (min (i.tdiv 10000000).toNat 255)
  let l : Int := l.toNat
  let cb : Int := (cb.toNat : Int) - 156
  let cr : Int := (cr.toNat : Int) - 137
  (clamp (256 * (54980 * l + 51681 * cr)), clamp (256 * (54980 * l - 15446 * cb - 26325 * cr)), clamp (256 * (54980 * l + 79533 * cb)))

/-- A file whose bytes are 1 up to the first of the smallest picture, and 2 from there. -/
def step : List UInt8 := List.replicate 8193 1 ++ List.replicate 36864 2

theorem step_get (i : Nat) : step[i]? = if i < 8193 then some 1 else if i < 45057 then some 2 else none := by
  unfold step
  rw [List.getElem?_append]
  simp only [List.length_replicate, List.getElem?_replicate]
  by_cases h : i < 8193
  · rw [if_pos h, if_pos h, if_pos h]
  · rw [if_neg h, if_neg h]
    by_cases g : i < 45057
    · rw [if_pos g, if_pos (by omega)]
    · rw [if_neg g, if_neg (by omega)]

theorem step_length : step.length = 45057 := by unfold step; rw [List.length_append, List.length_replicate, List.length_replicate]

/-- The green of the first pixel is 153 in the file and 154 one byte later. -/
example : pixel exact step 192 0x2000 0 0 1 = some 153 ∧ pixel exact step 192 0x2001 0 0 1 = some 154 := by
  unfold pixel
  rw [step_get, step_get, step_get, step_get, step_get, step_get]
  decide

example (junk : Nat → UInt8) (cur : Img) : Loads junk exact 0 cur step (fun ok ms => ok = true ∧ ∃ m, ms = [m] ∧ ¬ Pictured exact step m 192 128 0x2000) :=
  C234_violated_shifted junk exact 0 cur step (by rw [step_length]; decide) 192 128 0x2000 rfl (by rw [step_length]) 0 0 1 (by decide) (by decide) (by decide) (by
    unfold pixel
    rw [step_get, step_get, step_get, step_get, step_get, step_get]
    decide)

example (junk : Nat → UInt8) (cur : Img) : Loads junk exact 0 cur step (fun ok ms => ok = true ∧ ∃ m, ms = [m] ∧ m.origin = IL_ORIGIN_LOWER_LEFT ∧ Pictured exact step m 192 128 0x2001) := by
  have := C234_picture_partial junk exact 0 cur step (by rw [step_length]; decide) 192 128 0x2000 rfl (by rw [step_length])
  rw [step_get] at this
  exact this

/-- The largest picture is not in that file. -/
example (junk : Nat → UInt8) (cur : Img) : Loads junk exact 2 cur step (fun ok _ => ok = false) := by
  have imp : ∀ ok : Bool, (ok = true ↔ ∃ w h off, sizes[2]? = some (w, h, off) ∧ off + 1 + 3 * (w * (h / 2)) ≤ step.length) → ok = false := by
    intro ok h
    cases ok with
    | false => rfl
    | true =>
      obtain ⟨w, h', off, e, g⟩ := h.1 rfl
      cases e
      rw [step_length] at g
      exact absurd g (by decide)
  obtain ⟨⟨ok, r, s', e, P, d1, d2⟩, ⟨ok', r', e', P'⟩⟩ := C235_safe junk exact 2 cur step (by rw [step_length]; decide) (by rw [step_length]; decide)
  exact ⟨⟨ok, r, s', e, imp _ P.1, d1, d2⟩, ⟨ok', r', e', imp _ P'.1⟩⟩

end DevIL.Pcd
