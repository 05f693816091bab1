import Verif.Lemmas.DdsD
/-! DDS files with components of 16 and 32 bits, and files that are refused. -/
set_option autoImplicit false
namespace DevIL.Dds

open DevIL.Detect DevIL.DetectSpec DevIL.DdsSpec DevIL.Image DevIL.Games DevIL.GamesSpec

variable {σ : Type} {o : Ops σ} {At : σ → List UInt8 → Nat → Prop}

theorem Sets.memcpy {N dOff sOff n : Nat} {src : List UInt8} {V : Nat → Option UInt8} (h1 : sOff + n ≤ src.length) (h2 : dOff + n ≤ N)
    (hv : ∀ i, i < n → V (dOff + i) = src[sOff + i]?) : Sets (fun d => DevIL.memcpy d dOff src sOff n) N V (fun i => ∃ j, j < n ∧ i = dOff + j) := by
  intro d hl
  obtain ⟨d', e, l, s⟩ := memcpy_get (dst := d) (src := src) h1 (by omega : dOff + n ≤ d.length)
  refine ⟨d', e, by omega, fun i => ?_⟩
  rw [s i]
  by_cases h : dOff ≤ i ∧ i < dOff + n
  · rw [if_pos h]
    have := hv (i - dOff) (by omega)
    rw [show dOff + (i - dOff) = i by omega] at this
    exact ⟨fun _ => this.symm, .inl this.symm⟩
  · rw [if_neg h]
    exact ⟨fun ⟨j, hj, e⟩ => absurd ⟨by omega, by omega⟩ h, .inr rfl⟩

theorem at_ext {p q : List UInt8} {a b n : Nat} (h : ∀ i, i < n → p[a + i]? = q[b + i]?) : at_ p a n = at_ q b n := by
  unfold DetectSpec.at_
  apply List.ext_getElem?
  intro i
  simp only [List.getElem?_take, List.getElem?_drop]
  split
  · exact h i (by omega)
  · rfl

theorem at_all (q : List UInt8) : at_ q 0 q.length = q := by
  unfold DetectSpec.at_
  simp

theorem at_one (l : List UInt8) (n : Nat) (h : l.length = n) : at_ l 0 n = l := by rw [← h, at_all]

theorem area_format {bs : List UInt8} {w h size : Nat} {cc : List UInt8} {f : PF} (H : Header bs w h) (K : Code bs cc) (hwh : w * h < 2 ^ 27)
    (hs : size ≤ 16) (hf : ∀ area blocks, fourCC (le cc) area blocks = (f, u32 (area * size))) :
    decodePixelFormat (hdOf bs) = (f, w * h * size) := by
  have e1 : (hdOf bs).width = w := H.width
  have e2 : (hdOf bs).height = h := H.height
  have hbs : w * h * size ≤ w * h * 16 := Nat.mul_le_mul_left _ hs
  have hc : (hdOf bs).fourCC = le cc := by
    show leAt bs 84 4 = _
    unfold leAt
    rw [K.2]
  unfold decodePixelFormat
  simp only [e1, e2, hd_depth H, Nat.mul_one]
  have h4 : (hdOf bs).flags2 &&& 4 ≠ 0 := (bit_and (leAt bs 80 4) 2).mpr K.1
  rw [if_pos h4, hc, hf, u32_of_lt (show w * h < 4294967296 by omega), u32_of_lt (show w * h < 4294967296 by omega), u32_of_lt (by omega)]

theorem texN_wide (junk : Nat → UInt8) {w h k s f t : Nat} (hw : 0 < w) (hh : 0 < h) (hfit : w * h * (k * s) < 4294967296) (hk : 0 < k) (hs : 0 < s)
    (hb : Utility.ilGetBpcType t = s) : let m := texN junk w h 1 k f t
    m.width = w ∧ m.height = h ∧ m.depth = 1 ∧ m.bpp = k ∧ m.bpc = s ∧ m.format = f ∧ m.type = t ∧ m.size = w * h * (k * s) ∧
      m.data = alloc junk (w * h * (k * s)) ∧ m.bps = w * k * s ∧ m.plane = w * k * s * h := by
  have a : ∀ n, 0 < n → atLeast1 n = n := fun n h => by unfold atLeast1; rw [if_neg (by omega)]
  have h0 : w * k * s * h = w * h * (k * s) := by
    rw [Nat.mul_assoc w k s, Nat.mul_right_comm]
  have h1 : w * k * s ≤ w * k * s * h := Nat.le_mul_of_pos_right _ hh
  have h2 : w * k ≤ w * k * s := Nat.le_mul_of_pos_right _ hs
  have e1 : u32 (w * k) = w * k := u32_of_lt (by omega)
  have e2 : u32 (w * k * s) = w * k * s := u32_of_lt (by omega)
  have e3 : u32 (w * k * s * h) = w * k * s * h := u32_of_lt (by omega)
  have hsz : (texN junk w h 1 k f t).size = w * h * (k * s) := by
    simp only [texN, geometry, a w hw, a h hh, a 1 (by decide), hb, Nat.mul_one, e1, e2, e3]
    exact h0
  refine ⟨a w hw, a h hh, rfl, rfl, hb, rfl, rfl, hsz, ?_, ?_, ?_⟩
  · show alloc junk (texN junk w h 1 k f t).size = _
    rw [hsz]
  · simp only [texN, geometry, a w hw, hb, e1, e2]
  · simp only [texN, geometry, a w hw, a h hh, hb, e1, e2, e3]

/-- One or two floats for each pixel. -/
theorem fill_sets {N fb : Nat} {comp : List UInt8} (hc : comp.length = N * fb) (hfb : fb = 4 ∨ fb = 8) (data : List UInt8) (hd : data.length = N * 12)
    {body : Nat → List UInt8 → C (List UInt8)}
    (hbody : (fb = 4 ∧ body = fun p d => do
      let d ← memcpy d (4 * (3 * p)) comp (4 * p) 4
      let d ← memcpy d (4 * (3 * p + 1)) one 0 4
      memcpy d (4 * (3 * p + 2)) one 0 4) ∨ (fb = 8 ∧ body = fun p d => do
      let d ← memcpy d (4 * (3 * p)) comp (4 * (2 * p)) 4
      let d ← memcpy d (4 * (3 * p + 1)) comp (4 * (2 * p + 1)) 4
      memcpy d (4 * (3 * p + 2)) one 0 4)) :
    ∃ d', loopN N body data = .ok d' ∧ d'.length = N * 12 ∧ ∀ p c i, p < N → c < 3 → i < 4 →
      d'[(p * 3 + c) * 4 + i]? = if c * 4 < fb then comp[p * fb + c * 4 + i]? else one[i]? := by
  let V : Nat → Option UInt8 := fun i => if i / 4 % 3 * 4 < fb then comp[i / 4 / 3 * fb + i / 4 % 3 * 4 + i % 4]? else one[i % 4]?
  have hV : ∀ p c i, c < 3 → i < 4 → V ((p * 3 + c) * 4 + i) = if c * 4 < fb then comp[p * fb + c * 4 + i]? else one[i]? := by
    intro p c i hc hi
    simp only [V]
    rw [idx_mod hi, idx_div hi, idx_mod hc, idx_div hc]
  have one_len : one.length = 4 := rfl
  have key : Sets (fun d => loopN N body d) (N * 12) V (fun i => ∃ p, p < N ∧ ∃ c, c < 3 ∧ ∃ j, j < 4 ∧ i = (p * 3 + c) * 4 + j) := by
    refine Sets.loop fun p hp => ?_
    have hV0 : ∀ i, i < 4 → V (4 * (3 * p) + i) = comp[p * fb + i]? := fun i hi => by
      have := hV p 0 i (by decide) hi
      rw [if_pos (by omega)] at this
      rw [← show p * fb + 0 * 4 + i = p * fb + i by omega, ← this]
      congr 1; omega
    have hV2 : ∀ i, i < 4 → V (4 * (3 * p + 2) + i) = one[0 + i]? := fun i hi => by
      have := hV p 2 i (by decide) hi
      rw [if_neg (by omega)] at this
      rw [Nat.zero_add, ← this]
      congr 1; omega
    have reg : ∀ idx, (∃ c, c < 3 ∧ ∃ j, j < 4 ∧ idx = (p * 3 + c) * 4 + j) →
        (∃ j, j < 4 ∧ idx = 4 * (3 * p) + j) ∨ (∃ j, j < 4 ∧ idx = 4 * (3 * p + 1) + j) ∨ (∃ j, j < 4 ∧ idx = 4 * (3 * p + 2) + j) := by
      rintro idx ⟨c, hc, j, hj, e⟩
      obtain rfl | rfl | rfl : c = 0 ∨ c = 1 ∨ c = 2 := by omega
      · exact .inl ⟨j, hj, by omega⟩
      · exact .inr (.inl ⟨j, hj, by omega⟩)
      · exact .inr (.inr ⟨j, hj, by omega⟩)
    rcases hbody with ⟨rfl, rfl⟩ | ⟨rfl, rfl⟩
    · have hV1 : ∀ i, i < 4 → V (4 * (3 * p + 1) + i) = one[0 + i]? := fun i hi => by
        have := hV p 1 i (by decide) hi
        rw [if_neg (by omega)] at this
        rw [Nat.zero_add, ← this]
        congr 1; omega
      exact ((Sets.memcpy (sOff := 4 * p) (src := comp) (N := N * 12) (by omega) (by omega) (fun i hi => by rw [hV0 i hi, Nat.mul_comm])).seq
        ((Sets.memcpy (src := one) (by omega) (by omega) hV1).seq (Sets.memcpy (src := one) (by omega) (by omega) hV2))).mono reg
    · have hV1 : ∀ i, i < 4 → V (4 * (3 * p + 1) + i) = comp[4 * (2 * p + 1) + i]? := fun i hi => by
        have := hV p 1 i (by decide) hi
        rw [if_pos (by omega)] at this
        rw [show 4 * (2 * p + 1) + i = p * 8 + 1 * 4 + i by omega, ← this]
        congr 1; omega
      exact ((Sets.memcpy (sOff := 4 * (2 * p)) (src := comp) (N := N * 12) (by omega) (by omega)
        (fun i hi => by rw [hV0 i hi]; congr 1; omega)).seq
        ((Sets.memcpy (src := comp) (by omega) (by omega) hV1).seq (Sets.memcpy (src := one) (by omega) (by omega) hV2))).mono reg
  obtain ⟨d', e, l, s⟩ := key data hd
  refine ⟨d', e, l, fun p c i hp hc hi => ?_⟩
  rw [← hV p c i hc hi]
  exact (s _).1 ⟨p, hp, c, hc, i, hi, rfl⟩

theorem copy_all {d c : List UInt8} (h : d.length = c.length) : memcpy d 0 c 0 d.length = .ok c := by
  unfold memcpy
  rw [if_pos (by omega), if_pos (by omega), h]
  simp
  omega

/-- What a pixel becomes. -/
def wideComp (bs : List UInt8) (w fb s x y c : Nat) : List UInt8 := if c * s < fb then at_ bs (128 + (y * w + x) * fb + c * s) s else one32

theorem wide_load (L : Laws2 o At) (junk : Nat → UInt8) (cube : Hd → σ → C (Bool × List Img × σ)) (cur : Img) {t : σ} {bs : List UInt8} {w h : Nat}
    {cc : List UInt8} {fb k s format type : Nat} (hs : At t bs 0) (H : Header bs w h) (K : Code bs cc) (hwh : w * h < 2 ^ 27)
    (hcc : wideKind cc fb k s format type) (hsize : Declares bs (w * h * fb)) :
    Holds (iLoadDdsInternal o junk cube cur t) (fun r => ((128 + w * h * fb ≤ bs.length → r.1 = true ∧ ∃ m, r.2.1 = [m] ∧
        Wide m w h k s format type (wideComp bs w fb s)) ∧
      (bs.length < 128 + w * h * fb → r.1 = false ∧ r.2.1 = [cur])) ∧ ∃ q, At r.2.2 bs q) := by
  have hww : w ≤ w * h := Nat.le_mul_of_pos_right w H.h0
  have hhh : h ≤ w * h := Nat.le_mul_of_pos_left h H.w0
  -- the general form
  have main : ∀ (f : PF), (∀ area blocks, fourCC (le cc) area blocks = (f, u32 (area * fb))) → f ≠ .unknown → f ≠ .dx10 → imageKind (hdOf bs) f = (k, format, type) →
      fb ≤ 16 → k * s ≤ 16 → 0 < k → 0 < s → Utility.ilGetBpcType type = s →
      (128 + w * h * fb ≤ bs.length → ∃ p, (∀ fl li, ddsDecompress { hdOf bs with flags1 := fl, linear := li } f w h 1 (texN junk w h 1 k format type) (at_ bs 128 (w * h * fb)) = .ok (true, p)) ∧
        p.length = w * h * (k * s) ∧ ∀ x y c, x < w → y < h → c < k → at_ p (((y * w + x) * k + c) * s) s = wideComp bs w fb s x y c ∧ (wideComp bs w fb s x y c).length = s) →
      Holds (iLoadDdsInternal o junk cube cur t) (fun r => ((128 + w * h * fb ≤ bs.length → r.1 = true ∧ ∃ m, r.2.1 = [m] ∧
        Wide m w h k s format type (wideComp bs w fb s)) ∧
      (bs.length < 128 + w * h * fb → r.1 = false ∧ r.2.1 = [cur])) ∧ ∃ q, At r.2.2 bs q) := by
    intro f hf hu hx hk h16 hks h0k h0s hb hd
    have hpf := area_format H K hwh h16 hf
    have hle : w * h * fb ≤ w * h * 16 := Nat.mul_le_mul_left _ h16
    have hle2 : w * h * (k * s) ≤ w * h * 16 := Nat.mul_le_mul_left _ hks
    obtain ⟨f1, f2, f3, f4, f5, f6, f7, f8, f9, f10, f11⟩ := texN_wide junk (f := format) (t := type) H.w0 H.h0 (by omega : w * h * (k * s) < 4294967296) h0k h0s hb
    by_cases hl : 128 + w * h * fb ≤ bs.length
    · obtain ⟨p, hp, lp, hq⟩ := hd hl
      refine (load_spec L junk cube cur hs H f (w * h * fb) _ hpf hu hx (by omega) (by omega) (.inl ⟨hsize, rfl⟩) true p (fun fl li _ => ?_)).mono (fun r hr => ?_)
      · rw [hk]
        exact hp fl li
      · refine ⟨⟨fun hh => ⟨(hr.1 hh).1, _, (hr.1 hh).2, ?_⟩, hr.2.1⟩, hr.2.2⟩
        rw [hk]
        refine ⟨f1, f2, f3, f4, f5, f6, f7, rfl, ⟨?_, ?_, ?_, ?_⟩, hq⟩
        · show (texN junk w h 1 k format type).bps = _
          rw [f10]; show _ = (texN junk w h 1 k format type).width * (texN junk w h 1 k format type).bpp * (texN junk w h 1 k format type).bpc
          rw [f1, f4, f5]
        · show (texN junk w h 1 k format type).plane = (texN junk w h 1 k format type).width * (texN junk w h 1 k format type).bpp * (texN junk w h 1 k format type).bpc *
            (texN junk w h 1 k format type).height
          rw [f11, f1, f2, f4, f5]
        · show (texN junk w h 1 k format type).size = (texN junk w h 1 k format type).width * (texN junk w h 1 k format type).bpp * (texN junk w h 1 k format type).bpc *
            (texN junk w h 1 k format type).height * (texN junk w h 1 k format type).depth
          rw [f8, f1, f2, f3, f4, f5, Nat.mul_one, Nat.mul_assoc w k s, Nat.mul_right_comm]
        · show p.length = (texN junk w h 1 k format type).size
          rw [f8, lp]
    · refine (load_spec L junk cube cur hs H f (w * h * fb) _ hpf hu hx (by omega) (by omega) (.inl ⟨hsize, rfl⟩) true [] (fun fl li h => absurd h hl)).mono (fun r hr => ?_)
      exact ⟨⟨fun h => absurd h hl, hr.2.1⟩, hr.2.2⟩
  have comp_len : 128 + w * h * fb ≤ bs.length → (at_ bs 128 (w * h * fb)).length = w * h * fb := fun hl => by rw [at_length]; omega
  have comp_get : 128 + w * h * fb ≤ bs.length → ∀ i, i < w * h * fb → (at_ bs 128 (w * h * fb))[i]? = bs[128 + i]? := fun hl i hi => by
    unfold DetectSpec.at_
    rw [List.getElem?_take, if_pos hi, List.getElem?_drop]
  have pixpos : ∀ x y, x < w → y < h → y * w + x < w * h := fun x y hx hy => by
    have := pix_lt (k := 1) (c := 0) hx hy (by decide)
    omega
  have wlen : 128 + w * h * fb ≤ bs.length → ∀ x y c, x < w → y < h → (s ≤ fb - c * s ∧ 0 < s) ∨ (fb ≤ c * s ∧ s = 4) → (wideComp bs w fb s x y c).length = s := by
    intro hl x y c hx hy hcs
    have hp := pixpos x y hx hy
    have := Nat.mul_le_mul_right fb (show y * w + x + 1 ≤ w * h from hp)
    rw [Nat.add_one_mul] at this
    unfold wideComp
    split
    · rw [at_length]
      omega
    · rcases hcs with h | h
      · omega
      · rw [h.2]; rfl
  rcases hcc with ⟨rfl, rfl, rfl, rfl, rfl, rfl⟩ | ⟨rfl, rfl, rfl, rfl, rfl, rfl⟩ | ⟨rfl, rfl, rfl, rfl, rfl, rfl⟩ | ⟨rfl, rfl, rfl, rfl, rfl, rfl⟩
  · refine main .a16 (fun _ _ => rfl) (by decide) (by decide) rfl (by decide) (by decide) (by decide) (by decide) (by decide) (fun hl => ?_)
    obtain ⟨-, -, -, -, -, -, -, f8, f9, -⟩ := texN_wide junk (k := 4) (s := 2) (f := IL_RGBA) (t := IL_UNSIGNED_SHORT) H.w0 H.h0 (by omega) (by decide) (by decide) (by decide)
    refine ⟨at_ bs 128 (w * h * 8), fun fl li => ?_, comp_len hl, fun x y c hx hy hc => ⟨?_, wlen hl x y c hx hy (by omega)⟩⟩
    · show (memcpy _ 0 _ 0 _ >>= fun p => pure (true, p)) = _
      have := copy_all (d := alloc junk (w * h * (4 * 2))) (c := at_ bs 128 (w * h * 8)) (by rw [alloc_length, comp_len hl])
      rw [f8, f9]
      rw [alloc_length] at this
      rw [this]
      rfl
    · have hp := pixpos x y hx hy
      unfold wideComp
      rw [if_pos (by omega)]
      refine at_ext fun i hi => ?_
      rw [comp_get hl _ (by omega)]
      congr 1
      omega
  · refine main .a32f (fun _ _ => rfl) (by decide) (by decide) rfl (by decide) (by decide) (by decide) (by decide) (by decide) (fun hl => ?_)
    obtain ⟨-, -, -, -, -, -, -, f8, f9, -⟩ := texN_wide junk (k := 4) (s := 4) (f := IL_RGBA) (t := IL_FLOAT) H.w0 H.h0 (by omega) (by decide) (by decide) (by decide)
    refine ⟨at_ bs 128 (w * h * 16), fun fl li => ?_, comp_len hl, fun x y c hx hy hc => ⟨?_, wlen hl x y c hx hy (by omega)⟩⟩
    · show (memcpy _ 0 _ 0 _ >>= fun p => pure (true, p)) = _
      have := copy_all (d := alloc junk (w * h * (4 * 4))) (c := at_ bs 128 (w * h * 16)) (by rw [alloc_length, comp_len hl])
      rw [f8, f9]
      rw [alloc_length] at this
      rw [this]
      rfl
    · have hp := pixpos x y hx hy
      unfold wideComp
      rw [if_pos (by omega)]
      refine at_ext fun i hi => ?_
      rw [comp_get hl _ (by omega)]
      congr 1
      omega
  · refine main .r32f (fun _ _ => rfl) (by decide) (by decide) rfl (by decide) (by decide) (by decide) (by decide) (by decide) (fun hl => ?_)
    obtain ⟨f1, f2, f3, -, -, -, -, f8, f9, -⟩ := texN_wide junk (k := 3) (s := 4) (f := IL_RGB) (t := IL_FLOAT) H.w0 H.h0 (by omega) (by decide) (by decide) (by decide)
    obtain ⟨p, e, lp, g⟩ := fill_sets (N := w * h) (comp_len hl) (.inl rfl) (alloc junk (w * h * 12)) (alloc_length _ _) (.inl ⟨rfl, rfl⟩)
    refine ⟨p, fun fl li => ?_, lp, fun x y c hx hy hc => ⟨?_, wlen hl x y c hx hy (by omega)⟩⟩
    · show (decompressFloat .r32f _ _ _ >>= fun p => pure (true, p)) = _
      unfold decompressFloat
      rw [f1, f2, f3, f9, Nat.mul_one]
      dsimp only
      rw [e]
      rfl
    · have hp := pixpos x y hx hy
      unfold wideComp
      by_cases hc0 : c * 4 < 4
      · rw [if_pos hc0]
        refine at_ext fun i hi => ?_
        rw [g _ c i hp hc hi, if_pos hc0, comp_get hl _ (by omega)]
        congr 1
        omega
      · rw [if_neg hc0, ← at_one one32 4 rfl]
        refine at_ext fun i hi => ?_
        rw [g _ c i hp hc hi, if_neg hc0, Nat.zero_add]
        rfl
  · refine main .g32f (fun _ _ => rfl) (by decide) (by decide) rfl (by decide) (by decide) (by decide) (by decide) (by decide) (fun hl => ?_)
    obtain ⟨f1, f2, f3, -, -, -, -, f8, f9, -⟩ := texN_wide junk (k := 3) (s := 4) (f := IL_RGB) (t := IL_FLOAT) H.w0 H.h0 (by omega) (by decide) (by decide) (by decide)
    obtain ⟨p, e, lp, g⟩ := fill_sets (N := w * h) (comp_len hl) (.inr rfl) (alloc junk (w * h * 12)) (alloc_length _ _) (.inr ⟨rfl, rfl⟩)
    refine ⟨p, fun fl li => ?_, lp, fun x y c hx hy hc => ⟨?_, wlen hl x y c hx hy (by omega)⟩⟩
    · show (decompressFloat .g32f _ _ _ >>= fun p => pure (true, p)) = _
      unfold decompressFloat
      rw [f1, f2, f3, f9, Nat.mul_one]
      dsimp only
      rw [e]
      rfl
    · have hp := pixpos x y hx hy
      unfold wideComp
      by_cases hc0 : c * 4 < 8
      · rw [if_pos hc0]
        refine at_ext fun i hi => ?_
        rw [g _ c i hp hc hi, if_pos hc0, comp_get hl _ (by omega)]
        congr 1
        omega
      · rw [if_neg hc0, ← at_one one32 4 rfl]
        refine at_ext fun i hi => ?_
        rw [g _ c i hp hc hi, if_neg hc0, Nat.zero_add]
        rfl

/-- A header that is not one of a DDS file. -/
theorem refused_header (L : Laws2 o At) (junk : Nat → UInt8) (cube : Hd → σ → C (Bool × List Img × σ)) (cur : Img) {t : σ} {bs : List UInt8} (hs : At t bs 0)
    (hlen : 128 ≤ bs.length)
    (hbad : at_ bs 0 4 ≠ [68, 68, 83, 32] ∨ (leAt bs 4 4 ≠ 124 ∧ leAt bs 4 4 ≠ 0x20534444) ∨ leAt bs 76 4 ≠ 32 ∨ leAt bs 16 4 = 0 ∨ leAt bs 12 4 = 0) :
    Holds (iLoadDdsInternal o junk cube cur t) (fun r => (r.1 = false ∧ r.2.1 = [cur]) ∧ ∃ q, At r.2.2 bs q) := by
  unfold iLoadDdsInternal
  refine (header_spec L junk hs hlen).bind (fun r hr => ?_)
  obtain ⟨hdr, u⟩ := r
  obtain ⟨ha, e1, e2, e3, e4, e5, e6⟩ := hr
  simp only at ha e1 e2 e3 e4 e5 e6 ⊢
  have hck : iCheckDds hdr = false := by
    unfold iCheckDds
    rw [e2, e3, e4, e5, e6]
    rcases hbad with h | ⟨h, h'⟩ | h | h | h <;> simp [h]
    all_goals simp [h']
  rw [hck, if_pos (by rfl)]
  exact .pure ⟨⟨rfl, rfl⟩, _, ha⟩

/-- A compression that is not known. -/
theorem refused_code (L : Laws2 o At) (junk : Nat → UInt8) (cube : Hd → σ → C (Bool × List Img × σ)) (cur : Img) {t : σ} {bs : List UInt8} {cc : List UInt8}
    (hs : At t bs 0) (hlen : 128 ≤ bs.length) (K : Code bs cc) (hcc : ∀ area blocks, (fourCC (le cc) area blocks).1 = .unknown) :
    Holds (iLoadDdsInternal o junk cube cur t) (fun r => (r.1 = false ∧ r.2.1 = [cur]) ∧ ∃ q, At r.2.2 bs q) := by
  unfold iLoadDdsInternal
  refine (header_spec L junk hs hlen).bind (fun r hr => ?_)
  obtain ⟨hdr, u⟩ := r
  obtain ⟨ha, e1, e2, e3, e4, e5, e6⟩ := hr
  simp only at ha e1 e2 e3 e4 e5 e6 ⊢
  by_cases hck : iCheckDds hdr = true
  · rw [hck, if_neg (by simp), e1]
    have hc : (hdOf bs).fourCC = le cc := by
      show leAt bs 84 4 = _
      unfold leAt
      rw [K.2]
    have hu : (decodePixelFormat (hdOf bs)).1 = .unknown := by
      unfold decodePixelFormat
      have h4 : (hdOf bs).flags2 &&& 4 ≠ 0 := (bit_and (leAt bs 80 4) 2).mpr K.1
      dsimp only
      rw [if_pos h4, hc]
      exact hcc _ _
    rw [if_pos hu]
    exact .pure ⟨⟨rfl, rfl⟩, _, ha⟩
  · rw [if_pos (by simp [hck])]
    exact .pure ⟨⟨rfl, rfl⟩, _, ha⟩

theorem unknown_code {cc : Nat} (h : cc ∉ [0x31545844, 0x32545844, 0x33545844, 0x34545844, 0x35545844, 0x30315844, 0x31495441, 0x32495441, 0x42475852, 36, 111, 112, 113,
    114, 115, 116]) (area blocks : Nat) : (fourCC cc area blocks).1 = .unknown := by
  simp only [List.mem_cons, List.not_mem_nil, or_false, not_or] at h
  obtain ⟨h1, h2, h3, h4, h5, h6, h7, h8, h9, h10, h11, h12, h13, h14, h15, h16⟩ := h
  unfold fourCC
  rw [if_neg h1, if_neg h2, if_neg h3, if_neg h4, if_neg h5, if_neg h6, if_neg h7, if_neg h8, if_neg h9, if_neg h10, if_neg h11, if_neg h12, if_neg h13,
    if_neg h14, if_neg h15, if_neg h16]

end DevIL.Dds
