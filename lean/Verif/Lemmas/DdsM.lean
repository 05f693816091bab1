import Verif.Lemmas.DdsC
import Verif.Spec.DdsMip
/-! DDS files with mipmaps and DXT data. -/
set_option autoImplicit false
namespace DevIL.Dds

open DevIL.Detect DevIL.DetectSpec DevIL.DdsSpec DevIL.Image DevIL.Games DevIL.GamesSpec

variable {σ : Type} {o : Ops σ} {At : σ → List UInt8 → Nat → Prop}

theorem side_pos (n i : Nat) : 0 < side n i := by unfold side; omega

theorem side_zero {n : Nat} (h : 0 < n) : side n 0 = n := by unfold side; rw [Nat.pow_zero, Nat.div_one]; omega

theorem halve_side (n i : Nat) : halve (side n i) = side n (i + 1) := by
  unfold halve side
  rw [Nat.pow_succ, ← Nat.div_div_eq_div_mul]
  split <;> omega

theorem side_le {n : Nat} (h : 0 < n) (i : Nat) : side n i ≤ n := by
  unfold side
  have := Nat.div_le_self n (2 ^ i)
  omega

theorem area_lt {w h : Nat} (hw : 0 < w) (hh : 0 < h) (hwh : w * h < 2 ^ 27) (i : Nat) : side w i * side h i < 2 ^ 27 :=
  Nat.lt_of_le_of_lt (Nat.mul_le_mul (side_le hw i) (side_le hh i)) hwh

theorem levelStart_succ (size w h i : Nat) : levelStart size w h (i + 1) = levelStart size w h i + levelBytes size w h i := by
  unfold levelStart
  rw [List.range_succ, List.map_append, List.sum_append, List.map_singleton, List.sum_singleton, Nat.add_assoc]

theorem levelStart_mono (size w h : Nat) {i j : Nat} (hij : i ≤ j) : levelStart size w h i ≤ levelStart size w h j := by
  induction hij with
  | refl => exact Nat.le_refl _
  | step _ ih => rw [levelStart_succ]; omega

theorem mip_image (junk : Nat → UInt8) {h : Hd} (h16 : has16 h = false) {f : PF} (hf : f = .dxt1 ∨ f = .dxt3 ∨ f = .dxt5) (w ht : Nat) :
    mipImage junk h f w ht 1 = .ok (some (texN junk w ht 1 4 IL_RGBA IL_UNSIGNED_BYTE)) := by
  unfold mipImage toBpc
  rw [h16]
  have hn : ¬ (h.flags1 &&& LINEARSIZE ≠ 0 ∧ f.isFloat = true) := by
    rintro ⟨-, h2⟩
    rcases hf with rfl | rfl | rfl <;> cases h2
  simp only [hn, if_false]
  rcases hf with rfl | rfl | rfl <;> rfl

theorem mip_linear {h : Hd} (hl : h.flags1 &&& LINEARSIZE ≠ 0) {f : PF} (hf : f = .dxt1 ∨ f = .dxt3 ∨ f = .dxt5) {w ht : Nat} (hw : 0 < w) (hh : 0 < ht)
    (hwh : w * ht < 2 ^ 27) (linear : Nat) : mipLinear h f w ht 1 linear = DxtSpec.bytes (Dxt.bsize (dxtFmt f)) w ht 1 := by
  have hww : w ≤ w * ht := Nat.le_mul_of_pos_right _ hh
  have hhh : ht ≤ w * ht := Nat.le_mul_of_pos_left _ hw
  have h1 : (w + 3) / 4 * 4 ≤ w + 3 := Nat.div_mul_le_self _ _
  have h2 : (ht + 3) / 4 * 4 ≤ ht + 3 := Nat.div_mul_le_self _ _
  have h3 := Nat.mul_le_mul h1 h2
  have h6 : (w + 3) / 4 * 4 * ((ht + 3) / 4 * 4) = (w + 3) / 4 * ((ht + 3) / 4) * 16 := by
    generalize (w + 3) / 4 = a
    generalize (ht + 3) / 4 = b
    rw [Nat.mul_mul_mul_comm]
  have h9 : (w + 3) * (ht + 3) = w * ht + 3 * w + 3 * ht + 9 := by rw [Nat.add_mul, Nat.mul_add, Nat.mul_add]; omega
  have hs : w + ht ≤ w * ht + 1 := by
    obtain ⟨a, rfl⟩ : ∃ a, w = a + 1 := ⟨w - 1, by omega⟩
    obtain ⟨b, rfl⟩ : ∃ b, ht = b + 1 := ⟨ht - 1, by omega⟩
    rw [Nat.add_mul, Nat.mul_add]; omega
  have e : u32 (u32 (u32 ((u32 (w + 3) / 4 * 4) * (u32 (ht + 3) / 4 * 4)) * 1) * 4) = (w + 3) / 4 * ((ht + 3) / 4) * 64 := by
    rw [u32_of_lt (show w + 3 < 4294967296 by omega), u32_of_lt (show ht + 3 < 4294967296 by omega), h6, Nat.mul_one,
      u32_of_lt (show (w + 3) / 4 * ((ht + 3) / 4) * 16 < 4294967296 by omega), u32_of_lt (show (w + 3) / 4 * ((ht + 3) / 4) * 16 < 4294967296 by omega), u32_of_lt (by omega)]
    omega
  unfold mipLinear DxtSpec.bytes
  simp only [Nat.mul_one]
  rw [Nat.mul_one] at e
  rcases hf with rfl | rfl | rfl
  · show (if h.flags1 &&& LINEARSIZE ≠ 0 then u32 (u32 (u32 ((u32 (w + 3) / 4 * 4) * (u32 (ht + 3) / 4 * 4))) * 4) / 8 else linear >>> 1) = _
    rw [if_pos hl, e]; show _ = _ * 8; omega
  · show (if h.flags1 &&& LINEARSIZE ≠ 0 then u32 (u32 (u32 ((u32 (w + 3) / 4 * 4) * (u32 (ht + 3) / 4 * 4))) * 4) / 4 else linear >>> 1) = _
    rw [if_pos hl, e]; show _ = _ * 16; omega
  · show (if h.flags1 &&& LINEARSIZE ≠ 0 then u32 (u32 (u32 ((u32 (w + 3) / 4 * 4) * (u32 (ht + 3) / 4 * 4))) * 4) / 4 else linear >>> 1) = _
    rw [if_pos hl, e]; show _ = _ * 16; omega

/-- The image made of the blocks at `p`. -/
def LevelAt (junk : Nat → UInt8) (bs : List UInt8) (fmt p w h : Nat) (m : Img) : Prop :=
  ∃ m0 : Img, m0.width = w ∧ m0.height = h ∧ m0.depth = 1 ∧ Dxt.Complete ⟨m0, fmt, at_ bs p (DxtSpec.bytes (Dxt.bsize fmt) w h 1)⟩ (Dxt.bsize fmt) ∧
    Dxt.ilDxtcDataToSurface junk ⟨m0, fmt, at_ bs p (DxtSpec.bytes (Dxt.bsize fmt) w h 1)⟩ = .ok (true, ⟨m, fmt, at_ bs p (DxtSpec.bytes (Dxt.bsize fmt) w h 1)⟩)

theorem level_image (junk : Nat → UInt8) {bs : List UInt8} {p w h fmt : Nat} (hw : 0 < w) (hh : 0 < h) (hwh : w * h < 2 ^ 27)
    (hfmt : fmt = IL_DXT1 ∨ fmt = IL_DXT3 ∨ fmt = IL_DXT5) (hl : p + DxtSpec.bytes (Dxt.bsize fmt) w h 1 ≤ bs.length) :
    ∃ d, Dxt.DdsDecompress (texN junk w h 1 4 IL_RGBA IL_UNSIGNED_BYTE) fmt (at_ bs p (DxtSpec.bytes (Dxt.bsize fmt) w h 1)) = .ok d ∧
      LevelAt junk bs fmt p w h { texN junk w h 1 4 IL_RGBA IL_UNSIGNED_BYTE with data := d } := by
  have e : ∀ n, at_ (List.replicate 128 0 ++ bs.drop p) 128 n = at_ bs p n := by
    intro n
    unfold at_
    rw [List.drop_append, List.drop_of_length_le (by simp), List.length_replicate, Nat.sub_self, List.drop_zero, List.nil_append]
  have hl' : 128 + DxtSpec.bytes (Dxt.bsize fmt) w h 1 ≤ (List.replicate 128 0 ++ bs.drop p).length := by
    rw [List.length_append, List.length_replicate, List.length_drop]; omega
  obtain ⟨d, e1, -, e3⟩ := dxt_image junk (bs := List.replicate 128 0 ++ bs.drop p) hw hh hwh hfmt hl'
  have hc := surf_complete junk (fmt := fmt) (bs := List.replicate 128 0 ++ bs.drop p) hw hh hwh hl'
  obtain ⟨f1, f2, -⟩ := texN_fields junk w h 4 IL_RGBA hw hh (by decide) (by omega)
  unfold surf at e3 hc
  rw [e] at e1 e3 hc
  exact ⟨d, e1, { texN junk w h 1 4 IL_RGBA IL_UNSIGNED_BYTE with data := [] }, f1, f2, rfl, hc, e3⟩

/-- The mipmaps. -/
theorem mips_spec (L : Laws2 o At) (junk : Nat → UInt8) {bs : List UInt8} {w h : Nat} (hw : 0 < w) (hh : 0 < h) (hwh : w * h < 2 ^ 27) {f : PF}
    (hf : f = .dxt1 ∨ f = .dxt3 ∨ f = .dxt5) {hd : Hd} (h16 : has16 hd = false) (hlin : hd.flags1 &&& LINEARSIZE ≠ 0) (n : Nat) {s : σ}
    (hs : At s bs (levelStart (Dxt.bsize (dxtFmt f)) w h 1)) (hp : levelStart (Dxt.bsize (dxtFmt f)) w h 1 ≤ bs.length) :
    Holds (loopN n (fun _ r => mipStep o junk hd f r) ⟨w, h, 1, hd.linear, [], s, false⟩) (fun r =>
      (levelStart (Dxt.bsize (dxtFmt f)) w h (n + 1) ≤ bs.length → r.failed = false ∧ r.mips.length = n ∧ ∀ i m, r.mips[i]? = some m →
        LevelAt junk bs (dxtFmt f) (levelStart (Dxt.bsize (dxtFmt f)) w h (i + 1)) (side w (i + 1)) (side h (i + 1)) m) ∧
      (bs.length < levelStart (Dxt.bsize (dxtFmt f)) w h (n + 1) → r.failed = true) ∧ ∃ q, At r.inp bs q) := by
  have hfm : dxtFmt f = IL_DXT1 ∨ dxtFmt f = IL_DXT3 ∨ dxtFmt f = IL_DXT5 := by rcases hf with rfl | rfl | rfl <;> decide
  generalize hsz : Dxt.bsize (dxtFmt f) = size at *
  have hsz16 : size ≤ 16 := by rw [← hsz]; unfold Dxt.bsize; split <;> decide
  have key := Holds.loop (f := fun _ r => mipStep o junk hd f r) (n := n) (s := (⟨w, h, 1, hd.linear, [], s, false⟩ : MipS σ))
    (fun j (r : MipS σ) => (r.failed = false ∧ r.w = side w j ∧ r.h = side h j ∧ r.d = 1 ∧ levelStart size w h (j + 1) ≤ bs.length ∧ At r.inp bs (levelStart size w h (j + 1)) ∧
      r.mips.length = j ∧ ∀ i m, r.mips[i]? = some m → LevelAt junk bs (dxtFmt f) (levelStart size w h (i + 1)) (side w (i + 1)) (side h (i + 1)) m) ∨
      (r.failed = true ∧ bs.length < levelStart size w h (j + 1) ∧ ∃ q, At r.inp bs q))
    (.inl ⟨rfl, (side_zero hw).symm, (side_zero hh).symm, rfl, hp, hs, rfl, fun i m h => by cases h⟩) (fun j r hj hI => ?_)
  · refine key.mono (fun r hr => ?_)
    rcases hr with ⟨h1, -, -, -, h5, h6, h7, h8⟩ | ⟨h1, h2, h3⟩
    · exact ⟨fun _ => ⟨h1, h7, h8⟩, fun h => by omega, _, h6⟩
    · exact ⟨fun h => by omega, fun _ => h1, h3⟩
  · rcases hI with ⟨h1, h2, h3, h4, h5, h6, h7, h8⟩ | ⟨h1, h2, h3⟩
    · unfold mipStep
      rw [h1, if_neg (by simp)]
      simp only [h2, h3, h4, halve_side]
      have hd1 : halve 1 = 1 := rfl
      rw [hd1, mip_image junk h16 hf, bind_ok]
      simp only
      rw [mip_linear hlin hf (side_pos w _) (side_pos h _) (area_lt hw hh hwh _), hsz]
      have hbl : DxtSpec.bytes size (side w (j + 1)) (side h (j + 1)) 1 < 4294967296 := by
        have ha := area_lt hw hh hwh (j + 1)
        have p1 := side_pos w (j + 1)
        have p2 := side_pos h (j + 1)
        have hb : (side w (j + 1) + 3) / 4 * ((side h (j + 1) + 3) / 4) ≤ side w (j + 1) * side h (j + 1) := Nat.mul_le_mul (by omega) (by omega)
        have hbs := Nat.mul_le_mul hb hsz16
        unfold DxtSpec.bytes
        rw [Nat.mul_one]
        omega
      have hnext : levelStart size w h (j + 1 + 1) = levelStart size w h (j + 1) + DxtSpec.bytes size (side w (j + 1)) (side h (j + 1)) 1 := levelStart_succ _ _ _ _
      refine (read_linear L junk h6 h5 { hd with linear := DxtSpec.bytes size (side w (j + 1)) (side h (j + 1)) 1 } false (side w (j + 1)) (side h (j + 1)) 1 hlin hbl).bind (fun c hc => ?_)
      obtain ⟨c, t⟩ := c
      obtain ⟨c1, c2, q, c3⟩ := hc
      simp only at c1 c2 c3 ⊢
      by_cases hle : levelStart size w h (j + 1) + DxtSpec.bytes size (side w (j + 1)) (side h (j + 1)) 1 ≤ bs.length
      · obtain ⟨c4, c5⟩ := c1 hle
        subst c4
        obtain ⟨d, e1, e2⟩ := level_image junk (p := levelStart size w h (j + 1)) (side_pos w (j + 1)) (side_pos h (j + 1)) (area_lt hw hh hwh _) hfm (by rw [hsz]; exact hle)
        rw [hsz] at e1
        simp only [dec135 hf, e1, bind_ok, pure_eq_ok, if_true]
        refine Holds.pure (.inl ⟨rfl, rfl, rfl, rfl, by rw [hnext]; exact hle, by rw [hnext]; exact c5, by simp [h7], fun i m hi => ?_⟩)
        simp only at hi
        rcases Nat.lt_or_ge i j with hij | hij
        · rw [List.getElem?_append_left (by omega)] at hi
          exact h8 i m hi
        · rw [List.getElem?_append_right (by omega), h7] at hi
          have : i = j := by
            by_contra hne
            rw [List.getElem?_eq_none (by simp; omega)] at hi
            cases hi
          subst this
          rw [Nat.sub_self] at hi
          cases hi
          exact e2
      · have c4 := c2 (by omega)
        subst c4
        exact Holds.pure (.inr ⟨rfl, by rw [hnext]; omega, q, c3⟩)
    · unfold mipStep
      rw [h1, if_pos rfl]
      refine Holds.pure (.inr ⟨h1, ?_, h3⟩)
      rw [levelStart_succ]
      omega

theorem code_format' {bs : List UInt8} {w h n size : Nat} {cc : List UInt8} {f : PF} (H : MipHeader bs w h n) (K : Code bs cc) (hwh : w * h < 2 ^ 27)
    (hs : size ≤ 16) (hf : ∀ area blocks, fourCC (le cc) area blocks = (f, u32 (blocks * size))) :
    decodePixelFormat (hdOf bs) = (f, DxtSpec.bytes size w h 1) := by
  have e1 : (hdOf bs).width = w := H.width
  have e2 : (hdOf bs).height = h := H.height
  have ed : (hdOf bs).depth = 1 := by
    have := H.depth
    show (if _ then _ else _) = _
    split <;> omega
  have hw := H.w0
  have hh := H.h0
  have hww : w ≤ w * h := Nat.le_mul_of_pos_right w hh
  have hhh : h ≤ w * h := Nat.le_mul_of_pos_left h hw
  have hb : (w + 3) / 4 * ((h + 3) / 4) ≤ w * h := Nat.mul_le_mul (by omega) (by omega)
  have hbs : (w + 3) / 4 * ((h + 3) / 4) * size ≤ w * h * 16 := Nat.mul_le_mul hb hs
  have hc : (hdOf bs).fourCC = le cc := by
    show leAt bs 84 4 = _
    unfold leAt
    rw [K.2]
  unfold decodePixelFormat
  simp only [e1, e2, ed, Nat.mul_one]
  have h4 : (hdOf bs).flags2 &&& 4 ≠ 0 := (bit_and (leAt bs 80 4) 2).mpr K.1
  rw [if_pos h4, hc, hf, u32_of_lt (show w + 3 < 4294967296 by omega), u32_of_lt (show h + 3 < 4294967296 by omega),
    u32_of_lt (show (w + 3) / 4 * ((h + 3) / 4) < 4294967296 by omega), u32_of_lt (show (w + 3) / 4 * ((h + 3) / 4) < 4294967296 by omega),
    u32_of_lt (by omega)]
  unfold DxtSpec.bytes
  rw [Nat.mul_one]

/-- A file with mipmaps is loaded. -/
theorem mip_load (L : Laws2 o At) (junk : Nat → UInt8) (cube : Hd → σ → C (Bool × List Img × σ)) (cur : Img) {t : σ} {bs : List UInt8} {w h n : Nat}
    {cc : List UInt8} {f : PF} (hs : At t bs 0) (H : MipHeader bs w h n) (K : Code bs cc) (hwh : w * h < 2 ^ 27)
    (hcc : (cc = [68, 88, 84, 49] ∧ f = .dxt1) ∨ (cc = [68, 88, 84, 51] ∧ f = .dxt3) ∨ (cc = [68, 88, 84, 53] ∧ f = .dxt5))
    (hsize : Declares bs (DxtSpec.bytes (Dxt.bsize (dxtFmt f)) w h 1)) :
    Holds (iLoadDdsInternal o junk cube cur t) (fun r =>
      ((levelStart (Dxt.bsize (dxtFmt f)) w h n ≤ bs.length → r.1 = true ∧ r.2.1.length = n ∧ ∀ i m, r.2.1[i]? = some m →
        LevelAt junk bs (dxtFmt f) (levelStart (Dxt.bsize (dxtFmt f)) w h i) (side w i) (side h i) m) ∧
      (bs.length < levelStart (Dxt.bsize (dxtFmt f)) w h n → r.1 = false) ∧
      (levelStart (Dxt.bsize (dxtFmt f)) w h 1 ≤ bs.length → bs.length < levelStart (Dxt.bsize (dxtFmt f)) w h n → ∃ m, r.2.1 = [m] ∧
        LevelAt junk bs (dxtFmt f) 128 w h m)) ∧ ∃ q, At r.2.2 bs q) := by
  have hf : f = .dxt1 ∨ f = .dxt3 ∨ f = .dxt5 := by rcases hcc with h | h | h <;> simp [h.2]
  have hfm : dxtFmt f = IL_DXT1 ∨ dxtFmt f = IL_DXT3 ∨ dxtFmt f = IL_DXT5 := by rcases hf with rfl | rfl | rfl <;> decide
  have hw := H.w0
  have hh := H.h0
  have hww : w ≤ w * h := Nat.le_mul_of_pos_right w hh
  have hhh : h ≤ w * h := Nat.le_mul_of_pos_left h hw
  have hlev1 : levelStart (Dxt.bsize (dxtFmt f)) w h 1 = 128 + DxtSpec.bytes (Dxt.bsize (dxtFmt f)) w h 1 := by
    rw [levelStart_succ]
    unfold levelBytes
    rw [side_zero hw, side_zero hh]
    rfl
  have hmono := levelStart_mono (Dxt.bsize (dxtFmt f)) w h (i := 1) (j := n) H.n0
  have hk : ∀ hd : Hd, imageKind hd f = (4, IL_RGBA, IL_UNSIGNED_BYTE) := by intro hd; rcases hf with rfl | rfl | rfl <;> rfl
  have hpf := code_format' (size := Dxt.bsize (dxtFmt f)) H K hwh (by unfold Dxt.bsize; split <;> decide) (f := f) (by
    intro area blocks
    rcases hcc with ⟨rfl, rfl⟩ | ⟨rfl, rfl⟩ | ⟨rfl, rfl⟩ <;> rfl)
  generalize hblk : DxtSpec.bytes (Dxt.bsize (dxtFmt f)) w h 1 = block at *
  have hblt : block < 4294967296 := by
    have hb : (w + 3) / 4 * ((h + 3) / 4) ≤ w * h := Nat.mul_le_mul (by omega) (by omega)
    have h16 : Dxt.bsize (dxtFmt f) ≤ 16 := by unfold Dxt.bsize; split <;> decide
    have hbs := Nat.mul_le_mul hb h16
    rw [← hblk]
    unfold DxtSpec.bytes
    rw [Nat.mul_one]
    omega
  unfold iLoadDdsInternal
  refine (header_spec L junk hs H.len).bind (fun r hr => ?_)
  obtain ⟨hdr, t⟩ := r
  obtain ⟨ha, e1, e2, e3, e4, e5, e6⟩ := hr
  simp only at ha e1 e2 e3 e4 e5 e6 ⊢
  have hck : iCheckDds hdr = true := by
    unfold iCheckDds
    rw [e2, H.magic, e3, H.size1, e4, H.size2, e5, H.width, e6, H.height]
    simp; omega
  rw [hck, if_neg (by simp), e1]
  simp only [hpf]
  rw [if_neg (by rcases hf with rfl | rfl | rfl <;> decide), if_neg (by
    rintro ⟨-, h2⟩
    have := (bit_and (leAt bs 112 4) 9).mp h2
    rw [H.cube] at this; cases this), if_neg (by rcases hf with rfl | rfl | rfl <;> decide)]
  unfold loadSurface
  have ew : (fixSize (hdOf bs) block).width = w := by rw [fixSize_same]; exact H.width
  have eh : (fixSize (hdOf bs) block).height = h := by rw [fixSize_same]; exact H.height
  have ed : (fixSize (hdOf bs) block).depth = 1 := by
    rw [fixSize_same]
    have := H.depth
    show (if _ then _ else _) = _
    split <;> omega
  have ea : adjustVolume (fixSize (hdOf bs) block) f false = (fixSize (hdOf bs) block, 1) := by
    unfold adjustVolume
    rw [if_pos (.inl (by omega)), ed]
  simp only [ea, ew, eh, hk]
  obtain ⟨g1, g2⟩ := declared hsize
  have hrd := read_linear L junk ha H.len (fixSize (hdOf bs) block) false w h 1 g1 (by rw [g2]; exact hblt)
  rw [g2] at hrd
  refine hrd.bind (fun r hr => ?_)
  obtain ⟨c, t'⟩ := r
  obtain ⟨h1, h2, q, hq⟩ := hr
  simp only at h1 h2 hq ⊢
  by_cases hl : 128 + block ≤ bs.length
  · obtain ⟨hc, hat⟩ := h1 hl
    subst hc
    obtain ⟨d, d1, d2⟩ := level_image junk (bs := bs) (p := 128) hw hh hwh hfm (by rw [hblk]; exact hl)
    rw [hblk] at d1
    simp only [dec135 hf, d1, bind_ok, pure_eq_ok, if_true]
    unfold readMipmaps
    have hcount : (if (fixSize (hdOf bs) block).flags1 &&& MIPMAPCOUNT = 0 ∨ (fixSize (hdOf bs) block).mips = 0 then 1 else (fixSize (hdOf bs) block).mips) = n := by
      have c1 : (fixSize (hdOf bs) block).mips = n := by rw [fixSize_same]; exact H.count
      have c2 : ¬ (fixSize (hdOf bs) block).flags1 &&& MIPMAPCOUNT = 0 := by
        have hfl : bit (hdOf bs).flags1 17 = true := H.flag
        intro h0
        unfold fixSize at h0
        split at h0
        · have := ((or_and _ 19 17).mp h0).1
          rw [hfl] at this; cases this
        · have := (bit_not _ 17).mp h0
          rw [hfl] at this; cases this
      rw [c1, if_neg (by have := H.n0; rintro (h | h); exact c2 h; omega)]
    simp only [hcount]
    have h16 : has16 (fixSize (hdOf bs) block) = false := by
      rw [fixSize_same]
      have := H.amask
      have hm : ¬ (hdOf bs).amask = 0xC0000000 := H.amask
      unfold has16
      simp [hm]
    have hm := mips_spec L junk hw hh hwh hf h16 g1 (n - 1) (s := t') (by rw [hlev1]; exact hat) (by rw [hlev1]; exact hl)
    have hn1 : n - 1 + 1 = n := by have := H.n0; omega
    rw [hn1] at hm
    refine Holds.bind (P := fun r : Option (List Img) × σ => (levelStart (Dxt.bsize (dxtFmt f)) w h n ≤ bs.length → ∃ ms, r.1 = some ms ∧ ms.length = n - 1 ∧
        ∀ i m, ms[i]? = some m → LevelAt junk bs (dxtFmt f) (levelStart (Dxt.bsize (dxtFmt f)) w h (i + 1)) (side w (i + 1)) (side h (i + 1)) m) ∧
        (bs.length < levelStart (Dxt.bsize (dxtFmt f)) w h n → r.1 = none) ∧ ∃ q, At r.2 bs q) (hm.bind (fun r hr => ?_)) (fun r hr => ?_)
    · obtain ⟨m1, m2, m3⟩ := hr
      by_cases hle : levelStart (Dxt.bsize (dxtFmt f)) w h n ≤ bs.length
      · obtain ⟨m4, m5, m6⟩ := m1 hle
        rw [m4, if_neg (by simp)]
        exact Holds.pure ⟨fun _ => ⟨_, rfl, m5, m6⟩, fun h => by omega, m3⟩
      · rw [m2 (by omega), if_pos rfl]
        exact Holds.pure ⟨fun h => absurd h hle, fun _ => rfl, m3⟩
    · obtain ⟨ms, t2⟩ := r
      obtain ⟨m1, m2, m3⟩ := hr
      simp only at m1 m2 m3 ⊢
      by_cases hle : levelStart (Dxt.bsize (dxtFmt f)) w h n ≤ bs.length
      · obtain ⟨ms', m4, m5, m6⟩ := m1 hle
        subst m4
        refine Holds.pure ⟨⟨fun _ => ⟨rfl, ?_, fun i m hi => ?_⟩, fun h => by omega, fun _ h => by omega⟩, m3⟩
        · rw [List.length_cons, m5, hn1]
        · cases i with
          | zero =>
            cases hi
            rw [side_zero hw, side_zero hh]
            exact d2
          | succ i => exact m6 i m hi
      · have := m2 (by omega)
        subst this
        exact Holds.pure ⟨⟨fun h => absurd h hle, fun _ => rfl, fun _ _ => ⟨_, rfl, d2⟩⟩, m3⟩
  · have hc := h2 (by omega)
    subst hc
    exact Holds.pure ⟨⟨fun h => by omega, fun _ => rfl, fun h => by omega⟩, q, hq⟩

end DevIL.Dds
