import Verif.Lemmas.DdsA
/-! DDS files with the block formats. -/
set_option autoImplicit false
namespace DevIL.Dds

open DevIL.Detect DevIL.DetectSpec DevIL.DdsSpec DevIL.Image DevIL.Games DevIL.GamesSpec

variable {σ : Type} {o : Ops σ} {At : σ → List UInt8 → Nat → Prop}

/-- The format a code stands for, and the bytes of a block. -/
theorem code_format {bs : List UInt8} {w h size : Nat} {cc : List UInt8} {f : PF} (H : Header bs w h) (K : Code bs cc) (hwh : w * h < 2 ^ 27)
    (hs : size ≤ 16) (hf : ∀ area blocks, fourCC (le cc) area blocks = (f, u32 (blocks * size))) :
    decodePixelFormat (hdOf bs) = (f, DxtSpec.bytes size w h 1) := by
  have e1 : (hdOf bs).width = w := H.width
  have e2 : (hdOf bs).height = h := H.height
  have hw := H.w0
  have hh := H.h0
  have hww : w ≤ w * h := Nat.le_mul_of_pos_right w hh
  have hhh : h ≤ w * h := Nat.le_mul_of_pos_left h hw
  have hb : (w + 3) / 4 * ((h + 3) / 4) ≤ w * h := Nat.mul_le_mul (by omega) (by omega)
  have hbs : (w + 3) / 4 * ((h + 3) / 4) * size ≤ w * h * 16 := Nat.mul_le_mul hb hs
  have hc : (hdOf bs).fourCC = le cc := by
    show leAt bs 84 4 = _
    unfold leAt
    rw [K.2]
  unfold decodePixelFormat
  simp only [e1, e2, hd_depth H, Nat.mul_one]
  have h4 : (hdOf bs).flags2 &&& 4 ≠ 0 := (bit_and (leAt bs 80 4) 2).mpr K.1
  rw [if_pos h4, hc, hf, u32_of_lt (show w + 3 < 4294967296 by omega), u32_of_lt (show h + 3 < 4294967296 by omega),
    u32_of_lt (show (w + 3) / 4 * ((h + 3) / 4) < 4294967296 by omega), u32_of_lt (show (w + 3) / 4 * ((h + 3) / 4) < 4294967296 by omega),
    u32_of_lt (by omega)]
  unfold DxtSpec.bytes
  rw [Nat.mul_one]

/-- The formats of blocks. -/
theorem block_load (L : Laws2 o At) (junk : Nat → UInt8) (cube : Hd → σ → C (Bool × List Img × σ)) (cur : Img) {t : σ} {bs : List UInt8} {w h size : Nat}
    {cc : List UInt8} {f : PF} (hs : At t bs 0) (H : Header bs w h) (K : Code bs cc) (hwh : w * h < 2 ^ 27) (h16 : size ≤ 16)
    (hf : ∀ area blocks, fourCC (le cc) area blocks = (f, u32 (blocks * size))) (hu : f ≠ .unknown) (hx : f ≠ .dx10)
    (hsize : Declares bs (DxtSpec.bytes size w h 1)) {ok : Bool} {Q : Img → Prop}
    (hd : 128 + DxtSpec.bytes size w h 1 ≤ bs.length → ∃ p, (∀ fl li, ddsDecompress { hdOf bs with flags1 := fl, linear := li } f w h 1
      (texN junk w h 1 (imageKind (hdOf bs) f).1 (imageKind (hdOf bs) f).2.1 (imageKind (hdOf bs) f).2.2) (at_ bs 128 (DxtSpec.bytes size w h 1)) = .ok (ok, p)) ∧
      Q { texN junk w h 1 (imageKind (hdOf bs) f).1 (imageKind (hdOf bs) f).2.1 (imageKind (hdOf bs) f).2.2 with data := p }) :
    Holds (iLoadDdsInternal o junk cube cur t) (fun r => ((128 + DxtSpec.bytes size w h 1 ≤ bs.length → r.1 = ok ∧ ∃ m, r.2.1 = [m] ∧ Q m) ∧
      (bs.length < 128 + DxtSpec.bytes size w h 1 → r.1 = false ∧ r.2.1 = [cur])) ∧ ∃ q, At r.2.2 bs q) := by
  have hw := H.w0
  have hh := H.h0
  have hww : w ≤ w * h := Nat.le_mul_of_pos_right w hh
  have hhh : h ≤ w * h := Nat.le_mul_of_pos_left h hw
  have hn : DxtSpec.bytes size w h 1 < 4294967296 := by
    have hb : (w + 3) / 4 * ((h + 3) / 4) ≤ w * h := Nat.mul_le_mul (by omega) (by omega)
    have hbs : (w + 3) / 4 * ((h + 3) / 4) * size ≤ w * h * 16 := Nat.mul_le_mul hb h16
    unfold DxtSpec.bytes
    rw [Nat.mul_one]
    omega
  have hpf := code_format H K hwh h16 hf
  by_cases hl : 128 + DxtSpec.bytes size w h 1 ≤ bs.length
  · obtain ⟨p, hp, hq⟩ := hd hl
    refine (load_spec L junk cube cur hs H f _ _ hpf hu hx hn (by omega) (.inl ⟨hsize, rfl⟩) ok p (fun fl li _ => hp fl li)).mono (fun r hr => ?_)
    exact ⟨⟨fun h => ⟨(hr.1 h).1, _, (hr.1 h).2, hq⟩, hr.2.1⟩, hr.2.2⟩
  · refine (load_spec L junk cube cur hs H f _ _ hpf hu hx hn (by omega) (.inl ⟨hsize, rfl⟩) true [] (fun fl li h => absurd h hl)).mono (fun r hr => ?_)
    exact ⟨⟨fun h => absurd h hl, hr.2.1⟩, hr.2.2⟩

theorem texN_fields (junk : Nat → UInt8) (w h k f : Nat) (hw : 0 < w) (hh : 0 < h) (hk : 0 < k) (hfit : w * h * k < 4294967296) :
    let m := texN junk w h 1 k f IL_UNSIGNED_BYTE
    m.width = w ∧ m.height = h ∧ m.bps = w * k ∧ m.plane = w * h * k ∧ m.size = w * h * k ∧ m.data = alloc junk (w * h * k) := by
  obtain ⟨f1, f2, -, f4, f5, -, -, f8, f9⟩ := tex_fields junk w h k f hw hh hk hfit
  have hb := f8.1
  have hp := f8.2.1
  rw [f4, f5, f1, Nat.mul_one] at hb
  rw [f4, f5, f1, f2, Nat.mul_one, Nat.mul_right_comm] at hp
  refine ⟨f1, f2, hb, hp, f9, ?_⟩
  have f9 : (texN junk w h 1 k f IL_UNSIGNED_BYTE).size = w * h * k := f9
  show alloc junk (texN junk w h 1 k f IL_UNSIGNED_BYTE).size = _
  rw [f9]

/-! ### DXT -/

/-- The compressed data of a file, as `ilDxtcDataToSurface` takes it. -/
def surf (junk : Nat → UInt8) (bs : List UInt8) (w h fmt size : Nat) : Dxt.Surface :=
  ⟨{ texN junk w h 1 4 IL_RGBA IL_UNSIGNED_BYTE with data := [] }, fmt, at_ bs 128 (DxtSpec.bytes size w h 1)⟩

theorem target_eq (junk : Nat → UInt8) {w h : Nat} (hw : 0 < w) (hh : 0 < h) (hwh : w * h < 2 ^ 27) :
    Dxt.target junk { texN junk w h 1 4 IL_RGBA IL_UNSIGNED_BYTE with data := [] } = texN junk w h 1 4 IL_RGBA IL_UNSIGNED_BYTE := by
  have hww : w ≤ w * h := Nat.le_mul_of_pos_right w hh
  obtain ⟨f1, f2, hb, hp, f9', hd⟩ := texN_fields junk w h 4 IL_RGBA hw hh (by decide) (by omega)
  have e1 : u32 (w * 4) = w * 4 := u32_of_lt (by omega)
  have e2 : u32 (h * (w * 4)) = w * h * 4 := by rw [show h * (w * 4) = w * h * 4 by rw [← Nat.mul_assoc, Nat.mul_comm h w], u32_of_lt (by omega)]
  have e3 : u32 (w * h * 4 * 1) = w * h * 4 := by rw [Nat.mul_one, u32_of_lt (by omega)]
  unfold Dxt.target
  simp only [f1, f2, or_true, if_true]
  rw [e1, e2, show (texN junk w h 1 4 IL_RGBA IL_UNSIGNED_BYTE).depth = 1 from rfl, e3]
  generalize hm : texN junk w h 1 4 IL_RGBA IL_UNSIGNED_BYTE = m at *
  have h4 : m.bpp = 4 := by rw [← hm]; rfl
  have h5 : m.bpc = 1 := by rw [← hm]; rfl
  have h6 : m.format = IL_RGBA := by rw [← hm]; rfl
  have h7 : m.type = IL_UNSIGNED_BYTE := by rw [← hm]; rfl
  have h3 : m.depth = 1 := by rw [← hm]; rfl
  cases m
  simp only at *
  subst_vars
  rfl

theorem texN_rgba (junk : Nat → UInt8) {w h : Nat} (hw : 0 < w) (hh : 0 < h) (hwh : w * h < 2 ^ 27) : Dxt.Rgba (texN junk w h 1 4 IL_RGBA IL_UNSIGNED_BYTE) := by
  obtain ⟨f1, f2, hb, hp, f9', hd⟩ := texN_fields junk w h 4 IL_RGBA hw hh (by decide) (by omega)
  refine ⟨rfl, by rw [hb, f1], by rw [hp, f1, f2, Nat.mul_right_comm], ?_, by rw [f9']; omega⟩
  rw [f9', f1, f2]
  show w * h * 4 = 1 * h * w * 4
  rw [Nat.one_mul, Nat.mul_comm h w]

theorem surf_complete (junk : Nat → UInt8) {bs : List UInt8} {w h fmt size : Nat} (hw : 0 < w) (hh : 0 < h) (hwh : w * h < 2 ^ 27)
    (hl : 128 + DxtSpec.bytes size w h 1 ≤ bs.length) : Dxt.Complete (surf junk bs w h fmt size) size := by
  obtain ⟨f1, f2, f3, f4, f5, f6, f7, f8, f9⟩ := tex_fields junk w h 4 IL_RGBA hw hh (by decide) (by omega)
  have f1 : (surf junk bs w h fmt size).img.width = w := f1
  have f2 : (surf junk bs w h fmt size).img.height = h := f2
  have f3 : (surf junk bs w h fmt size).img.depth = 1 := rfl
  refine ⟨by omega, by omega, by omega, by rw [f1, f2, f3]; omega, .inl rfl, ?_⟩
  rw [f1, f2, f3]
  show _ ≤ (at_ bs 128 (DxtSpec.bytes size w h 1)).length
  rw [at_length]
  omega

/-- Decoding the data of the file gives the image `ilDxtcDataToSurface` makes of it. -/
theorem dxt_image (junk : Nat → UInt8) {bs : List UInt8} {w h fmt : Nat} (hw : 0 < w) (hh : 0 < h) (hwh : w * h < 2 ^ 27)
    (hfmt : fmt = IL_DXT1 ∨ fmt = IL_DXT3 ∨ fmt = IL_DXT5) (hl : 128 + DxtSpec.bytes (Dxt.bsize fmt) w h 1 ≤ bs.length) :
    ∃ p, Dxt.DdsDecompress (texN junk w h 1 4 IL_RGBA IL_UNSIGNED_BYTE) fmt (at_ bs 128 (DxtSpec.bytes (Dxt.bsize fmt) w h 1)) = .ok p ∧ p.length = w * h * 4 ∧
      Dxt.ilDxtcDataToSurface junk (surf junk bs w h fmt (Dxt.bsize fmt)) =
        .ok (true, { surf junk bs w h fmt (Dxt.bsize fmt) with img := { texN junk w h 1 4 IL_RGBA IL_UNSIGNED_BYTE with data := p } }) := by
  obtain ⟨f1, f2, f3, f4, f5, f6, f7, f8, f9⟩ := tex_fields junk w h 4 IL_RGBA hw hh (by decide) (by omega)
  have f1 : (texN junk w h 1 4 IL_RGBA IL_UNSIGNED_BYTE).width = w := f1
  have f2 : (texN junk w h 1 4 IL_RGBA IL_UNSIGNED_BYTE).height = h := f2
  have hlen : (at_ bs 128 (DxtSpec.bytes (Dxt.bsize fmt) w h 1)).length = DxtSpec.bytes (Dxt.bsize fmt) w h 1 := by rw [at_length]; omega
  obtain ⟨p, e, l, -⟩ := Dxt.decompress (texN_rgba junk hw hh hwh) (alloc_length _ _) (comp := at_ bs 128 (DxtSpec.bytes (Dxt.bsize fmt) w h 1)) hfmt (by
    rw [hlen, f1, f2, show (texN junk w h 1 4 IL_RGBA IL_UNSIGNED_BYTE).depth = 1 from rfl, Nat.one_mul]
    unfold DxtSpec.bytes
    rw [Nat.mul_one, Nat.mul_comm ((h + 3) / 4)])
  refine ⟨p, e, l.trans f9, ?_⟩
  unfold Dxt.ilDxtcDataToSurface
  have hne : ¬ (surf junk bs w h fmt (Dxt.bsize fmt)).comp = [] := by
    show ¬ at_ bs 128 (DxtSpec.bytes (Dxt.bsize fmt) w h 1) = []
    intro h0
    rw [h0, List.length_nil] at hlen
    have : 0 < DxtSpec.bytes (Dxt.bsize fmt) w h 1 := by
      unfold DxtSpec.bytes
      refine Nat.mul_pos (Nat.mul_pos (Nat.mul_pos (by omega) (by omega)) (by decide)) ?_
      unfold Dxt.bsize; split <;> decide
    omega
  have hne' : ¬ ¬ ((surf junk bs w h fmt (Dxt.bsize fmt)).fmt = IL_DXT1 ∨ (surf junk bs w h fmt (Dxt.bsize fmt)).fmt = IL_DXT3 ∨
      (surf junk bs w h fmt (Dxt.bsize fmt)).fmt = IL_DXT5) := fun h => h hfmt
  rw [if_neg hne, if_neg hne']
  have ht : Dxt.target junk (surf junk bs w h fmt (Dxt.bsize fmt)).img = texN junk w h 1 4 IL_RGBA IL_UNSIGNED_BYTE := target_eq junk hw hh hwh
  simp only [ht]
  show (Dxt.DdsDecompress (texN junk w h 1 4 IL_RGBA IL_UNSIGNED_BYTE) fmt (at_ bs 128 (DxtSpec.bytes (Dxt.bsize fmt) w h 1)) >>= _) = _
  rw [e]
  rfl

end DevIL.Dds
