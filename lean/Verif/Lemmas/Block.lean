import Verif.Model.Manip
/-! Lemmas about reading and writing blocks of pixels. -/
set_option autoImplicit false
namespace DevIL

theorem loopN_one {σ : Type} (f : Nat → σ → C σ) (s : σ) : loopN 1 f s = f 0 s := by
  rw [loopN_succ, loopN_zero, bind_ok]

namespace Manip

theorem clip_eq {img off n : Nat} (ho : off ≤ img) (hs : off + n < 2 ^ 32) (hi : img < 2 ^ 32) :
    clip img off n = min n (img - off) := by
  unfold clip
  rw [u32_of_lt hs]
  split
  · have : toU32 ((img : Int) - off) = img - off := by unfold toU32; omega
    rw [this]; omega
  · omega

/-- A block of `nw*nh*nd` pixels copied from position `xo,yo,zo` of a `W*H*D` image to the start of a `w*h*d` block. -/
theorem copyBlock_spec {W H D k w h d nw nh nd xo yo zo : Nat} {src out : List UInt8}
    (hsrc : D * H * W * k ≤ src.length) (hout : d * h * w * k ≤ out.length)
    (hw : nw ≤ w) (hh : nh ≤ h) (hd : nd ≤ d) (hx : xo + nw ≤ W) (hy : yo + nh ≤ H) (hz : zo + nd ≤ D) :
    ∃ o' : List UInt8, copy4 nd nh nw k (pos w h k) (fun z y x c => pos W H k (z + zo) (y + yo) (x + xo) c) src out = .ok o' ∧
      o'.length = out.length ∧
      (∀ z y x c, z < d → y < h → x < w → c < k → o'[pos w h k z y x c]? =
        if x < nw ∧ y < nh ∧ z < nd then src[pos W H k (z + zo) (y + yo) (x + xo) c]? else out[pos w h k z y x c]?) ∧
      (∀ i : Nat, d * h * w * k ≤ i → o'[i]? = out[i]?) := by
  obtain ⟨o', e, l, s1, s2⟩ := copy4_spec (nz := nd) (ny := nh) (nx := nw) (nc := k) (dIdx := pos w h k)
    (sIdx := fun z y x c => pos W H k (z + zo) (y + yo) (x + xo) c) (src := src) (dst := out)
    (fun z y x c a1 a2 a3 a4 => pos_lt (d := d) (by omega) (by omega) (by omega) a4 hout)
    (fun z y x c a1 a2 a3 a4 => pos_lt (d := D) (by omega) (by omega) (by omega) a4 hsrc)
    (fun z y x c z' y' x' c' _ a2 a3 a4 _ b2 b3 b4 e => pos_inj (by omega) (by omega) a4 (by omega) (by omega) b4 e)
  refine ⟨o', e, l, fun z y x c a1 a2 a3 a4 => ?_, fun i hi => s2 i ?_⟩
  · by_cases hin : x < nw ∧ y < nh ∧ z < nd
    · rw [if_pos hin]; exact s1 z y x c hin.2.2 hin.2.1 hin.1 a4
    · rw [if_neg hin]
      refine s2 _ (fun z' y' x' c' b1 b2 b3 b4 e => hin ?_)
      obtain ⟨rfl, rfl, rfl, rfl⟩ := pos_inj a2 a3 a4 (by omega) (by omega) b4 e
      exact ⟨b3, b2, b1⟩
  · intro z y x c b1 b2 b3 b4 e
    have := pos_lt (d := d) (h := h) (w := w) (k := k) (n := d * h * w * k) (z := z) (y := y) (x := x) (c := c)
      (by omega) (by omega) (by omega) b4 (Nat.le_refl _)
    omega

theorem pos_eq (w h k z y x c : Nat) : pos w h k z y x c = z * (w * k * h) + y * (w * k) + x * k + c := by
  unfold pos; grind

theorem le_of_lt_mul {a b n : Nat} (h : a * b ≤ n) (hb : 0 < b) : a ≤ n :=
  Nat.le_trans (Nat.le_mul_of_pos_right a hb) h

/-- The three copy loops, for a block inside the image in every direction in which it has to be, are one rectangular copy. -/
theorem copyPixels3D_eq {m : Img} {src out : List UInt8} {xo yo zo w h d k : Nat} (hk : m.bpp * m.bpc = k) (hk0 : 0 < k)
    (hbps : m.bps = m.width * k) (hplane : m.plane = m.width * k * m.height)
    (hfit : m.depth * m.height * m.width * k < 2 ^ 32) (hfit' : d * h * w * k < 2 ^ 32)
    (hw0 : 0 < w) (hh0 : 0 < h) (hd0 : 0 < d) (hW : m.width < 2 ^ 32) (hH : m.height < 2 ^ 32) (hD : m.depth < 2 ^ 32)
    (hxo : xo ≤ m.width) (hyo : yo ≤ m.height) (hzo : zo ≤ m.depth)
    (hxs : xo + w < 2 ^ 32) (hys : yo + h < 2 ^ 32) (hzs : zo + d < 2 ^ 32)
    (hcl : (xo + w ≤ m.width ∧ yo + h ≤ m.height) ∨ d = 1 ∨ m.depth - zo ≤ 1) :
    copyPixels3D m src xo yo zo w h d out =
      copy4 (min d (m.depth - zo)) (min h (m.height - yo)) (min w (m.width - xo)) k (pos w h k)
        (fun z y x c => pos m.width m.height k (z + zo) (y + yo) (x + xo) c) src out := by
  unfold copyPixels3D copy4
  rw [clip_eq hxo hxs hW, clip_eq hyo hys hH, clip_eq hzo hzs hD]
  have hkw : w * k ≤ d * h * w * k := by
    rw [show d * h * w * k = d * h * (w * k) by grind]
    exact Nat.le_mul_of_pos_left _ (Nat.mul_pos hd0 hh0)
  have hkl : k ≤ w * k := Nat.le_mul_of_pos_left _ hw0
  have ek : u32 (m.bpp * m.bpc) = k := by rw [hk]; exact u32_of_lt (by omega)
  simp only [ek]
  have enw : u32 (min w (m.width - xo) * k) = min w (m.width - xo) * k := by
    have : min w (m.width - xo) * k ≤ w * k := Nat.mul_le_mul_right _ (by omega)
    exact u32_of_lt (by omega)
  have ewk : u32 (w * k) = w * k := u32_of_lt (by omega)
  rw [enw, ewk]
  refine loopN_congr fun z b hz => loopN_congr fun y b hy => ?_
  rw [forStep_mul hk0]
  refine loopN_congr fun x b hx => loopN_congr fun c b hc => ?_
  have hxow : xo * k ≤ m.width * k := Nat.mul_le_mul_right _ hxo
  have hWk : m.width * k ≤ m.depth * m.height * m.width * k := by
    rw [show m.depth * m.height * m.width * k = m.depth * m.height * (m.width * k) by grind]
    exact Nat.le_mul_of_pos_left _ (Nat.mul_pos (by omega) (by omega))
  have exo : u32 (xo * k) = xo * k := u32_of_lt (by omega)
  have hsi : pos m.width m.height k (z + zo) (y + yo) (x + xo) c < 2 ^ 32 :=
    Nat.lt_trans (pos_lt (d := m.depth) (by omega) (by omega) (by omega) hc (Nat.le_refl _)) hfit
  have hdi : pos w h k z y x c < 2 ^ 32 :=
    Nat.lt_trans (pos_lt (d := d) (by omega) (by omega) (by omega) hc (Nat.le_refl _)) hfit'
  have e1 : (z + zo) * m.plane + (y + yo) * m.bps + x * k + xo * k + c =
      pos m.width m.height k (z + zo) (y + yo) (x + xo) c := by
    rw [pos_eq, hplane, hbps]; grind
  have e2 : z * u32 (min w (m.width - xo) * k * min h (m.height - yo)) + y * (w * k) + x * k + c = pos w h k z y x c := by
    rw [pos_eq]
    rcases hcl with ⟨hc1, hc2⟩ | hc1 | hc1
    · rw [show min w (m.width - xo) = w by omega, show min h (m.height - yo) = h by omega]
      have : w * k * h ≤ d * h * w * k := by
        rw [show d * h * w * k = d * (w * k * h) by grind]
        exact Nat.le_mul_of_pos_left _ hd0
      rw [u32_of_lt (by omega)]
    · rw [show z = 0 by omega]; omega
    · rw [show z = 0 by omega]; omega
  rw [exo, e1, e2, u32_of_lt hsi, u32_of_lt hdi]

theorem copyPixels2D_eq {m : Img} {src out : List UInt8} {xo yo w h k : Nat} (hk : m.bpp * m.bpc = k) (hk0 : 0 < k)
    (hbps : m.bps = m.width * k) (hd : 0 < m.depth)
    (hfit : m.depth * m.height * m.width * k < 2 ^ 32) (hfit' : 1 * h * w * k < 2 ^ 32)
    (hw0 : 0 < w) (hh0 : 0 < h) (hW : m.width < 2 ^ 32) (hH : m.height < 2 ^ 32)
    (hxo : xo ≤ m.width) (hyo : yo ≤ m.height) (hxs : xo + w < 2 ^ 32) (hys : yo + h < 2 ^ 32) :
    copyPixels2D m src xo yo w h out =
      copy4 1 (min h (m.height - yo)) (min w (m.width - xo)) k (pos w h k)
        (fun z y x c => pos m.width m.height k (z + 0) (y + yo) (x + xo) c) src out := by
  unfold copyPixels2D copy4
  rw [clip_eq hxo hxs hW, clip_eq hyo hys hH, loopN_one]
  have hkw : w * k ≤ 1 * h * w * k := by
    rw [show 1 * h * w * k = h * (w * k) by grind]
    exact Nat.le_mul_of_pos_left _ hh0
  have hkl : k ≤ w * k := Nat.le_mul_of_pos_left _ hw0
  have ek : u32 (m.bpp * m.bpc) = k := by rw [hk]; exact u32_of_lt (by omega)
  simp only [ek]
  have enw : u32 (min w (m.width - xo) * k) = min w (m.width - xo) * k := by
    have : min w (m.width - xo) * k ≤ w * k := Nat.mul_le_mul_right _ (by omega)
    exact u32_of_lt (by omega)
  have ewk : u32 (w * k) = w * k := u32_of_lt (by omega)
  rw [enw, ewk]
  refine loopN_congr fun y b hy => ?_
  rw [forStep_mul hk0]
  refine loopN_congr fun x b hx => loopN_congr fun c b hc => ?_
  have hxow : xo * k ≤ m.width * k := Nat.mul_le_mul_right _ hxo
  have hWk : m.width * k ≤ m.depth * m.height * m.width * k := by
    rw [show m.depth * m.height * m.width * k = m.depth * m.height * (m.width * k) by grind]
    exact Nat.le_mul_of_pos_left _ (Nat.mul_pos (by omega) (by omega))
  have exo : u32 (xo * k) = xo * k := u32_of_lt (by omega)
  have hsi : pos m.width m.height k (0 + 0) (y + yo) (x + xo) c < 2 ^ 32 :=
    Nat.lt_trans (pos_lt (d := m.depth) (by omega) (by omega) (by omega) hc (Nat.le_refl _)) hfit
  have hdi : pos w h k 0 y x c < 2 ^ 32 :=
    Nat.lt_trans (pos_lt (d := 1) (by omega) (by omega) (by omega) hc (Nat.le_refl _)) hfit'
  have e1 : (y + yo) * m.bps + x * k + xo * k + c = pos m.width m.height k (0 + 0) (y + yo) (x + xo) c := by
    rw [pos_eq, hbps]; grind
  have e2 : y * (w * k) + x * k + c = pos w h k 0 y x c := by rw [pos_eq]; omega
  rw [exo, e1, e2, u32_of_lt hsi, u32_of_lt hdi]

theorem copyPixels1D_eq {m : Img} {src out : List UInt8} {xo w k : Nat} (hk : m.bpp * m.bpc = k) (hk0 : 0 < k)
    (hd : 0 < m.depth) (hh : 0 < m.height)
    (hfit : m.depth * m.height * m.width * k < 2 ^ 32) (hfit' : 1 * 1 * w * k < 2 ^ 32)
    (hw0 : 0 < w) (hW : m.width < 2 ^ 32) (hxo : xo ≤ m.width) (hxs : xo + w < 2 ^ 32) :
    copyPixels1D m src xo w out =
      copy4 1 1 (min w (m.width - xo)) k (pos w 1 k)
        (fun z y x c => pos m.width m.height k (z + 0) (y + 0) (x + xo) c) src out := by
  unfold copyPixels1D copy4
  rw [clip_eq hxo hxs hW, loopN_one, loopN_one]
  have hkw : w * k < 2 ^ 32 := by simpa using hfit'
  have hkl : k ≤ w * k := Nat.le_mul_of_pos_left _ hw0
  have ek : u32 (m.bpp * m.bpc) = k := by rw [hk]; exact u32_of_lt (by omega)
  simp only [ek]
  have enw : u32 (min w (m.width - xo) * k) = min w (m.width - xo) * k := by
    have : min w (m.width - xo) * k ≤ w * k := Nat.mul_le_mul_right _ (by omega)
    exact u32_of_lt (by omega)
  rw [enw, forStep_mul hk0]
  refine loopN_congr fun x b hx => loopN_congr fun c b hc => ?_
  have hxow : xo * k ≤ m.width * k := Nat.mul_le_mul_right _ hxo
  have hWk : m.width * k ≤ m.depth * m.height * m.width * k := by
    rw [show m.depth * m.height * m.width * k = m.depth * m.height * (m.width * k) by grind]
    exact Nat.le_mul_of_pos_left _ (Nat.mul_pos (by omega) (by omega))
  have exo : u32 (xo * k) = xo * k := u32_of_lt (by omega)
  have hsi : pos m.width m.height k (0 + 0) (0 + 0) (x + xo) c < 2 ^ 32 :=
    Nat.lt_trans (pos_lt (d := m.depth) (by omega) (by omega) (by omega) hc (Nat.le_refl _)) hfit
  have hdi : pos w 1 k 0 0 x c < 2 ^ 32 :=
    Nat.lt_trans (pos_lt (d := 1) (by omega) (by omega) (by omega) hc (Nat.le_refl _)) hfit'
  have e1 : x * k + xo * k + c = pos m.width m.height k (0 + 0) (0 + 0) (x + xo) c := by rw [pos_eq]; grind
  have e2 : x * k + c = pos w 1 k 0 0 x c := by rw [pos_eq]; omega
  rw [exo, e1, e2, u32_of_lt hsi, u32_of_lt hdi]

/-- Destination of the first visible pixel, its place in the source block, and how many pixels are visible, along one axis
of an image of `img` pixels with a block of `n` pixels placed at `off`. -/
def AxisOk (img n : Nat) (off : Int) : Prop := 0 ≤ off ∨ n ≤ img ∨ off + n ≤ 0

theorem extent_eq {img n : Nat} {off : Int} (h1 : img < 2 ^ 31) (h2 : n < 2 ^ 31) (h3 : -(2 ^ 31) < off) (h4 : off < 2 ^ 31)
    (hok : AxisOk img n off) :
    (extent img (skip off).2 n (skip off).1).toNat = (min (img : Int) (off + n) - max off 0).toNat := by
  unfold AxisOk at hok
  unfold extent skip
  by_cases ho : off < 0
  · rw [if_pos ho]
    simp only
    have hc : clip img 0 n = min n img := by rw [clip_eq (by omega) (by omega) (by omega)]; omega
    rw [hc]
    unfold i32 toU32 u32
    split <;> omega
  · rw [if_neg ho]
    simp only
    by_cases hb : off.toNat ≤ img
    · have hc : clip img off.toNat n = min n (img - off.toNat) := clip_eq hb (by omega) (by omega)
      rw [hc]
      unfold i32 toU32 u32
      split <;> omega
    · unfold clip
      rw [u32_of_lt (by omega), if_pos (by omega)]
      unfold i32 toU32 u32
      split <;> omega

theorem skip_fst (off : Int) : (skip off).1 = (-off).toNat := by unfold skip; split <;> simp <;> omega
theorem skip_snd (off : Int) : (skip off).2 = off.toNat := by unfold skip; split <;> simp <;> omega

/-- A block of `nw*nh*nd` pixels copied from position `sx,sy,sz` of a `w*h*d` block to position `xo,yo,zo` of an image. -/
theorem putBlock_spec {W H D k w h d nw nh nd xo yo zo sx sy sz : Nat} {src dst : List UInt8}
    (hdst : D * H * W * k ≤ dst.length) (hsrc : d * h * w * k ≤ src.length)
    (hw : nw = 0 ∨ sx + nw ≤ w) (hh : nh = 0 ∨ sy + nh ≤ h) (hd : nd = 0 ∨ sz + nd ≤ d)
    (hx : nw = 0 ∨ xo + nw ≤ W) (hy : nh = 0 ∨ yo + nh ≤ H) (hz : nd = 0 ∨ zo + nd ≤ D) :
    ∃ o' : List UInt8, copy4 nd nh nw k (fun z y x c => pos W H k (z + zo) (y + yo) (x + xo) c)
        (fun z y x c => pos w h k (z + sz) (y + sy) (x + sx) c) src dst = .ok o' ∧
      o'.length = dst.length ∧
      (∀ z y x c, z < D → y < H → x < W → c < k → o'[pos W H k z y x c]? =
        if (xo ≤ x ∧ x < xo + nw) ∧ (yo ≤ y ∧ y < yo + nh) ∧ zo ≤ z ∧ z < zo + nd
        then src[pos w h k (z - zo + sz) (y - yo + sy) (x - xo + sx) c]? else dst[pos W H k z y x c]?) := by
  obtain ⟨o', e, l, s1, s2⟩ := copy4_spec (nz := nd) (ny := nh) (nx := nw) (nc := k)
    (dIdx := fun z y x c => pos W H k (z + zo) (y + yo) (x + xo) c)
    (sIdx := fun z y x c => pos w h k (z + sz) (y + sy) (x + sx) c) (src := src) (dst := dst)
    (fun z y x c a1 a2 a3 a4 => pos_lt (d := D) (by omega) (by omega) (by omega) a4 hdst)
    (fun z y x c a1 a2 a3 a4 => pos_lt (d := d) (by omega) (by omega) (by omega) a4 hsrc)
    (fun z y x c z' y' x' c' _ a2 a3 a4 _ b2 b3 b4 e => by
      have := pos_inj (by omega) (by omega) a4 (by omega) (by omega) b4 e
      omega)
  refine ⟨o', e, l, fun z y x c a1 a2 a3 a4 => ?_⟩
  by_cases hin : (xo ≤ x ∧ x < xo + nw) ∧ (yo ≤ y ∧ y < yo + nh) ∧ zo ≤ z ∧ z < zo + nd
  · rw [if_pos hin]
    have := s1 (z - zo) (y - yo) (x - xo) c (by omega) (by omega) (by omega) a4
    simp only [show z - zo + zo = z by omega, show y - yo + yo = y by omega, show x - xo + xo = x by omega] at this
    exact this
  · rw [if_neg hin]
    refine s2 _ (fun z' y' x' c' b1 b2 b3 b4 e => hin ?_)
    have := pos_inj a2 a3 a4 (by omega) (by omega) b4 e
    omega

section set
variable {m : Img} {src dst : List UInt8} {xo yo zo : Int} {w h d k : Nat}

theorem setPixels3D_eq (hk : m.bpp * m.bpc = k)
    (hbps : m.bps = m.width * k) (hplane : m.plane = m.width * k * m.height)
    (hfit : m.depth * m.height * m.width * k < 2 ^ 32) (hfit' : d * h * w * k < 2 ^ 32)
    (hx : (extent m.width (skip xo).2 w (skip xo).1).toNat = (min (m.width : Int) (xo + w) - max xo 0).toNat)
    (hy : (extent m.height (skip yo).2 h (skip yo).1).toNat = (min (m.height : Int) (yo + h) - max yo 0).toNat)
    (hz : (extent m.depth (skip zo).2 d (skip zo).1).toNat = (min (m.depth : Int) (zo + d) - max zo 0).toNat) :
    setPixels3D m dst xo yo zo w h d src =
      copy4 (min (m.depth : Int) (zo + d) - max zo 0).toNat (min (m.height : Int) (yo + h) - max yo 0).toNat
        (min (m.width : Int) (xo + w) - max xo 0).toNat k
        (fun z y x c => pos m.width m.height k (z + zo.toNat) (y + yo.toNat) (x + xo.toNat) c)
        (fun z y x c => pos w h k (z + (-zo).toNat) (y + (-yo).toNat) (x + (-xo).toNat) c) src dst := by
  unfold setPixels3D copy4
  simp only [skip_fst, skip_snd] at hx hy hz ⊢
  simp only [hx, hy, hz]
  refine loopN_congr fun z b hz => loopN_congr fun y b hy => loopN_congr fun x b hx => ?_
  have hw0 : 0 < w := by omega
  have hh0 : 0 < h := by omega
  have hd0 : 0 < d := by omega
  have hkw : w * k ≤ d * h * w * k := by
    rw [show d * h * w * k = d * h * (w * k) by grind]
    exact Nat.le_mul_of_pos_left _ (Nat.mul_pos hd0 hh0)
  have hkh : w * k * h ≤ d * h * w * k := by
    rw [show d * h * w * k = d * (w * k * h) by grind]
    exact Nat.le_mul_of_pos_left _ hd0
  have hkl : k ≤ w * k := Nat.le_mul_of_pos_left _ hw0
  have ek : u32 (m.bpp * m.bpc) = k := by rw [hk]; exact u32_of_lt (by omega)
  have ewk : u32 (w * k) = w * k := u32_of_lt (by omega)
  have ewkh : u32 (w * k * h) = w * k * h := u32_of_lt (by omega)
  simp only [ek]
  rw [ewk, ewkh]
  refine loopN_congr fun c b hc => ?_
  have hsi : pos w h k (z + (-zo).toNat) (y + (-yo).toNat) (x + (-xo).toNat) c < 2 ^ 32 :=
    Nat.lt_trans (pos_lt (d := d) (by omega) (by omega) (by omega) hc (Nat.le_refl _)) hfit'
  have hdi : pos m.width m.height k (z + zo.toNat) (y + yo.toNat) (x + xo.toNat) c < 2 ^ 32 :=
    Nat.lt_trans (pos_lt (d := m.depth) (by omega) (by omega) (by omega) hc (Nat.le_refl _)) hfit
  have e1 : ∀ Z Y X, Z * (w * k * h) + Y * (w * k) + X * k + c = pos w h k Z Y X c := by
    intro Z Y X; rw [pos_eq]
  have e2 : ∀ Z Y X, Z * m.plane + Y * m.bps + X * k + c = pos m.width m.height k Z Y X c := by
    intro Z Y X; rw [pos_eq, hplane, hbps]
  rw [e1, e2, u32_of_lt hsi, u32_of_lt hdi]

theorem setPixels2D_eq (hk : m.bpp * m.bpc = k)
    (hbps : m.bps = m.width * k) (hD : 0 < m.depth)
    (hfit : m.depth * m.height * m.width * k < 2 ^ 32) (hfit' : 1 * h * w * k < 2 ^ 32)
    (hx : (extent m.width (skip xo).2 w (skip xo).1).toNat = (min (m.width : Int) (xo + w) - max xo 0).toNat)
    (hy : (extent m.height (skip yo).2 h (skip yo).1).toNat = (min (m.height : Int) (yo + h) - max yo 0).toNat) :
    setPixels2D m dst xo yo w h src =
      copy4 1 (min (m.height : Int) (yo + h) - max yo 0).toNat
        (min (m.width : Int) (xo + w) - max xo 0).toNat k
        (fun z y x c => pos m.width m.height k (z + 0) (y + yo.toNat) (x + xo.toNat) c)
        (fun z y x c => pos w h k (z + 0) (y + (-yo).toNat) (x + (-xo).toNat) c) src dst := by
  unfold setPixels2D copy4
  rw [loopN_one]
  simp only [skip_fst, skip_snd] at hx hy ⊢
  simp only [hx, hy]
  refine loopN_congr fun y b hy => loopN_congr fun x b hx => ?_
  have hw0 : 0 < w := by omega
  have hh0 : 0 < h := by omega
  have hkw : w * k ≤ 1 * h * w * k := by
    rw [show 1 * h * w * k = h * (w * k) by grind]
    exact Nat.le_mul_of_pos_left _ hh0
  have hkl : k ≤ w * k := Nat.le_mul_of_pos_left _ hw0
  have ek : u32 (m.bpp * m.bpc) = k := by rw [hk]; exact u32_of_lt (by omega)
  have ewk : u32 (w * k) = w * k := u32_of_lt (by omega)
  simp only [ek]
  rw [ewk]
  refine loopN_congr fun c b hc => ?_
  have hsi : pos w h k (0 + 0) (y + (-yo).toNat) (x + (-xo).toNat) c < 2 ^ 32 :=
    Nat.lt_trans (pos_lt (d := 1) (by omega) (by omega) (by omega) hc (Nat.le_refl _)) hfit'
  have hdi : pos m.width m.height k (0 + 0) (y + yo.toNat) (x + xo.toNat) c < 2 ^ 32 :=
    Nat.lt_trans (pos_lt (d := m.depth) (by omega) (by omega) (by omega) hc (Nat.le_refl _)) hfit
  have e1 : ∀ Y X, Y * (w * k) + X * k + c = pos w h k (0 + 0) Y X c := by
    intro Y X; rw [pos_eq]; omega
  have e2 : ∀ Y X, Y * m.bps + X * k + c = pos m.width m.height k (0 + 0) Y X c := by
    intro Y X; rw [pos_eq, hbps]; omega
  rw [e1, e2, u32_of_lt hsi, u32_of_lt hdi]

theorem setPixels1D_eq (hk : m.bpp * m.bpc = k) (hD : 0 < m.depth) (hH : 0 < m.height)
    (hfit : m.depth * m.height * m.width * k < 2 ^ 32) (hfit' : 1 * 1 * w * k < 2 ^ 32)
    (hx : (extent m.width (skip xo).2 w (skip xo).1).toNat = (min (m.width : Int) (xo + w) - max xo 0).toNat) :
    setPixels1D m dst xo w src =
      copy4 1 1 (min (m.width : Int) (xo + w) - max xo 0).toNat k
        (fun z y x c => pos m.width m.height k (z + 0) (y + 0) (x + xo.toNat) c)
        (fun z y x c => pos w 1 k (z + 0) (y + 0) (x + (-xo).toNat) c) src dst := by
  unfold setPixels1D copy4
  rw [loopN_one, loopN_one]
  simp only [skip_fst, skip_snd] at hx ⊢
  simp only [hx]
  refine loopN_congr fun x b hx => ?_
  have hw0 : 0 < w := by omega
  have hkw : w * k < 2 ^ 32 := by simpa using hfit'
  have hkl : k ≤ w * k := Nat.le_mul_of_pos_left _ hw0
  have ek : u32 (m.bpp * m.bpc) = k := by rw [hk]; exact u32_of_lt (by omega)
  simp only [ek]
  refine loopN_congr fun c b hc => ?_
  have hsi : pos w 1 k (0 + 0) (0 + 0) (x + (-xo).toNat) c < 2 ^ 32 :=
    Nat.lt_trans (pos_lt (d := 1) (by omega) (by omega) (by omega) hc (Nat.le_refl _)) hfit'
  have hdi : pos m.width m.height k (0 + 0) (0 + 0) (x + xo.toNat) c < 2 ^ 32 :=
    Nat.lt_trans (pos_lt (d := m.depth) (by omega) (by omega) (by omega) hc (Nat.le_refl _)) hfit
  have e1 : ∀ X, X * k + c = pos w 1 k (0 + 0) (0 + 0) X c := by intro X; rw [pos_eq]; omega
  have e2 : ∀ X, X * k + c = pos m.width m.height k (0 + 0) (0 + 0) X c := by intro X; rw [pos_eq]; omega
  rw [e2 (x + xo.toNat), e1 (x + (-xo).toNat), u32_of_lt hsi, u32_of_lt hdi]

end set
end Manip
end DevIL
