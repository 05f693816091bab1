import Verif.Lemmas.BmpCut
import Verif.Props.BmpRle
/-! C93 for Windows bitmaps: a truncated file is not reported as loaded. -/
set_option autoImplicit false
namespace DevIL.Bmp
open DevIL.Lump DevIL.Endian DevIL.Image DevIL.Utility DevIL.Load
open DevIL.Targa (Loaded)

/-! ### Specification -/

/-- The header of a bitmap of `w` columns and `h` rows whose data starts at `off`, inside the file. -/
structure Announces (file : List UInt8) (w h bits comp off : Nat) : Prop where
  windows : Windows file
  small : file.length < 2147483648
  width : field file 18 4 = w
  height : (sfield file 22 4).natAbs = h
  depth : field file 28 2 = bits
  method : field file 30 4 = comp
  start : field file 10 4 = off
  header : 54 ≤ off
  inside : off ≤ file.length

/-- The number of bytes of a row without its padding. -/
def rowBytes (bits w : Nat) : Nat := (w * bits + 7) / 8

theorem Announces.width_eq {file : List UInt8} {w h bits comp off : Nat} (hC : Announces file w h bits comp off) : 0 < w ∧ (headOf file).width.toNat = w := by
  have h1 := hC.windows.width
  have e : (headOf file).width = sfield file 18 4 := rfl
  rw [e]
  unfold sfield at h1 ⊢
  have := field_lt file 18 4
  rw [hC.width] at h1 this ⊢
  simp only [Nat.reducePow, Nat.reduceMul, Nat.reduceSub, Int.reducePow] at this h1 ⊢
  split at h1 <;> split <;> omega

theorem post_absHeight {h : Head} : Post (absHeight h) fun n => n = h.height.natAbs := by
  unfold absHeight
  exact Post.ite (fun _ => Post.error _) (fun _ => Post.pure rfl)

/-! ## C93 -/

/-- **C93 (BMP, uncompressed).** If a bitmap ends before its last pixel (of the last stored row, whose padding may be missing), loading it does not report
success.  (The data must be announced to start inside the file, see `C93_violated_offset`.) -/
theorem C93_bmp_partial (big : Bool) (junk : Nat → UInt8) (file : List UInt8) (w h bits comp off : Nat) (hC : Announces file w h bits comp off)
    (hcomp : comp = 0 ∨ comp = 3 ∧ (bits = 16 ∨ bits = 32)) (hfits : w * (if bits ≤ 8 then 1 else 3) * h < 4294967296)
    (hcut : file.length < off + (h - 1) * stride bits w + rowBytes bits w) (im : Option Loaded) (l : R) :
    iLoadBitmapInternal big junk (open_ file file.length) ≠ .ok (true, im, l) := by
  have hw := hC.windows
  have h54 := hw.long
  have hbits := hw.bits
  have g := (at_open (data := file) (by omega) hw.lt).1
  rw [hC.depth] at hbits
  have hmet := hC.method
  obtain ⟨hc, hp, hb, hcm⟩ := hw.check (by omega) (by rw [hC.depth]; omega)
  rw [hC.depth] at hb
  have hsmall := hC.small
  have hw0 := hC.width_eq
  have hh0 : 0 < h := by have := hw.height; have := hC.height; omega
  have hin := hC.inside
  have hoff := hC.header
  have ho : (headOf file).off = (off : Int) := by
    have := sfield_of hC.start (n := 4) (by simp only [Nat.reduceMul, Nat.reduceSub, Nat.reducePow]; omega)
    exact this
  have hk2 : (kindOf (headOf file)).2 = if bits ≤ 8 then 1 else 3 := by
    unfold kindOf
    rw [hb]
    by_cases h8 : bits ≤ 8
    · rw [if_pos h8, if_pos (by omega)]
    · rw [if_neg h8, if_neg (by omega)]
  have hhe : (headOf file).height.natAbs = h := hC.height
  suffices hP : Post (iLoadBitmapInternal big junk (open_ file file.length)) (fun r => r.1 = false) by
    intro e
    exact Bool.noConfusion (hP _ e : true = false)
  unfold iLoadBitmapInternal
  rw [head_at g rfl big junk h54, bind_ok]
  have gd : (open_ file file.length).data = file := rfl
  dsimp only
  rw [gd, hc, if_neg (by decide), if_neg (by rw [hp]; decide), if_pos (by rw [hcm, hmet]; omega)]
  unfold ilReadUncompBmp
  refine post_absHeight.bind fun n hn => ?_
  subst hn
  rw [hw0.2, hhe, hk2]
  obtain ⟨m, em, c, f1, f2, f3, f4, f5, f6, f7, f8, f9, f10⟩ := init8 junk 0 (w := w) (h := h) (bpp := if bits ≤ 8 then 1 else 3) hw0.1 hh0 hfits
  rw [em, bind_ok]
  dsimp only
  refine Post.bind' fun n => ?_
  have e54 : seek (adv (open_ file file.length) 54) 54 SEEK_SET = .ok (true, { (adv (open_ file file.length) 54) with pos := 54 }) :=
    seek_off (l := adv (open_ file file.length) 54) (o := 54) hsmall h54
  rw [e54, bind_ok]
  dsimp only
  have g54 : Good { (adv (open_ file file.length) 54) with pos := 54 } := ⟨g.size, h54, g.lt, g.ne⟩
  have hrd : Post (readAt { (adv (open_ file file.length) 54) with pos := 54 } (alloc junk n) 0 1 n) fun r => Same (open_ file file.length) r.2.2 := by
    unfold readAt
    refine (Post.of_holds (holds_read g54 1 n)).bind fun r hr => ?_
    exact Post.ite (fun _ => Post.pure ⟨hr.1.good, hr.1.data, hr.1.size⟩) (fun _ => Post.error _)
  refine hrd.bind fun r hr => ?_
  refine Post.ite (fun _ => Post.pure rfl) (fun _ => ?_)
  have hsz : r.2.2.size = file.length := hr.size
  rw [ho, seek_off (o := off) (by rw [hsz]; exact hsmall) (by rw [hsz]; omega), bind_ok]
  dsimp only
  refine (post_readPixels (m := { m with format := (kindOf (headOf file)).1, origin := originOf (headOf file) }) (l := { r.2.2 with pos := off }) (bits := bits) (o := off)
    ⟨hr.good.size, by show off ≤ r.2.2.size; omega, hr.good.lt, hr.good.ne⟩ hb hbits (by show r.2.2.size < _; omega) ho (by omega)
    (by show off ≤ r.2.2.size; omega) rfl (by show 0 < m.width; omega) (by show 0 < m.height; omega) ⟨c.1, c.2.1, c.2.2.1, c.2.2.2⟩ f3 f5 f4
    (by show m.size < _; rw [f9]; exact hfits)).bind fun s hs => Post.pure ?_
  show (!s.failed) = false
  cases hsf : s.failed with
  | true => rfl
  | false =>
    have := hs hsf
    dsimp only at this
    rw [f1, f2, hsz] at this
    unfold stride rowBytes at hcut
    omega

/-- **C93 (BMP, run-length encoded).** If a run-length encoded bitmap ends within one of its codes, before the last pixel is reached, loading it does
not report success. -/
theorem C93_rle_partial (big : Bool) (junk : Nat → UInt8) (file : List UInt8) (four : Bool) (w h off : Nat)
    (hC : Announces file w h (if four then 4 else 8) (if four then 2 else 1) off) (hfits : w * h < 4294967296)
    (cs : List Code) (code : Code) (cut miss : List UInt8) (hcode : code.bytes four = cut ++ miss) (hmiss : miss ≠ [])
    (hcodes : file.drop off = cs.flatMap (Code.bytes four) ++ cut) (hin : Fits four w h ⟨0, 0, fun _ _ => none⟩ (cs ++ [code]))
    (hlast : (cs.foldl (Code.exec four) ⟨0, 0, fun _ _ => none⟩).y * w + (cs.foldl (Code.exec four) ⟨0, 0, fun _ _ => none⟩).x < h * w)
    (im : Option Loaded) (l : R) :
    iLoadBitmapInternal big junk (open_ file file.length) ≠ .ok (true, im, l) := by
  have hw := hC.windows
  have h54 := hw.long
  have g := (at_open (data := file) (by omega) hw.lt).1
  have hmet := hC.method
  obtain ⟨hc, hp, hb, hcm⟩ := hw.check (by rw [hmet]; split <;> omega) (by rw [hmet]; split <;> omega)
  have hsmall := hC.small
  have hw0 := hC.width_eq
  have hh0 : 0 < h := by have := hw.height; have := hC.height; omega
  have hinl := hC.inside
  have ho : (headOf file).off = (off : Int) := by
    have := sfield_of hC.start (n := 4) (by simp only [Nat.reduceMul, Nat.reduceSub, Nat.reducePow]; omega)
    exact this
  have hhe : (headOf file).height.natAbs = h := hC.height
  suffices hP : Post (iLoadBitmapInternal big junk (open_ file file.length)) (fun r => r.1 = false) by
    intro e
    exact Bool.noConfusion (hP _ e : true = false)
  unfold iLoadBitmapInternal
  rw [head_at g rfl big junk h54, bind_ok]
  have gd : (open_ file file.length).data = file := rfl
  have hfour : decide ((headOf file).comp = 2) = four := by
    rw [hcm, hmet]
    cases four <;> decide
  dsimp only
  rw [gd, hc, if_neg (by decide), if_neg (by rw [hp]; decide), if_neg (by rw [hcm, hmet]; cases four <;> decide), hfour]
  unfold ilReadRleBmp
  refine post_absHeight.bind fun n hn => ?_
  subst hn
  rw [hw0.2, hhe]
  obtain ⟨m, em, c, f1, f2, f3, f4, f5, f6, f7, f8, f9, f10⟩ := init8 junk 0 (w := w) (h := h) (bpp := 1) hw0.1 hh0 (by rw [Nat.mul_one]; exact hfits)
  rw [em, bind_ok]
  dsimp only
  refine Post.bind' fun n => ?_
  have e54 : seek (adv (open_ file file.length) 54) 54 SEEK_SET = .ok (true, { (adv (open_ file file.length) 54) with pos := 54 }) :=
    seek_off (l := adv (open_ file file.length) 54) (o := 54) hsmall h54
  rw [e54, bind_ok]
  dsimp only
  have g54 : Good { (adv (open_ file file.length) 54) with pos := 54 } := ⟨g.size, h54, g.lt, g.ne⟩
  have hrd : Post (readAt { (adv (open_ file file.length) 54) with pos := 54 } (alloc junk n) 0 n 1) fun r => Same (open_ file file.length) r.2.2 := by
    unfold readAt
    refine (Post.of_holds (holds_read g54 n 1)).bind fun r hr => ?_
    exact Post.ite (fun _ => Post.pure ⟨hr.1.good, hr.1.data, hr.1.size⟩) (fun _ => Post.error _)
  refine hrd.bind fun r hr => ?_
  refine Post.ite (fun _ => Post.pure rfl) (fun _ => ?_)
  have hsz : r.2.2.size = file.length := hr.size
  rw [ho, seek_off (o := off) (by rw [hsz]; exact hsmall) (by rw [hsz]; omega), bind_ok]
  dsimp only
  have hms : m.size = h * w := by rw [f9, Nat.mul_one, Nat.mul_comm]
  have key := codes_cut (four := four) (w := w) (h := h) (by rw [Nat.mul_comm]; exact hfits) hcode hmiss cs ⟨0, 0, fun _ _ => none⟩
    ⟨0, w, m.data, { r.2.2 with pos := off }, false⟩ (r.2.2.size + 2)
    ⟨by simp, by simp, by rw [c.2.2.2, hms], Nat.zero_le _, by simp, rfl⟩ hin
    ⟨⟨hr.good.size, by show off ≤ r.2.2.size; omega, hr.good.lt, hr.good.ne⟩, by show r.2.2.data.drop off = _; rw [hr.data]; exact hcodes⟩ hlast
  have hcd : Post (Bmp.codes (stepOf four) { m with format := IL_COLOUR_INDEX, origin := originOf (headOf file) } { r.2.2 with pos := off })
      fun t => t.failed = true := by
    unfold Bmp.codes
    dsimp only
    rw [hms, f1]
    exact key
  refine Post.bind hcd fun s hs => Post.pure ?_
  show (!s.failed) = false
  rw [hs]
  rfl

/-! ### Instances and violations -/

set_option maxRecDepth 20000 in
/-- A bitmap of two rows that ends within the last one. -/
example : Announces (bmp 54 1 2 24 0 0 [1, 2, 3, 0, 4, 5]) 1 2 24 0 54 ∧ (bmp 54 1 2 24 0 0 [1, 2, 3, 0, 4, 5]).length < 54 + (2 - 1) * stride 24 1 + rowBytes 24 1 :=
  ⟨⟨⟨by decide, by decide, by decide, by decide, by decide, by decide, by decide, by decide⟩, by decide, by decide, by decide, by decide, by decide, by decide,
    by decide, by decide⟩, by decide⟩

set_option maxRecDepth 20000 in
/-- A run-length encoded bitmap that ends within literal pixels: the third is missing. -/
example (big : Bool) (junk : Nat → UInt8) (im : Option Loaded) (l : R) :
    let file := bmp 58 4 2 8 1 1 ([1, 2, 3, 0] ++ [4, 9, 0, 0, 0, 3, 7, 8])
    iLoadBitmapInternal big junk (open_ file file.length) ≠ .ok (true, im, l) :=
  C93_rle_partial big junk _ false 4 2 58
    ⟨⟨by decide, by decide, by decide, by decide, by decide, by decide, by decide, by decide⟩, by decide, by decide, by decide, by decide, by decide, by decide,
      by decide, by decide⟩ (by decide) [.run 4 9, .eol] (.lit [7, 8, 5] 0) [0, 3, 7, 8] [5, 0] (by decide) (by decide) (by decide)
    ⟨by unfold Code.Ok; decide, by unfold Code.Fits; decide, trivial, trivial, by unfold Code.Ok; decide, by unfold Code.Fits Code.exec; decide, trivial⟩ (by decide) im l

set_option maxRecDepth 20000 in
/-- **C93 (violated).** A file that ends long before the place where its pixels are announced is reported as loaded (from memory): the refused seek is
not noticed, and what follows the header is taken for the pixels. -/
theorem C93_violated_offset : ∃ file, field file 10 4 = 200 ∧ file.length = 58 ∧
    ∃ im l, iLoadBitmapInternal false (fun _ => 0) (open_ file file.length) = .ok (true, im, l) :=
  ⟨bmp 200 1 1 24 0 0 [1, 2, 3, 0], by decide, by decide, _, _, rfl⟩

end DevIL.Bmp
