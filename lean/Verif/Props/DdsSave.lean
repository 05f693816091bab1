import Verif.Lemmas.DdsSave
/-! Properties C198 to C201: saving pictures as DDS files. -/
set_option autoImplicit false
namespace DevIL.DdsSave
open DevIL.Image DevIL.Lump DevIL.Dxt DevIL.DxtSave DevIL.DetectSpec DevIL.DdsSpec DevIL.Detect DevIL.Games
open DevIL.DxtSpec (bytes)
open DevIL.Dds (Hd iLoadDdsInternal)

/-- A picture of one slice that fits into memory after decompression. -/
structure Photo (m : Img) : Prop where
  picture : DxtSave.Picture m
  depth : m.depth = 1
  small : m.width * m.height < 2 ^ 27

theorem photo_photo : Photo photo.img := ⟨photo_picture, rfl, by decide⟩

/-- `q` and `m` show the same pixels. -/
def Same (m q : Img) : Prop := m.width = q.width ∧ m.height = q.height ∧ ∀ ch x y, x < q.width → y < q.height → value m ch x y 0 = value q ch x y 0

/-- The file `bs` loads, from a file and from memory, and the image shows what `q` shows, in the format `IL_RGBA` with the upper left pixel first. -/
def Reloads (junk : Nat → UInt8) (bs : List UInt8) (w h : Nat) (q : Img) : Prop :=
  ∀ (cubeF : Hd → Cache.S → C (Bool × List Img × Cache.S)) (cubeL : Hd → Lump.R → C (Bool × List Img × Lump.R)) (cur : Img),
    Both (iLoadDdsInternal fileOps junk cubeF cur) (iLoadDdsInternal lumpOps junk cubeL cur) bs (fun ok ms => ok = true ∧ ∃ m, ms = [m] ∧ Dds.Picture m w h ∧ Same m q)

/-! ### C198: saving and loading -/

theorem bytes_small {w h : Nat} (hw : 0 < w) (hh : 0 < h) (hwh : w * h < 2 ^ 27) (fmt : Nat) : bytes (bsize fmt) w h 1 < 1073741824 := by
  have h1 : (w + 3) / 4 * 4 ≤ w + 3 := Nat.div_mul_le_self _ _
  have h2 : (h + 3) / 4 * 4 ≤ h + 3 := Nat.div_mul_le_self _ _
  have h3 := Nat.mul_le_mul h1 h2
  have h4 : bsize fmt ≤ 16 := by unfold bsize; split <;> decide
  have h5 : (w + 3) / 4 * ((h + 3) / 4) * 1 * bsize fmt ≤ (w + 3) / 4 * ((h + 3) / 4) * 1 * 16 := Nat.mul_le_mul_left _ h4
  have h6 : (w + 3) / 4 * 4 * ((h + 3) / 4 * 4) = (w + 3) / 4 * ((h + 3) / 4) * 1 * 16 := by
    generalize (w + 3) / 4 = a
    generalize (h + 3) / 4 = b
    rw [Nat.mul_mul_mul_comm, Nat.mul_one]
  have h7 : w ≤ w * h := Nat.le_mul_of_pos_right _ hh
  have h8 : h ≤ w * h := Nat.le_mul_of_pos_left _ hw
  have h9 : (w + 3) * (h + 3) = w * h + 3 * w + 3 * h + 9 := by rw [Nat.add_mul, Nat.mul_add, Nat.mul_add]; omega
  unfold bytes
  omega

/-- **C198: saving as DDS and loading.** Saving a picture with DXT1, DXT3 or DXT5 succeeds, leaves the image as it was, and writes 128 bytes and the blocks.  The file
loads, and shows exactly what `ilSurfaceToDxtcData` followed by `ilDxtcDataToSurface` shows. -/
theorem C198_saved (big : Bool) (k : Mem) (junk : Nat → UInt8) {m : Img} (h : Photo m) {fmt : Nat} (hf : fmt = IL_DXT1 ∨ fmt = IL_DXT3 ∨ fmt = IL_DXT5) :
    ∃ ops, iSaveDdsInternal big k m 0 [m] fmt = .ok (some (true, ops, [m])) ∧ (output ops).length = 128 + bytes (if fmt = IL_DXT1 then 8 else 16) m.width m.height 1 ∧
      ∀ st q, Back big k junk ⟨m, st, []⟩ fmt q → Reloads junk (output ops) m.width m.height q := by
  obtain ⟨hp, hd, hwh⟩ := h
  have hw := hp.plain.w0
  have hh := hp.plain.h0
  have hww : m.width ≤ m.width * m.height := Nat.le_mul_of_pos_right _ hh
  have hhh : m.height ≤ m.width * m.height := Nat.le_mul_of_pos_left _ hw
  obtain ⟨ops, e, _, hl, hs⟩ := save_ok big k hp hf
  rw [hd] at hl
  obtain ⟨n1, n2, n3⟩ := code_named hf
  have eo : output (writeHeader big m 0 fmt ++ ops) = head (vals m 0 fmt (codeOf fmt)) ++ output ops := by
    unfold output
    rw [List.flatMap_append]
    exact congrArg (· ++ _) (header_out big m 0 fmt _ n2 (fourCC_lt n2) (by omega) (by omega) (by omega) (by decide))
  have hlen : (output (writeHeader big m 0 fmt ++ ops)).length = 128 + bytes (bsize fmt) m.width m.height 1 := by
    rw [eo, List.length_append, head_length, vals_length, hl]
  obtain ⟨H, K, D⟩ := header_is hd hw hh hwh hf (output ops)
  rw [← eo] at H K D
  have hsm := bytes_small hw hh hwh fmt
  refine ⟨_, e, hlen, fun st q ⟨t, t1, t2⟩ cubeF cubeL cur => ?_⟩
  have ht := (hs st).symm.trans t1
  injection ht with ht
  injection ht with ht
  injection ht with _ ht
  subst ht
  have hcomp : DetectSpec.at_ (output (writeHeader big m 0 fmt ++ ops)) 128 (bytes (bsize fmt) m.width m.height 1) = output ops := by
    unfold DetectSpec.at_
    rw [eo, List.drop_append, List.drop_of_length_le (by rw [head_length, vals_length]), head_length, vals_length, List.nil_append, Nat.sub_self, List.drop_zero, ← hl, List.take_length]
  generalize output (writeHeader big m 0 fmt ++ ops) = bs at *
  have hle : 128 + bytes (bsize fmt) m.width m.height 1 ≤ bs.length := by omega
  have main : ∀ m' : Img, ilDxtcDataToSurface junk (Dds.surf junk bs m.width m.height fmt (bsize fmt)) =
      .ok (true, { Dds.surf junk bs m.width m.height fmt (bsize fmt) with img := m' }) → Dds.Picture m' m.width m.height ∧ Same m' q := by
    intro m' em
    obtain ⟨q1, g1, S1, p1⟩ := surface junk (s := Dds.surf junk bs m.width m.height fmt (bsize fmt)) (Dds.surf_complete junk hw hh hwh hle) hf
    cases Dds.unique_img g1 em
    obtain ⟨s1, s2, s3⟩ := Dds.surf_size junk bs fmt (bsize fmt) hw hh hwh
    have hbl := hp.blocks
    obtain ⟨q2, g2, S2, p2⟩ := surface junk (s := ⟨m, fmt, output ops⟩)
      ⟨hw, hh, hp.plain.d0, hp.fits, .inr hp.plain.cons.2.2.2, by rw [hd, hl]⟩ hf
    cases Dds.unique_img g2 t2
    refine ⟨Dds.picture_of hw hh hwh S1, ?_, ?_, fun ch x y hx hy => ?_⟩
    · rw [S1.width, S2.width, s1]
    · rw [S1.height, S2.height, s2]
    · rw [S2.width] at hx
      rw [S2.height] at hy
      have key : ∀ c, c < 4 → m'.px x y 0 c = q.px x y 0 c := by
        intro c hc
        rw [p1 x y 0 c ⟨by rw [s1]; exact hx, by rw [s2]; exact hy, by rw [s3]; decide⟩ hc, p2 x y 0 c ⟨hx, hy, by rw [hd]; decide⟩ hc, s1, s2]
        show some (UInt8.ofNat (dec fmt (Dxt.at_ (DetectSpec.at_ bs 128 _) _) _ _ c)) = _
        rw [hcomp]
        rfl
      unfold value top
      rw [S1.format, S1.origin, S2.format, S2.origin, if_pos rfl]
      cases ch <;> (show ((m'.px x y 0 _).getD 0).toNat = ((q.px x y 0 _).getD 0).toNat; rw [key _ (by decide)])
  obtain ⟨f, hcc, hfm⟩ : ∃ f : Dds.PF, ((letters fmt = [68, 88, 84, 49] ∧ f = .dxt1) ∨ (letters fmt = [68, 88, 84, 51] ∧ f = .dxt3) ∨
      (letters fmt = [68, 88, 84, 53] ∧ f = .dxt5)) ∧ Dds.dxtFmt f = fmt := by
    rcases hf with rfl | rfl | rfl
    · exact ⟨.dxt1, .inl ⟨rfl, rfl⟩, rfl⟩
    · exact ⟨.dxt3, .inr (.inl ⟨rfl, rfl⟩), rfl⟩
    · exact ⟨.dxt5, .inr (.inr ⟨rfl, rfl⟩), rfl⟩
  have key : ∀ ok (ms : List Img), (128 + bytes (bsize fmt) m.width m.height 1 ≤ bs.length → ok = true ∧ ∃ m', ms = [m'] ∧
      ilDxtcDataToSurface junk (Dds.surf junk bs m.width m.height fmt (bsize fmt)) = .ok (true, { Dds.surf junk bs m.width m.height fmt (bsize fmt) with img := m' })) →
      ok = true ∧ ∃ m', ms = [m'] ∧ Dds.Picture m' m.width m.height ∧ Same m' q := by
    intro ok ms hr
    obtain ⟨h1, m', h2, h3⟩ := hr hle
    exact ⟨h1, m', h2, main m' h3⟩
  exact both (by omega) (by omega)
    (fun _ h' => (Dds.dxt_load fileLaws2 junk cubeF cur h' H K hwh hcc (by rw [hfm]; exact D)).mono (fun r hr => by rw [hfm] at hr; exact ⟨key _ _ hr.1.1, hr.2⟩))
    (fun _ h' => (Dds.dxt_load lumpLaws2 junk cubeL cur h' H K hwh hcc (by rw [hfm]; exact D)).mono (fun r hr => by rw [hfm] at hr; exact ⟨key _ _ hr.1.1, hr.2⟩))

/-- The sample is saved in 160 bytes, and the file shows what compressing and decompressing it does. -/
example (big : Bool) (k : Mem) (junk : Nat → UInt8) : ∃ ops q, iSaveDdsInternal big k photo.img 0 [photo.img] IL_DXT5 = .ok (some (true, ops, [photo.img])) ∧
    (output ops).length = 160 ∧ Back big k junk photo IL_DXT5 q ∧ Reloads junk (output ops) 5 2 q := by
  obtain ⟨ops, e, hl, hr⟩ := C198_saved big k junk photo_photo (.inr (.inr rfl))
  obtain ⟨q, hb, _⟩ := C151_dxt5_alpha big k junk photo_picture
  exact ⟨ops, q, e, hl, hb, hr IL_DXT_NO_COMP q hb⟩

/-! ### C199: transparency -/

/-- What happens to the alphas `a` of a block, of which `lo` is the lowest and `hi` the highest, with each format. -/
def AlphaKept (fmt lo hi a b : Nat) : Prop :=
  if fmt = IL_DXT1 then b = if a < 128 then 0 else 255
  else if fmt = IL_DXT3 then b = 17 * (a / 16)
  else 10 * dist b a ≤ hi - lo + 4 ∧ (a = lo ∨ a = hi ∨ a = 0 ∨ a = 255 → b = a)

/-- **C199: what is left of alpha.** A picture that is saved as DDS and loaded again has the size it had, and each alpha is: with DXT1 0 or 255, with DXT3 the four leading bits,
with DXT5 at most a tenth of the range in its block away, and exact at the ends of it. -/
theorem C199_alpha (big : Bool) (k : Mem) (junk : Nat → UInt8) {m : Img} (h : Photo m) {fmt : Nat} (hf : fmt = IL_DXT1 ∨ fmt = IL_DXT3 ∨ fmt = IL_DXT5)
    (cubeF : Hd → Cache.S → C (Bool × List Img × Cache.S)) (cubeL : Hd → Lump.R → C (Bool × List Img × Lump.R)) (cur : Img) :
    ∃ ops, iSaveDdsInternal big k m 0 [m] fmt = .ok (some (true, ops, [m])) ∧
      Both (iLoadDdsInternal fileOps junk cubeF cur) (iLoadDdsInternal lumpOps junk cubeL cur) (output ops) (fun ok ms => ok = true ∧ ∃ m', ms = [m'] ∧
        Dds.Picture m' m.width m.height ∧ ∀ x y, x < m.width → y < m.height → ∀ lo hi,
          (∀ x' y', x' < m.width → y' < m.height → SameBlock x y x' y' → lo ≤ value m .alpha x' y' 0 ∧ value m .alpha x' y' 0 ≤ hi) →
          (∃ x' y', x' < m.width ∧ y' < m.height ∧ SameBlock x y x' y' ∧ value m .alpha x' y' 0 = lo) →
          (∃ x' y', x' < m.width ∧ y' < m.height ∧ SameBlock x y x' y' ∧ value m .alpha x' y' 0 = hi) →
          AlphaKept fmt lo hi (value m .alpha x y 0) (value m' .alpha x y 0)) := by
  obtain ⟨ops, e, -, hr⟩ := C198_saved big k junk h hf
  refine ⟨ops, e, ?_⟩
  have d0 : 0 < m.depth := by rw [h.depth]; decide
  have key : ∃ q, Back big k junk ⟨m, IL_DXT_NO_COMP, []⟩ fmt q ∧ q.width = m.width ∧ q.height = m.height ∧ ∀ x y, x < m.width → y < m.height → ∀ lo hi,
      (∀ x' y', x' < m.width → y' < m.height → SameBlock x y x' y' → lo ≤ value m .alpha x' y' 0 ∧ value m .alpha x' y' 0 ≤ hi) →
      AlphaKept fmt lo hi (value m .alpha x y 0) (value q .alpha x y 0) := by
    rcases hf with rfl | rfl | rfl
    · obtain ⟨q, hb, S, hq⟩ := C153_dxt1_alpha big k junk (s := ⟨m, IL_DXT_NO_COMP, []⟩) h.picture
      refine ⟨q, hb, S.width, S.height, fun x y hx hy lo hi _ => ?_⟩
      unfold AlphaKept
      rw [if_pos rfl]
      exact hq x y 0 ⟨hx, hy, d0⟩
    · obtain ⟨q, hb, S, hq⟩ := C152_dxt3_alpha_partial big k junk (s := ⟨m, IL_DXT_NO_COMP, []⟩) h.picture
      refine ⟨q, hb, S.width, S.height, fun x y hx hy lo hi _ => ?_⟩
      unfold AlphaKept
      rw [if_neg (by decide), if_pos rfl]
      exact (hq x y 0 ⟨hx, hy, d0⟩).1
    · obtain ⟨q, hb, S, hq⟩ := C151_dxt5_alpha big k junk (s := ⟨m, IL_DXT_NO_COMP, []⟩) h.picture
      refine ⟨q, hb, S.width, S.height, fun x y hx hy lo hi hr => ?_⟩
      unfold AlphaKept
      rw [if_neg (by decide), if_neg (by decide)]
      obtain ⟨g1, g2⟩ := hq x y 0 ⟨hx, hy, d0⟩
      refine ⟨g1 lo hi (fun x' y' hin sb => hr x' y' hin.1 hin.2.1 sb), fun hx' => g2 ?_⟩
      rcases hx' with e | e | e | e
      · exact .inl fun x' y' hin sb => by have := hr x' y' hin.1 hin.2.1 sb; rw [← e] at this; exact this.1
      · exact .inr (.inl fun x' y' hin sb => by have := hr x' y' hin.1 hin.2.1 sb; rw [← e] at this; exact this.2)
      · exact .inr (.inr (.inl e))
      · exact .inr (.inr (.inr e))
  obtain ⟨q, hb, qw, qh, hq⟩ := key
  have done : ∀ (ok : Bool) (ms : List Img), (ok = true ∧ ∃ m', ms = [m'] ∧ Dds.Picture m' m.width m.height ∧ Same m' q) → ok = true ∧ ∃ m', ms = [m'] ∧
        Dds.Picture m' m.width m.height ∧ ∀ x y, x < m.width → y < m.height → ∀ lo hi,
          (∀ x' y', x' < m.width → y' < m.height → SameBlock x y x' y' → lo ≤ value m .alpha x' y' 0 ∧ value m .alpha x' y' 0 ≤ hi) →
          (∃ x' y', x' < m.width ∧ y' < m.height ∧ SameBlock x y x' y' ∧ value m .alpha x' y' 0 = lo) →
          (∃ x' y', x' < m.width ∧ y' < m.height ∧ SameBlock x y x' y' ∧ value m .alpha x' y' 0 = hi) →
          AlphaKept fmt lo hi (value m .alpha x y 0) (value m' .alpha x y 0) := by
    rintro ok ms ⟨h1, m', h2, h3, h4⟩
    refine ⟨h1, m', h2, h3, fun x y hx hy lo hi hr _ _ => ?_⟩
    rw [h4.2.2 .alpha x y (by rw [qw]; exact hx) (by rw [qh]; exact hy)]
    exact hq x y hx hy lo hi hr
  obtain ⟨⟨ok, r, s', a1, a2, a3⟩, ok2, r2, b1, b2⟩ := hr IL_DXT_NO_COMP q hb cubeF cubeL cur
  exact ⟨⟨ok, r, s', a1, done _ _ a2, a3⟩, ok2, r2, b1, done _ _ b2⟩

/-- In the first block of the sample the lowest alpha is 0 and the highest 255. -/
example : ∀ x' < 5, ∀ y' < 2, (0 / 4 = x' / 4 ∧ 0 / 4 = y' / 4) → 0 ≤ value photo.img .alpha x' y' 0 ∧ value photo.img .alpha x' y' 0 ≤ 255 := by decide
example : value photo.img .alpha 2 1 0 = 0 ∧ value photo.img .alpha 1 1 0 = 255 := by decide

/-! ### C200: formats that cannot be written -/

theorem compress_none (big : Bool) (k : Mem) {m : Img} (h : DxtSave.Picture m) {fmt : Nat} (hf : fmt = IL_DXT2 ∨ fmt = IL_DXT4) :
    Compress big k m fmt = .ok (some ([], 0)) := by
  obtain ⟨d, al, e1, e2, _⟩ := both_is k.words k.bytes h
  unfold Compress
  rcases hf with rfl | rfl
  · rw [if_neg (by decide), if_neg (by decide), if_neg (by decide), e1, bind_ok, e2, bind_ok]
    dsimp only
    rw [if_neg (by decide), if_neg (by decide), if_neg (by decide)]
    rfl
  · rw [if_neg (by decide), if_neg (by decide), if_neg (by decide), e1, bind_ok, e2, bind_ok]
    dsimp only
    rw [if_neg (by decide), if_neg (by decide), if_neg (by decide)]
    rfl

/-- **C200 (part): saving with a format.** With DXT1, DXT3 and DXT5 saving succeeds and the image keeps its pixels.  Missing: DXT2 and DXT4, see the violation. -/
theorem C200_formats_partial (big : Bool) (k : Mem) {m : Img} (h : DxtSave.Picture m) {fmt : Nat} (hf : fmt = IL_DXT1 ∨ fmt = IL_DXT3 ∨ fmt = IL_DXT5) :
    ∃ ops, iSaveDdsInternal big k m 0 [m] fmt = .ok (some (true, ops, [m])) := by
  obtain ⟨ops, e, _⟩ := save_ok big k h hf
  exact ⟨_, e⟩

/-- **C200 is violated: DXT2 and DXT4.** With these formats, which `ilSetInteger` takes, saving fails for every picture, after the header has been written; and a picture that is stored
from the bottom up is left upside down. -/
theorem C200_violated_premultiplied (big : Bool) (k : Mem) {m : Img} (h : DxtSave.Picture m) {fmt : Nat} (hf : fmt = IL_DXT2 ∨ fmt = IL_DXT4) :
    ∃ ops m', iSaveDdsInternal big k m 0 [m] fmt = .ok (some (false, ops, [m'])) ∧ (output ops).length = 128 ∧
      ∀ ch x y z, x < m.width → y < m.height → z < m.depth →
        value m' ch x y z = value m ch x (if m.origin = IL_ORIGIN_UPPER_LEFT then y else m.height - 1 - y) z := by
  obtain ⟨d, ed, hm, hr⟩ := upright k.bytes h
  have lw : m.width < 4294967296 ∧ m.height < 4294967296 ∧ m.depth < 4294967296 := by
    have hfit := h.fits
    have h1 : m.width ≤ m.width * m.height := Nat.le_mul_of_pos_right _ h.plain.h0
    have h2 : m.height ≤ m.width * m.height := Nat.le_mul_of_pos_left _ h.plain.w0
    have h3 : m.width * m.height ≤ m.width * m.height * m.depth := Nat.le_mul_of_pos_right _ h.plain.d0
    have h4 : m.depth ≤ m.width * m.height * m.depth := Nat.le_mul_of_pos_left _ (Nat.mul_pos h.plain.w0 h.plain.h0)
    omega
  have hcc : ∃ cc, fourCC (named fmt) = some cc := by rcases hf with rfl | rfl <;> exact ⟨_, rfl⟩
  obtain ⟨cc, hcc⟩ := hcc
  refine ⟨writeHeader big m 0 fmt, { m with data := d }, ?_, ?_, fun ch x y z hx hy hz => ?_⟩
  · unfold iSaveDdsInternal
    show (levels big k fmt [m] [0] >>= _) = _
    unfold levels
    simp only [List.length_singleton, Nat.lt_add_one, if_true, List.getElem?_cons_zero]
    unfold level
    rw [ed, bind_ok, compress_none big k hm hf, bind_ok]
    simp only [ne_eq, not_true_eq_false, decide_false, if_true, pure_eq_ok, bind_ok, Bool.false_eq_true, if_false, List.set_cons_zero, List.append_nil]
  · rw [header_out big m 0 fmt cc hcc (fourCC_lt hcc) lw.1 lw.2.1 lw.2.2 (by decide), head_length, vals_length]
  · rw [← hr ch x _ z hx (by split <;> omega) hz]
    unfold value raw top
    rfl

/-- The sample is left upside down: its upper left pixel has the red 10, and it was 1. -/
example (big : Bool) (k : Mem) : ∃ ops m', iSaveDdsInternal big k photo.img 0 [photo.img] IL_DXT2 = .ok (some (false, ops, [m'])) ∧ value m' .red 0 0 0 = 10 ∧
    value photo.img .red 0 0 0 = 1 := by
  obtain ⟨ops, m', e, _, h⟩ := C200_violated_premultiplied big k photo_picture (.inl rfl)
  exact ⟨ops, m', e, h .red 0 0 0 (by decide) (by decide) (by decide), by decide⟩

/-! ### C201: saving an active image other than the first -/

/-- **C201 (part).** If the image that is active is the one the name stands for, the pixels in the file are its pixels: see C198.  Missing: see the violation. -/
theorem C201_base_partial (big : Bool) (k : Mem) (junk : Nat → UInt8) {m : Img} (h : Photo m) {fmt : Nat} (hf : fmt = IL_DXT1 ∨ fmt = IL_DXT3 ∨ fmt = IL_DXT5) {q : Img}
    (hq : Back big k junk ⟨m, IL_DXT_NO_COMP, []⟩ fmt q) : ∃ ops, iSaveDdsInternal big k m 0 [m] fmt = .ok (some (true, ops, [m])) ∧ Reloads junk (output ops) m.width m.height q := by
  obtain ⟨ops, e, -, hr⟩ := C198_saved big k junk h hf
  exact ⟨ops, e, hr _ q hq⟩

/-- **C201 is violated: size and pixels of different images.** If another image of the list is active, the header has the size of it but the blocks are those of the first: whenever the
active image is larger, so that it needs more blocks, saving reports success and the file cannot be loaded. -/
theorem C201_violated_active (big : Bool) (k : Mem) (junk : Nat → UInt8) {m base : Img} (h : Photo m) (hb : Photo base) {fmt : Nat}
    (hf : fmt = IL_DXT1 ∨ fmt = IL_DXT3 ∨ fmt = IL_DXT5) (hlt : bytes (bsize fmt) base.width base.height 1 < bytes (bsize fmt) m.width m.height 1)
    (cubeF : Hd → Cache.S → C (Bool × List Img × Cache.S)) (cubeL : Hd → Lump.R → C (Bool × List Img × Lump.R)) (cur : Img) :
    ∃ ops, iSaveDdsInternal big k m 0 [base] fmt = .ok (some (true, ops, [base])) ∧ (output ops).length = 128 + bytes (bsize fmt) base.width base.height 1 ∧
      Both (iLoadDdsInternal fileOps junk cubeF cur) (iLoadDdsInternal lumpOps junk cubeL cur) (output ops) (fun ok ms => ok = false ∧ ms = [cur]) := by
  obtain ⟨hp, hd, hwh⟩ := h
  have hw := hp.plain.w0
  have hh := hp.plain.h0
  have hww : m.width ≤ m.width * m.height := Nat.le_mul_of_pos_right _ hh
  have hhh : m.height ≤ m.width * m.height := Nat.le_mul_of_pos_left _ hw
  obtain ⟨ops, e, _, hl, -⟩ := level_ok big k hb.picture hf
  rw [hb.depth] at hl
  obtain ⟨n1, n2, n3⟩ := code_named hf
  have eo : output (writeHeader big m 0 fmt ++ ops) = head (vals m 0 fmt (codeOf fmt)) ++ output ops := by
    unfold output
    rw [List.flatMap_append]
    exact congrArg (· ++ _) (header_out big m 0 fmt _ n2 (fourCC_lt n2) (by omega) (by omega) (by omega) (by decide))
  have hlen : (output (writeHeader big m 0 fmt ++ ops)).length = 128 + bytes (bsize fmt) base.width base.height 1 := by
    rw [eo, List.length_append, head_length, vals_length, hl]
  obtain ⟨H, K, D⟩ := header_is hd hw hh hwh hf (output ops)
  rw [← eo] at H K D
  have hsm := bytes_small hw hh hwh fmt
  refine ⟨writeHeader big m 0 fmt ++ ops, ?_, hlen, ?_⟩
  · unfold iSaveDdsInternal
    show (levels big k fmt [base] [0] >>= _) = _
    unfold levels levels
    simp only [List.length_singleton, Nat.lt_add_one, if_true, List.getElem?_cons_zero]
    rw [e, bind_ok]
    simp only [if_true, pure_eq_ok, bind_ok, List.append_nil]
  generalize output (writeHeader big m 0 fmt ++ ops) = bs at *
  obtain ⟨f, hcc, hfm⟩ : ∃ f : Dds.PF, ((letters fmt = [68, 88, 84, 49] ∧ f = .dxt1) ∨ (letters fmt = [68, 88, 84, 51] ∧ f = .dxt3) ∨
      (letters fmt = [68, 88, 84, 53] ∧ f = .dxt5)) ∧ Dds.dxtFmt f = fmt := by
    rcases hf with rfl | rfl | rfl
    · exact ⟨.dxt1, .inl ⟨rfl, rfl⟩, rfl⟩
    · exact ⟨.dxt3, .inr (.inl ⟨rfl, rfl⟩), rfl⟩
    · exact ⟨.dxt5, .inr (.inr ⟨rfl, rfl⟩), rfl⟩
  exact both (by omega) (by omega)
    (fun _ h' => (Dds.dxt_load fileLaws2 junk cubeF cur h' H K hwh hcc (by rw [hfm]; exact D)).mono (fun r hr => by rw [hfm] at hr; exact ⟨hr.1.2 (by omega), hr.2⟩))
    (fun _ h' => (Dds.dxt_load lumpLaws2 junk cubeL cur h' H K hwh hcc (by rw [hfm]; exact D)).mono (fun r hr => by rw [hfm] at hr; exact ⟨hr.1.2 (by omega), hr.2⟩))

/-- The sample as the second of two images; the first is a picture of two pixels. -/
example : Photo photo.img ∧ Photo flag.img ∧ bytes (bsize IL_DXT5) flag.img.width flag.img.height 1 < bytes (bsize IL_DXT5) photo.img.width photo.img.height 1 :=
  ⟨photo_photo, ⟨flag_picture, rfl, by decide⟩, by decide⟩

end DevIL.DdsSave
