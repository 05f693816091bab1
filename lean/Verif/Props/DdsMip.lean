import Verif.Props.DdsSave
import Verif.Lemmas.DdsM
/-! Properties C202 and C203: DDS files with mipmaps. -/
set_option autoImplicit false
namespace DevIL.DdsSave
open DevIL.Image DevIL.Lump DevIL.Dxt DevIL.DxtSave DevIL.DetectSpec DevIL.DdsSpec DevIL.Detect DevIL.Games
open DevIL.DxtSpec (bytes)
open DevIL.Dds (Hd iLoadDdsInternal LevelAt mip_load)

/-- The codes of the formats. -/
def Coded (fmt : Nat) (cc : List UInt8) : Prop :=
  (fmt = IL_DXT1 ∧ cc = [68, 88, 84, 49]) ∨ (fmt = IL_DXT3 ∧ cc = [68, 88, 84, 51]) ∨ (fmt = IL_DXT5 ∧ cc = [68, 88, 84, 53])

theorem coded_pf {fmt : Nat} {cc : List UInt8} (h : Coded fmt cc) :
    ∃ f : Dds.PF, ((cc = [68, 88, 84, 49] ∧ f = .dxt1) ∨ (cc = [68, 88, 84, 51] ∧ f = .dxt3) ∨ (cc = [68, 88, 84, 53] ∧ f = .dxt5)) ∧ Dds.dxtFmt f = fmt := by
  rcases h with ⟨rfl, rfl⟩ | ⟨rfl, rfl⟩ | ⟨rfl, rfl⟩
  · exact ⟨.dxt1, .inl ⟨rfl, rfl⟩, rfl⟩
  · exact ⟨.dxt3, .inr (.inl ⟨rfl, rfl⟩), rfl⟩
  · exact ⟨.dxt5, .inr (.inr ⟨rfl, rfl⟩), rfl⟩

/-- `m` is the picture that `ilDxtcDataToSurface` makes of the blocks of `w` by `h` pixels at `p`. -/
def Made (junk : Nat → UInt8) (bs : List UInt8) (fmt p w h : Nat) (m : Img) : Prop :=
  Dds.Picture m w h ∧ ∃ m0 : Img, m0.width = w ∧ m0.height = h ∧ m0.depth = 1 ∧
    ilDxtcDataToSurface junk ⟨m0, fmt, DetectSpec.at_ bs p (bytes (bsize fmt) w h 1)⟩ = .ok (true, ⟨m, fmt, DetectSpec.at_ bs p (bytes (bsize fmt) w h 1)⟩)

theorem made {junk : Nat → UInt8} {bs : List UInt8} {fmt p w h : Nat} {m : Img} (hfmt : fmt = IL_DXT1 ∨ fmt = IL_DXT3 ∨ fmt = IL_DXT5) (hl : LevelAt junk bs fmt p w h m) :
    Made junk bs fmt p w h m := by
  obtain ⟨m0, h1, h2, h3, h4, h5⟩ := hl
  obtain ⟨q, g, S, -⟩ := surface junk (s := ⟨m0, fmt, DetectSpec.at_ bs p (bytes (bsize fmt) w h 1)⟩) h4 hfmt
  cases Dds.unique_img g h5
  exact ⟨⟨S.consistent, S.width.trans h1, S.height.trans h2, S.depth.trans h3, S.bpp, S.bpc, S.format, S.type, S.origin⟩, m0, h1, h2, h3, h5⟩

/-! ### C202: loading mipmaps -/

/-- **C202 (part): loading a DDS file with mipmaps.** A complete file with `n` levels of DXT1, DXT3 or DXT5 data gives an image with `n - 1` mipmaps; the sides of each level are half
of those of the level before, and at least 1; each level shows what `ilDxtcDataToSurface` makes of its own blocks.  If blocks are missing, the loader fails.  Missing: the other formats,
and what is left in the bound image then, see the violation. -/
theorem C202_levels_partial (junk : Nat → UInt8) (cubeF : Hd → Cache.S → C (Bool × List Img × Cache.S)) (cubeL : Hd → Lump.R → C (Bool × List Img × Lump.R)) (cur : Img)
    (bs : List UInt8) (hl : bs.length < 2147483648) {w h n fmt : Nat} {cc : List UInt8} (H : MipHeader bs w h n) (K : Code bs cc) (hc : Coded fmt cc) (hwh : w * h < 2 ^ 27)
    (hsize : Declares bs (bytes (bsize fmt) w h 1)) :
    Both (iLoadDdsInternal fileOps junk cubeF cur) (iLoadDdsInternal lumpOps junk cubeL cur) bs (fun ok ms =>
      (levelStart (bsize fmt) w h n ≤ bs.length → ok = true ∧ ms.length = n ∧ ∀ (i : Nat) m, ms[i]? = some m → Made junk bs fmt (levelStart (bsize fmt) w h i) (side w i) (side h i) m) ∧
      (bs.length < levelStart (bsize fmt) w h n → ok = false)) := by
  obtain ⟨f, hcc, rfl⟩ := coded_pf hc
  have hfm : Dds.dxtFmt f = IL_DXT1 ∨ Dds.dxtFmt f = IL_DXT3 ∨ Dds.dxtFmt f = IL_DXT5 := by rcases hcc with h | h | h <;> (rw [h.2]; decide)
  exact both (by have := H.len; omega) hl
    (fun _ h' => (mip_load fileLaws2 junk cubeF cur h' H K hwh hcc hsize).mono (fun r hr =>
      ⟨⟨fun h => ⟨(hr.1.1 h).1, (hr.1.1 h).2.1, fun i m hi => made hfm ((hr.1.1 h).2.2 i m hi)⟩, hr.1.2.1⟩, hr.2⟩))
    (fun _ h' => (mip_load lumpLaws2 junk cubeL cur h' H K hwh hcc hsize).mono (fun r hr =>
      ⟨⟨fun h => ⟨(hr.1.1 h).1, (hr.1.1 h).2.1, fun i m hi => made hfm ((hr.1.1 h).2.2 i m hi)⟩, hr.1.2.1⟩, hr.2⟩))

/-- **C202 is violated: mipmaps that are missing.** For every file whose first level is complete and a mipmap is not, the loader reports a failure, but the bound image has been replaced
by the first level. -/
theorem C202_violated_missing (junk : Nat → UInt8) (cubeF : Hd → Cache.S → C (Bool × List Img × Cache.S)) (cubeL : Hd → Lump.R → C (Bool × List Img × Lump.R)) (cur : Img)
    (bs : List UInt8) (hl : bs.length < 2147483648) {w h n fmt : Nat} {cc : List UInt8} (H : MipHeader bs w h n) (K : Code bs cc) (hc : Coded fmt cc) (hwh : w * h < 2 ^ 27)
    (hsize : Declares bs (bytes (bsize fmt) w h 1)) (h1 : levelStart (bsize fmt) w h 1 ≤ bs.length) (h2 : bs.length < levelStart (bsize fmt) w h n) :
    Both (iLoadDdsInternal fileOps junk cubeF cur) (iLoadDdsInternal lumpOps junk cubeL cur) bs (fun ok ms => ok = false ∧ ∃ m, ms = [m] ∧ Made junk bs fmt 128 w h m) := by
  obtain ⟨f, hcc, rfl⟩ := coded_pf hc
  have hfm : Dds.dxtFmt f = IL_DXT1 ∨ Dds.dxtFmt f = IL_DXT3 ∨ Dds.dxtFmt f = IL_DXT5 := by rcases hcc with h | h | h <;> (rw [h.2]; decide)
  exact both (by have := H.len; omega) hl
    (fun _ h' => (mip_load fileLaws2 junk cubeF cur h' H K hwh hcc hsize).mono (fun r hr =>
      ⟨⟨hr.1.2.1 h2, by obtain ⟨m, a, b⟩ := hr.1.2.2 h1 h2; exact ⟨m, a, made hfm b⟩⟩, hr.2⟩))
    (fun _ h' => (mip_load lumpLaws2 junk cubeL cur h' H K hwh hcc hsize).mono (fun r hr =>
      ⟨⟨hr.1.2.1 h2, by obtain ⟨m, a, b⟩ := hr.1.2.2 h1 h2; exact ⟨m, a, made hfm b⟩⟩, hr.2⟩))

/-! ### C203: saving and loading mipmaps -/

/-- The header of a picture with mipmaps. -/
theorem header_mips {m : Img} (hd : m.depth = 1) (hw : 0 < m.width) (hh : 0 < m.height) (hwh : m.width * m.height < 2 ^ 27) {fmt : Nat} (hf : fmt = IL_DXT1 ∨ fmt = IL_DXT3 ∨ fmt = IL_DXT5)
    {mips : Nat} (hm : mips + 1 < 4294967296) (tail : List UInt8) :
    MipHeader (head (vals m mips fmt (codeOf fmt)) ++ tail) m.width m.height (mips + 1) ∧ Code (head (vals m mips fmt (codeOf fmt)) ++ tail) (letters fmt) ∧
      Declares (head (vals m mips fmt (codeOf fmt)) ++ tail) (bytes (bsize fmt) m.width m.height 1) := by
  have hww : m.width ≤ m.width * m.height := Nat.le_mul_of_pos_right _ hh
  have hhh : m.height ≤ m.width * m.height := Nat.le_mul_of_pos_left _ hw
  obtain ⟨n1, n2, n3⟩ := code_named hf
  have hfl : flags1 m = 0xA1007 := by unfold flags1; rw [hd]; rfl
  have g : ∀ {i v : Nat}, (vals m mips fmt (codeOf fmt))[i]? = some v → v < 4294967296 → leAt (head (vals m mips fmt (codeOf fmt)) ++ tail) (4 + 4 * i) 4 = v := fun h hv => leAt_head h hv
  have gf := g (i := 1) rfl (flags1_lt m)
  refine ⟨⟨?_, rfl, g (i := 0) rfl (by decide), g (i := 18) rfl (by decide), g (i := 3) rfl (by omega), g (i := 2) rfl (by omega), hw, hh, ?_, ?_, ?_, Nat.succ_pos _, ?_, ?_⟩, ⟨?_, ?_⟩,
    .inr (.inr ⟨?_, ?_⟩)⟩
  · rw [List.length_append, head_length, vals_length]; omega
  · rw [show (24 : Nat) = 4 + 4 * 5 from rfl, g (i := 5) rfl (by rw [hd]; decide), hd]; decide
  · rw [show (8 : Nat) = 4 + 4 * 1 from rfl, gf, hfl]; decide
  · exact g (i := 6) rfl hm
  · rw [show (112 : Nat) = 4 + 4 * 27 from rfl, g (i := 27) rfl (by rw [hd]; decide), hd]; decide
  · rw [show (104 : Nat) = 4 + 4 * 25 from rfl, g (i := 25) rfl (by decide)]; decide
  · rw [show (80 : Nat) = 4 + 4 * 19 from rfl, g (i := 19) rfl (by decide)]; decide
  · rw [← n3]; exact at_head (i := 20) rfl
  · rw [show (8 : Nat) = 4 + 4 * 1 from rfl, gf, hfl]; decide
  · rw [show (20 : Nat) = 4 + 4 * 4 from rfl, g (i := 4) rfl (linear_lt _ _), n1]; exact linear_eq hd hw hh hwh hf

/-- What is written for level `i`. -/
def comp (big : Bool) (k : Mem) (fmt : Nat) (chain : List Img) (i : Nat) : List UInt8 :=
  match chain[i]? with
  | none => []
  | some m => match level big k m fmt with
    | .ok (some (ops, _, _)) => output ops
    | _ => []

theorem comp_is (big : Bool) (k : Mem) {fmt : Nat} (hf : fmt = IL_DXT1 ∨ fmt = IL_DXT3 ∨ fmt = IL_DXT5) {chain : List Img} {i : Nat} {m : Img} (hi : chain[i]? = some m) (hm : DxtSave.Picture m) :
    ∃ ops, level big k m fmt = .ok (some (ops, true, m)) ∧ output ops = comp big k fmt chain i ∧ (comp big k fmt chain i).length = bytes (bsize fmt) m.width m.height m.depth ∧
      ∀ st, ilSurfaceToDxtcData big k ⟨m, st, []⟩ fmt = .ok (some (true, ⟨m, fmt, comp big k fmt chain i⟩)) := by
  obtain ⟨ops, e, -, hl, hs⟩ := level_ok big k hm hf
  have : output ops = comp big k fmt chain i := by unfold comp; rw [hi]; simp only; rw [e]
  refine ⟨ops, e, this, by rw [← this]; exact hl, fun st => by rw [← this]; exact hs st⟩

theorem levels_ok (big : Bool) (k : Mem) {fmt : Nat} (hf : fmt = IL_DXT1 ∨ fmt = IL_DXT3 ∨ fmt = IL_DXT5) {chain : List Img} (hc : ∀ m ∈ chain, DxtSave.Picture m) (ns : List Nat)
    (hn : ∀ n ∈ ns, n < chain.length) : ∃ ops, levels big k fmt chain ns = .ok (some (true, ops, chain)) ∧ output ops = ns.flatMap (comp big k fmt chain) := by
  induction ns with
  | nil => exact ⟨[], rfl, rfl⟩
  | cons n ns ih =>
    obtain ⟨ops, e, ho⟩ := ih (fun x hx => hn x (List.mem_cons_of_mem _ hx))
    have hlt := hn n List.mem_cons_self
    have hi : chain[n]? = some chain[n] := List.getElem?_eq_getElem hlt
    obtain ⟨o1, e1, h1, -⟩ := comp_is big k hf hi (hc _ (List.getElem_mem hlt))
    refine ⟨o1 ++ ops, ?_, ?_⟩
    · unfold levels
      simp only [hlt, if_true, hi]
      rw [e1, bind_ok]
      simp only [if_true]
      rw [e, bind_ok]
      rfl
    · unfold output
      rw [List.flatMap_append, List.flatMap_cons]
      exact congr (congrArg _ h1) ho

/-- A chain of mipmaps: `m` of one slice, and each of the others with sides that are half of those before, and at least 1. -/
structure Chain (chain : List Img) (m : Img) : Prop where
  first : chain[0]? = some m
  photo : ∀ q ∈ chain, Photo q
  sides : ∀ i q, chain[i]? = some q → q.width = side m.width i ∧ q.height = side m.height i
  short : chain.length < 4294967296

theorem flat_at {comp : Nat → List UInt8} {len : Nat → Nat} {n : Nat} (hl : ∀ i, i < n → (comp i).length = len i) (i : Nat) (hi : i < n) :
    DetectSpec.at_ ((List.range n).flatMap comp) ((List.range i).map len).sum (len i) = comp i := by
  have hsum : ∀ j, j ≤ n → ((List.range j).flatMap comp).length = ((List.range j).map len).sum := by
    intro j
    induction j with
    | zero => intro _; rfl
    | succ j ih =>
      intro hj
      rw [List.range_succ, List.flatMap_append, List.length_append, ih (by omega), List.map_append, List.sum_append, List.flatMap_singleton, hl j (by omega)]
      simp
  obtain ⟨d, rfl⟩ : ∃ d, n = i + 1 + d := ⟨n - (i + 1), by omega⟩
  unfold DetectSpec.at_
  rw [List.range_add, List.range_succ, List.flatMap_append, List.flatMap_append, List.append_assoc, ← hsum i (by omega), List.drop_left, List.flatMap_singleton, ← hl i (by omega), List.take_left]

theorem flat_length {comp : Nat → List UInt8} {len : Nat → Nat} (n : Nat) (hl : ∀ i, i < n → (comp i).length = len i) :
    ((List.range n).flatMap comp).length = ((List.range n).map len).sum := by
  induction n with
  | zero => rfl
  | succ j ih =>
    rw [List.range_succ, List.flatMap_append, List.length_append, ih (fun i hi => hl i (by omega)), List.map_append, List.sum_append, List.flatMap_singleton, hl j (by omega)]
    simp

/-- **C203: saving and loading mipmaps.** Saving a picture with its mipmaps with DXT1, DXT3 or DXT5 succeeds and changes none of them.  The file loads with as many levels, and each of
them shows exactly what `ilSurfaceToDxtcData` followed by `ilDxtcDataToSurface` shows for it. -/
theorem C203_mipmaps (big : Bool) (k : Mem) (junk : Nat → UInt8) {chain : List Img} {m : Img} (h : Chain chain m) {fmt : Nat} (hf : fmt = IL_DXT1 ∨ fmt = IL_DXT3 ∨ fmt = IL_DXT5)
    (hsmall : levelStart (bsize fmt) m.width m.height chain.length < 2147483648)
    (cubeF : Hd → Cache.S → C (Bool × List Img × Cache.S)) (cubeL : Hd → Lump.R → C (Bool × List Img × Lump.R)) (cur : Img) :
    ∃ ops, iSaveDdsInternal big k m (chain.length - 1) chain fmt = .ok (some (true, ops, chain)) ∧
      Both (iLoadDdsInternal fileOps junk cubeF cur) (iLoadDdsInternal lumpOps junk cubeL cur) (output ops) (fun ok ms => ok = true ∧ ms.length = chain.length ∧
        ∀ (i : Nat) m' q0 q st, ms[i]? = some m' → chain[i]? = some q0 → Back big k junk ⟨q0, st, []⟩ fmt q → Same m' q) := by
  have hlen : 0 < chain.length := by
    have := h.first
    rcases Nat.eq_zero_or_pos chain.length with h0 | h0
    · rw [List.getElem?_eq_none (by omega)] at this; cases this
    · exact h0
  have hmem : m ∈ chain := List.mem_of_getElem? h.first
  obtain ⟨hp, hd, hwh⟩ := h.photo m hmem
  have hw := hp.plain.w0
  have hh := hp.plain.h0
  have hww : m.width ≤ m.width * m.height := Nat.le_mul_of_pos_right _ hh
  have hhh : m.height ≤ m.width * m.height := Nat.le_mul_of_pos_left _ hw
  have hlc := h.short
  obtain ⟨ops, e, ho⟩ := levels_ok big k hf (fun q hq => (h.photo q hq).picture) (List.range chain.length) (fun n hn => List.mem_range.mp hn)
  obtain ⟨n1, n2, n3⟩ := code_named hf
  have eo : output (writeHeader big m (chain.length - 1) fmt ++ ops) = head (vals m (chain.length - 1) fmt (codeOf fmt)) ++ (List.range chain.length).flatMap (comp big k fmt chain) := by
    rw [← ho]
    unfold output
    rw [List.flatMap_append]
    exact congrArg (· ++ _) (header_out big m _ fmt _ n2 (fourCC_lt n2) (by omega) (by omega) (by omega) (by omega))
  have hcl : ∀ i, i < chain.length → (comp big k fmt chain i).length = levelBytes (bsize fmt) m.width m.height i := by
    intro i hi
    have hg : chain[i]? = some chain[i] := List.getElem?_eq_getElem hi
    have hph := h.photo _ (List.getElem_mem hi)
    obtain ⟨_, _, _, hl, _⟩ := comp_is big k hf hg hph.picture
    rw [hl, hph.depth, (h.sides i _ hg).1, (h.sides i _ hg).2]
    rfl
  have hbl : (output (writeHeader big m (chain.length - 1) fmt ++ ops)).length = levelStart (bsize fmt) m.width m.height chain.length := by
    rw [eo, List.length_append, head_length, vals_length, flat_length _ hcl]
    rfl
  have hat : ∀ i, i < chain.length → DetectSpec.at_ (output (writeHeader big m (chain.length - 1) fmt ++ ops)) (levelStart (bsize fmt) m.width m.height i) (levelBytes (bsize fmt) m.width m.height i) =
      comp big k fmt chain i := by
    intro i hi
    rw [← flat_at hcl i hi, eo]
    unfold DetectSpec.at_ levelStart
    rw [List.drop_append, List.drop_of_length_le (by rw [head_length, vals_length]; omega), head_length, vals_length, List.nil_append, Nat.add_sub_cancel_left]
  obtain ⟨H, K, D⟩ := header_mips hd hw hh hwh hf (mips := chain.length - 1) (by omega) ((List.range chain.length).flatMap (comp big k fmt chain))
  rw [← eo, show chain.length - 1 + 1 = chain.length by omega] at H
  rw [← eo] at K D
  refine ⟨writeHeader big m (chain.length - 1) fmt ++ ops, ?_, ?_⟩
  · unfold iSaveDdsInternal
    rw [show chain.length - 1 + 1 = chain.length by omega, e, bind_ok]
    rfl
  generalize output (writeHeader big m (chain.length - 1) fmt ++ ops) = bs at *
  have hcd : Coded fmt (letters fmt) := by
    rcases hf with rfl | rfl | rfl
    · exact .inl ⟨rfl, rfl⟩
    · exact .inr (.inl ⟨rfl, rfl⟩)
    · exact .inr (.inr ⟨rfl, rfl⟩)
  have main : ∀ (ok : Bool) (ms : List Img), (levelStart (bsize fmt) m.width m.height chain.length ≤ bs.length → ok = true ∧ ms.length = chain.length ∧
      ∀ (i : Nat) m', ms[i]? = some m' → LevelAt junk bs fmt (levelStart (bsize fmt) m.width m.height i) (side m.width i) (side m.height i) m') →
      ok = true ∧ ms.length = chain.length ∧ ∀ (i : Nat) m' q0 q st, ms[i]? = some m' → chain[i]? = some q0 → Back big k junk ⟨q0, st, []⟩ fmt q → Same m' q := by
    intro ok ms hr
    obtain ⟨r1, r2, r3⟩ := hr (by omega)
    refine ⟨r1, r2, fun i m' q0 q st hi hci ⟨t, t1, t2⟩ => ?_⟩
    have hilt : i < chain.length := by
      rcases Nat.lt_or_ge i chain.length with h | h
      · exact h
      · rw [List.getElem?_eq_none h] at hci; cases hci
    have hq0 := h.photo q0 (List.mem_of_getElem? hci)
    obtain ⟨_, _, _, _, hs⟩ := comp_is big k hf hci hq0.picture
    have ht := (hs st).symm.trans t1
    injection ht with ht
    injection ht with ht
    injection ht with _ ht
    subst ht
    obtain ⟨m0, a1, a2, a3, a4, a5⟩ := r3 i m' hi
    have hc := hat i hilt
    unfold levelBytes at hc
    rw [hc] at a4 a5
    obtain ⟨s1, s2⟩ := h.sides i q0 hci
    obtain ⟨g1, g1e, S1, p1⟩ := surface junk (s := ⟨m0, fmt, comp big k fmt chain i⟩) a4 hf
    cases Dds.unique_img g1e a5
    obtain ⟨g2, g2e, S2, p2⟩ := surface junk (s := ⟨q0, fmt, comp big k fmt chain i⟩)
      ⟨hq0.picture.plain.w0, hq0.picture.plain.h0, hq0.picture.plain.d0, hq0.picture.fits, .inr hq0.picture.plain.cons.2.2.2, by
        rw [hcl i hilt, hq0.depth]
        unfold levelBytes
        rw [s1, s2]⟩ hf
    cases Dds.unique_img g2e t2
    refine ⟨?_, ?_, fun ch x y hx hy => ?_⟩
    · rw [S1.width, S2.width]; exact a1.trans s1.symm
    · rw [S1.height, S2.height]; exact a2.trans s2.symm
    · rw [S2.width] at hx
      rw [S2.height] at hy
      have key : ∀ c, c < 4 → m'.px x y 0 c = q.px x y 0 c := by
        intro c hc
        rw [p1 x y 0 c ⟨by show x < m0.width; rw [a1, ← s1]; exact hx, by show y < m0.height; rw [a2, ← s2]; exact hy, by show 0 < m0.depth; rw [a3]; decide⟩ hc,
          p2 x y 0 c ⟨hx, hy, by rw [hq0.depth]; decide⟩ hc]
        show some (UInt8.ofNat (dec fmt (Dxt.at_ (comp big k fmt chain i) (boff fmt m0.width m0.height 0 y x)) _ _ c)) =
          some (UInt8.ofNat (dec fmt (Dxt.at_ (comp big k fmt chain i) (boff fmt q0.width q0.height 0 y x)) _ _ c))
        rw [a1, a2, s1, s2]
      unfold value top
      rw [S1.format, S1.origin, S2.format, S2.origin, if_pos rfl]
      cases ch <;> (show ((m'.px x y 0 _).getD 0).toNat = ((q.px x y 0 _).getD 0).toNat; rw [key _ (by decide)])
  obtain ⟨f, hcc, rfl⟩ := coded_pf hcd
  exact both (by have := H.len; omega) (by omega)
    (fun _ h' => (mip_load fileLaws2 junk cubeF cur h' H K hwh hcc D).mono (fun r hr => ⟨main _ _ hr.1.1, hr.2⟩))
    (fun _ h' => (mip_load lumpLaws2 junk cubeL cur h' H K hwh hcc D).mono (fun r hr => ⟨main _ _ hr.1.1, hr.2⟩))

/-- The sample with a mipmap of 2x1 pixels. -/
theorem sample_chain : Chain [photo.img, flag.img] photo.img where
  first := rfl
  photo := by
    intro q hq
    simp only [List.mem_cons, List.not_mem_nil, or_false] at hq
    rcases hq with rfl | rfl
    · exact photo_photo
    · exact ⟨flag_picture, rfl, by decide⟩
  sides := by
    intro i q h
    match i, h with
    | 0, h => cases h; decide
    | 1, h => cases h; decide
  short := by decide

example : levelStart (bsize IL_DXT5) photo.img.width photo.img.height 2 = 176 := by decide

/-- A file as C202 takes it: the header of the sample with one mipmap, and the blocks; and one in which the mipmap is cut off. -/
example (n : Nat) (hn : n = 48 ∨ n = 47) : let bs := head (vals photo.img 1 IL_DXT5 (codeOf IL_DXT5)) ++ List.replicate n 7
    MipHeader bs 5 2 2 ∧ Code bs [68, 88, 84, 53] ∧ Declares bs 32 ∧ levelStart (bsize IL_DXT5) 5 2 1 ≤ bs.length ∧ (bs.length < levelStart (bsize IL_DXT5) 5 2 2 ↔ n = 47) := by
  obtain ⟨a, b, c⟩ := header_mips (m := photo.img) rfl (by decide) (by decide) (by decide) (fmt := IL_DXT5) (.inr (.inr rfl)) (mips := 1) (by decide) (List.replicate n 7)
  refine ⟨a, b, c, ?_, ?_⟩
  · rw [List.length_append, head_length, vals_length, List.length_replicate, show levelStart (bsize IL_DXT5) 5 2 1 = 160 by decide]; omega
  · rw [List.length_append, head_length, vals_length, List.length_replicate, show levelStart (bsize IL_DXT5) 5 2 2 = 176 by decide]; omega

end DevIL.DdsSave
