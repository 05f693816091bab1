import Verif.Lemmas.FilterB
/-! Properties C157 (block averages), C158 (block averages of wide components), C159 (3x3 filters), C160 (blurring), C161 (edge detection). -/
set_option autoImplicit false
namespace DevIL.Filter
open DevIL.FilterSpec Utility

/-- A picture of bytes for the examples. -/
def gray (w h : Nat) (d : List UInt8) : Img :=
  { width := w, height := h, depth := 1, bpp := 1, bpc := 1, bps := w, plane := w * h, size := w * h, format := IL_LUMINANCE, type := IL_UNSIGNED_BYTE,
    origin := IL_ORIGIN_UPPER_LEFT, data := d }

theorem gray_bytes {w h : Nat} {d : List UInt8} (hw : 0 < w) (hh : 0 < h) (hl : d.length = w * h) (hs : w * h < 2 ^ 31) : Bytes (gray w h d) := by
  refine ⟨⟨?_, ?_, ?_, hl⟩, rfl, hw, hh, Nat.one_pos, Nat.one_pos, hs⟩ <;> simp [gray]

/-! ### C157 -/

/-- The places of a block are those with the same quotient. -/
theorem mem_span {n p v a : Nat} (hp : 0 < p) : a ∈ span n p v ↔ a < n ∧ a / p = v / p := by
  unfold span
  rw [List.mem_range'_1]
  have h1 := Nat.div_add_mod a p
  have h2 := Nat.mod_lt a hp
  constructor
  · rintro ⟨a1, a2⟩
    refine ⟨by omega, ?_⟩
    rw [Nat.div_eq_iff hp]; omega
  · rintro ⟨a1, a2⟩
    rw [← a2, Nat.mul_comm]
    omega

theorem u32_small {a : Nat} (h : a < 2 ^ 32) : u32 a = a := u32_of_lt (by omega)

theorem sum_le {l : List Nat} (h : ∀ a ∈ l, a ≤ 255) : l.sum ≤ 255 * l.length := by
  induction l with
  | nil => simp
  | cons a l ih =>
    have := h a (by simp)
    have := ih (fun b hb => h b (by simp [hb]))
    rw [List.sum_cons, List.length_cons]; omega

theorem vals_le {m : Img} {p zb yb xb c : Nat} : ∀ a ∈ vals m p zb yb xb c, a ≤ 255 := by
  intro a ha
  unfold vals at ha
  simp only [List.mem_flatMap, List.mem_map] at ha
  obtain ⟨_, _, _, _, _, _, v, _, rfl⟩ := ha
  have := v.toNat_lt
  omega

theorem pixelize_ok (mean8 : Nat → Nat → Nat) {m : Img} (h : Bytes m) {mask : Option (List UInt8)} (hmask : ∀ r, mask = some r → r.length = m.width * m.height)
    (pixSize : Nat) : ∃ m', iluPixelize mean8 m mask pixSize = .ok m' ∧ m.SameShape m' ∧ m'.origin = m.origin ∧
      ∀ x y z c, m.In x y z c →
        (selected mask m.width x y → m'.px x y z c = some (UInt8.ofNat (u32 (blockVals m (max 1 pixSize) x y z c).sum / u32 (blockVals m (max 1 pixSize) x y z c).length))) ∧
        (¬ selected mask m.width x y → m'.px x y z c = m.px x y z c) := by
  have hp : (if pixSize = 0 then 1 else pixSize) = max 1 pixSize := by split <;> omega
  obtain ⟨d, e, l, s⟩ := pixelBytes_ok h hmask (p := max 1 pixSize) (by omega)
  refine ⟨{ m with data := d }, ?_, ⟨rfl, l⟩, rfl, ?_⟩
  · unfold iluPixelize
    simp only [hp]
    rw [if_pos h.bpc, e]; rfl
  · rintro x y z c ⟨hx, hy, hz, hc⟩
    rw [h.bpc, Nat.mul_one] at hc
    have e1 : ({ m with data := d } : Img).px x y z c = d[pos m.width m.height m.bpp z y x c]? := by
      unfold Img.px pos
      simp only [h.bpc, Nat.mul_one]
    rw [e1, h.px, blockVals_eq]
    exact s z y x c hz hy hx hc

/-- **C157.** On an image of bytes, `iluPixelize` with blocks of `pixSize` gives every component of every pixel of the region (of every pixel, when no region is
set) the mean of that component over its block, without the fraction; it leaves all else.  The pixels of a block are those whose coordinates have the same
quotient by `pixSize` (`mem_span`); 0 counts as 1.  Missing, because false (`C157_violated_large`): blocks so large that the sum could pass 2^32. -/
theorem C157_average_partial (mean8 : Nat → Nat → Nat) {m : Img} (h : Bytes m) {mask : Option (List UInt8)}
    (hmask : ∀ r, mask = some r → r.length = m.width * m.height) (pixSize : Nat) :
    ∃ m', iluPixelize mean8 m mask pixSize = .ok m' ∧ m.SameShape m' ∧ m'.origin = m.origin ∧
      ∀ x y z c, m.In x y z c →
        (selected mask m.width x y → 255 * (blockVals m (max 1 pixSize) x y z c).length < 2 ^ 32 →
          m'.px x y z c = some (UInt8.ofNat (mean (blockVals m (max 1 pixSize) x y z c)))) ∧
        (¬ selected mask m.width x y → m'.px x y z c = m.px x y z c) := by
  obtain ⟨m', e, s, o, hx⟩ := pixelize_ok mean8 h hmask pixSize
  refine ⟨m', e, s, o, fun x y z c hin => ⟨fun hsel hlt => ?_, (hx x y z c hin).2⟩⟩
  rw [(hx x y z c hin).1 hsel]
  rw [blockVals_eq] at hlt ⊢
  have := sum_le (vals_le (m := m) (p := max 1 pixSize) (zb := z / max 1 pixSize) (yb := y / max 1 pixSize) (xb := x / max 1 pixSize) (c := c))
  rw [u32_small (by omega), u32_small (by omega)]
  rfl

/-- **C157.** Blocks of one pixel, or of none, change nothing. -/
theorem C157_one (mean8 : Nat → Nat → Nat) {m : Img} (h : Bytes m) {mask : Option (List UInt8)}
    (hmask : ∀ r, mask = some r → r.length = m.width * m.height) {pixSize : Nat} (hp : pixSize ≤ 1) : iluPixelize mean8 m mask pixSize = .ok m := by
  obtain ⟨m', e, s, o, hx⟩ := C157_average_partial mean8 h hmask pixSize
  rw [e]
  have hd : m'.data = m.data := by
    refine Img.data_ext h.consistent s (fun x y z c hin => ?_)
    by_cases hsel : selected mask m.width x y
    · obtain ⟨ix, iy, iz, ic⟩ := hin
      have ic' := ic
      rw [h.bpc, Nat.mul_one] at ic'
      obtain ⟨v, e1, e2⟩ := px_some h ix iy iz ic'
      have eb : blockVals m (max 1 pixSize) x y z c = [v.toNat] := by
        rw [show max 1 pixSize = 1 by omega, blockVals_eq]
        unfold vals
        simp only [Nat.div_one, Nat.mul_one]
        rw [show min 1 (m.depth - z) = 1 by omega, show min 1 (m.height - y) = 1 by omega, show min 1 (m.width - x) = 1 by omega]
        simp [e1]
      rw [(hx x y z c ⟨ix, iy, iz, ic⟩).1 hsel (by rw [eb, List.length_singleton]; decide), eb, e1]
      simp [mean]
    · exact (hx x y z c hin).2 hsel
  rw [s.1, o, hd]

example : Bytes (gray 3 2 [10, 20, 30, 40, 50, 60]) := gray_bytes (by decide) (by decide) rfl (by decide)
example : (iluPixelize (fun _ _ => 0) (gray 3 2 [10, 20, 30, 40, 50, 60]) none 2).map Img.data = .ok [30, 30, 45, 30, 30, 45] := by decide
example : (iluPixelize (fun _ _ => 0) (gray 3 2 [10, 20, 30, 40, 50, 60]) (some [1, 0, 1, 0, 0, 0]) 2).map Img.data = .ok [30, 20, 45, 40, 50, 60] := by decide

/-- **C157 violated.** The sum of a block is kept in 32 bits: a white picture of 4105 times 4105 becomes black when it is made one block. -/
theorem C157_violated_large (mean8 : Nat → Nat → Nat) : Bytes (gray 4105 4105 (List.replicate (4105 * 4105) 255)) ∧
    ∃ m', iluPixelize mean8 (gray 4105 4105 (List.replicate (4105 * 4105) 255)) none 4105 = .ok m' ∧
      ∀ x y, x < 4105 → y < 4105 → (gray 4105 4105 (List.replicate (4105 * 4105) 255)).px x y 0 0 = some 255 ∧ m'.px x y 0 0 = some 0 := by
  have hB : Bytes (gray 4105 4105 (List.replicate (4105 * 4105) 255)) := gray_bytes (by decide) (by decide) (List.length_replicate ..) (by decide)
  generalize hm : gray 4105 4105 (List.replicate (4105 * 4105) 255) = m at hB
  have ew : m.width = 4105 := by rw [← hm]; rfl
  have eh : m.height = 4105 := by rw [← hm]; rfl
  have ed : m.depth = 1 := by rw [← hm]; rfl
  have eb : m.bpp = 1 := by rw [← hm]; rfl
  have hpx : ∀ x y z, x < 4105 → y < 4105 → z < 1 → m.px x y z 0 = some 255 := by
    intro x y z hx hy hz
    obtain ⟨v, e1, e2⟩ := px_some hB (x := x) (y := y) (z := z) (c := 0) (by omega) (by omega) (by omega) (by omega)
    rw [e1]
    have hdata : m.data = List.replicate (4105 * 4105) 255 := by rw [← hm]; rfl
    have : v ∈ m.data := List.mem_of_getElem? e2
    rw [hdata] at this
    rw [List.eq_of_mem_replicate this]
  refine ⟨hB, ?_⟩
  obtain ⟨m', e, -, -, hx⟩ := pixelize_ok mean8 hB (mask := none) (fun r hr => by cases hr) 4105
  refine ⟨m', e, fun x y hxx hyy => ⟨hpx x y 0 hxx hyy (by omega), ?_⟩⟩
  have hin : m.In x y 0 0 := ⟨by omega, by omega, by omega, by rw [eb, hB.bpc]; omega⟩
  rw [(hx x y 0 0 hin).1 trivial, blockVals_eq]
  have hlen := vals_len hB (p := max 1 4105) (zb := 0 / max 1 4105) (yb := y / max 1 4105) (xb := x / max 1 4105) (c := 0) (by omega)
  have hx0 : x / max 1 4105 = 0 := Nat.div_eq_of_lt (by omega)
  have hy0 : y / max 1 4105 = 0 := Nat.div_eq_of_lt (by omega)
  rw [hx0, hy0, ew, eh, ed] at hlen
  have hall : ∀ a ∈ vals m (max 1 4105) (0 / max 1 4105) 0 0 0, a = 255 := by
    intro a ha
    unfold vals at ha
    simp only [List.mem_flatMap, List.mem_range] at ha
    obtain ⟨k, hk, j, hj, i, hi, ha⟩ := ha
    rw [hpx _ _ _ (by omega) (by omega) (by omega)] at ha
    simpa using ha
  have hrep := List.eq_replicate_iff.mpr ⟨hlen, hall⟩
  have hsum : ∀ n, (List.replicate n 255).sum = n * 255 := by
    intro n
    induction n with
    | zero => rfl
    | succ n ih => rw [List.replicate_succ, List.sum_cons, ih]; omega
  rw [hx0, hy0, hrep, hsum, List.length_replicate]
  rfl

/-! ### C162 -/

/-- **C162.** On an image of bytes `iluPixelize` stays in memory and keeps the geometry; with whatever size of blocks, it changes no pixel outside of the region, and
the pixels of the region that are in the same block become equal. -/
theorem C162_blocks (mean8 : Nat → Nat → Nat) {m : Img} (h : Bytes m) {mask : Option (List UInt8)}
    (hmask : ∀ r, mask = some r → r.length = m.width * m.height) (pixSize : Nat) :
    ∃ m', iluPixelize mean8 m mask pixSize = .ok m' ∧ m.SameShape m' ∧ m'.origin = m.origin ∧
      (∀ x y z c, m.In x y z c → ¬ selected mask m.width x y → m'.px x y z c = m.px x y z c) ∧
      ∀ x y z x' y' z' c, m.In x y z c → m.In x' y' z' c → selected mask m.width x y → selected mask m.width x' y' →
        x / pixSize = x' / pixSize → y / pixSize = y' / pixSize → z / pixSize = z' / pixSize → 0 < pixSize → m'.px x y z c = m'.px x' y' z' c := by
  obtain ⟨m', e, s, o, hx⟩ := pixelize_ok mean8 h hmask pixSize
  refine ⟨m', e, s, o, fun x y z c hin => (hx x y z c hin).2, ?_⟩
  intro x y z x' y' z' c h1 h2 s1 s2 e1 e2 e3 hp
  rw [(hx _ _ _ _ h1).1 s1, (hx _ _ _ _ h2).1 s2, blockVals_eq, blockVals_eq, show max 1 pixSize = pixSize by omega, e1, e2, e3]

theorem flatMap_same {α β : Type} {l : List α} {f g : α → List β} (h : ∀ a ∈ l, f a = g a) : l.flatMap f = l.flatMap g := by
  induction l with
  | nil => rfl
  | cons a l ih => rw [List.flatMap_cons, List.flatMap_cons, h a (by simp), ih (fun b hb => h b (by simp [hb]))]

/-- **C162.** Two images of the same size that agree on a block agree on it afterwards: no block depends on another. -/
theorem C162_local (mean8 : Nat → Nat → Nat) {m n : Img} (h : Bytes m) (hn : Bytes n) (hs : n.width = m.width ∧ n.height = m.height ∧ n.depth = m.depth ∧ n.bpp = m.bpp)
    {mask : Option (List UInt8)} (hmask : ∀ r, mask = some r → r.length = m.width * m.height) {pixSize : Nat} (hp : 0 < pixSize) {m' n' : Img}
    (e : iluPixelize mean8 m mask pixSize = .ok m') (e' : iluPixelize mean8 n mask pixSize = .ok n') {x y z c : Nat} (hin : m.In x y z c)
    (hag : ∀ x' y' z', m.In x' y' z' c → x' / pixSize = x / pixSize → y' / pixSize = y / pixSize → z' / pixSize = z / pixSize → n.px x' y' z' c = m.px x' y' z' c) :
    n'.px x y z c = m'.px x y z c := by
  obtain ⟨m1, a1, -, -, hx⟩ := pixelize_ok mean8 h hmask pixSize
  obtain ⟨n1, b1, -, -, hy⟩ := pixelize_ok mean8 hn (mask := mask) (by rw [hs.1, hs.2.1]; exact hmask) pixSize
  rw [e] at a1; rw [e'] at b1
  cases a1; cases b1
  have hin' : n.In x y z c := by
    obtain ⟨i1, i2, i3, i4⟩ := hin
    exact ⟨by omega, by omega, by omega, by rw [hs.2.2.2, hn.bpc, ← h.bpc]; exact i4⟩
  by_cases hsel : selected mask m.width x y
  · rw [(hx _ _ _ _ hin).1 hsel, (hy _ _ _ _ hin').1 (by rw [hs.1]; exact hsel), show max 1 pixSize = pixSize by omega]
    have hb : blockVals n pixSize x y z c = blockVals m pixSize x y z c := by
      unfold blockVals
      rw [hs.1, hs.2.1, hs.2.2.1]
      refine flatMap_same fun k hk => flatMap_same fun j hj => flatMap_same fun i hi => ?_
      rw [mem_span hp] at hk hj hi
      rw [hag i j k ⟨hi.1, hj.1, hk.1, hin.2.2.2⟩ hi.2 hj.2 hk.2]
    rw [hb]
  · rw [(hx _ _ _ _ hin).2 hsel, (hy _ _ _ _ hin').2 (by rw [hs.1]; exact hsel)]
    exact hag x y z hin rfl rfl rfl

/-! ### C158 -/

/-- **C158 violated.** Without a region, `iluPixelize` never succeeds on an image whose components have two, four or eight bytes: the region's mask is used although
there is none. -/
theorem C158_violated_region (mean8 : Nat → Nat → Nat) {m : Img} (hb : m.bpc = 2 ∨ m.bpc = 4 ∨ m.bpc = 8) (hw : 0 < m.width) (hh : 0 < m.height)
    (hd : 0 < m.depth) (hp : 0 < m.bpp) (pixSize : Nat) : ¬ C.Safe (iluPixelize mean8 m none pixSize) := by
  unfold iluPixelize
  have h1 : 0 < (if pixSize = 0 then 1 else pixSize) := by split <;> omega
  simp only
  rw [if_neg (by omega)]
  by_cases h2 : m.bpc = 2 ∨ m.bpc = 4
  · rw [if_pos h2]
    exact notSafe_bind (.inl (pixelWide_fails _ _ m h1 hw hh hd hp _))
  · rw [if_neg h2, if_pos (by omega)]
    exact notSafe_bind (.inl (pixelWide_fails _ _ m h1 hw hh hd hp _))

/-- A picture of one pixel of 16 bits. -/
def short1 : Img :=
  { width := 1, height := 1, depth := 1, bpp := 1, bpc := 2, bps := 2, plane := 2, size := 2, format := IL_LUMINANCE, type := IL_UNSIGNED_SHORT,
    origin := IL_ORIGIN_UPPER_LEFT, data := [1, 2] }

example : short1.Consistent := by simp [Img.Consistent, short1]
example : (iluPixelize (fun _ _ => 0) short1 none 1).map Img.data = .error .nullDeref := by decide

/-! ### C159 -/

/-- **C159 violated.** Every 3x3 filter of an image of bytes with three rows or more reads past the end of the image; so does that of a single row of three columns
or more. -/
theorem C159_violated_outside (junk : Nat → UInt8) {m : Img} (h : Bytes m) (hh : 3 ≤ m.height ∨ (m.height = 1 ∧ 3 ≤ m.width)) (mat : List Int) (scale bias : Int) :
    ¬ C.Safe (iluConvolution junk m mat scale bias) := by
  unfold iluConvolution
  refine notSafe_bind (.inl ?_)
  rcases hh with hh | ⟨hh, hw⟩
  · exact filter_fails_tall junk h hh mat scale bias
  · exact filter_fails_flat junk h hh hw mat scale bias

/-- **C159 violated.** So do both blurs, for one pass or more, the relief, and the three edge detectors. -/
theorem C159_violated_all (junk junk' : Nat → UInt8) {m : Img} (h : Bytes m) (hh : 3 ≤ m.height ∨ (m.height = 1 ∧ 3 ≤ m.width)) :
    (∀ n, 0 < n → ¬ C.Safe (iluBlurAvg junk m n) ∧ ¬ C.Safe (iluBlurGaussian junk m n)) ∧ ¬ C.Safe (iluEmboss junk m) ∧ ¬ C.Safe (iluEdgeDetectE junk m) ∧
      ¬ C.Safe (iluEdgeDetectP junk junk' m) ∧ ¬ C.Safe (iluEdgeDetectS junk junk' m) := by
  have hf : ∀ mat scale bias, ¬ C.Safe (filter junk m mat scale bias) := by
    intro mat scale bias
    rcases hh with hh | ⟨hh, hw⟩
    · exact filter_fails_tall junk h hh mat scale bias
    · exact filter_fails_flat junk h hh hw mat scale bias
  refine ⟨fun n hn => ⟨?_, ?_⟩, C159_violated_outside junk h hh _ _ _, C159_violated_outside junk h hh _ _ _, notSafe_bind (.inl (hf _ _ _)), notSafe_bind (.inl (hf _ _ _))⟩
  · exact notSafe_first hn m (C159_violated_outside junk h hh _ _ _)
  · exact notSafe_first hn m (C159_violated_outside junk h hh _ _ _)

example : Bytes (gray 3 3 [1, 2, 3, 4, 5, 6, 7, 8, 9]) ∧
    (iluEmboss (fun _ => 0) (gray 3 3 [1, 2, 3, 4, 5, 6, 7, 8, 9])).map Img.data = .error .oobRead :=
  ⟨gray_bytes (by decide) (by decide) rfl (by decide), by decide⟩

/-- **C159.** On an image of bytes with two rows, a 3x3 filter keeps the first and the last column and gives every other component `|sum / scale + bias|`, at most
255, where the sum is that of the nine components around with their weights and the rows outside repeat the nearest row.  The weight of the lower right
neighbour is taken as zero and added to that of the lower left one (`skewed`).  Missing: all other heights, and the weight of the lower right neighbour. -/
theorem C159_rows_partial (junk : Nat → UInt8) {m : Img} (h : Bytes m) (hh : m.height = 2) {mat : List Int} {scale bias : Int} (hm : Light mat) (hs : scale ≠ 0) :
    ∃ m', iluConvolution junk m mat scale bias = .ok m' ∧ m.SameShape m' ∧ m'.origin = m.origin ∧
      ∀ x y z c, m.In x y z c → m'.px x y z c =
        if x = 0 ∨ x + 1 = m.width then m.px x y z c else some (shade (weighted m (skewed mat) x y z c) scale bias) := by
  obtain ⟨o, e, l, s⟩ := filter_two junk h hh (mat := mat) (scale := scale) (bias := bias) hm hs
  refine ⟨{ m with data := o }, by unfold iluConvolution; rw [e]; rfl, ⟨rfl, l⟩, rfl, ?_⟩
  rintro x y z c ⟨hx, hy, hz, hc⟩
  rw [h.bpc, Nat.mul_one] at hc
  have e1 : ({ m with data := o } : Img).px x y z c = o[pos m.width m.height m.bpp z y x c]? := by
    unfold Img.px pos
    simp only [h.bpc, Nat.mul_one]
  rw [e1, s z y x c hz hy hx hc]
  rfl

/-- **C159.** With a weight of zero for the lower right neighbour, the weights are those given. -/
theorem skewed_same {mat : List Int} (h : mat.length = 9) (h8 : mat.getD 8 0 = 0) : skewed mat = mat := by
  match mat, h with
  | [a0, a1, a2, a3, a4, a5, a6, a7, a8], _ =>
    simp at h8
    subst h8
    simp [skewed]

/-- **C159 violated.** A filter that should show the lower right neighbour of every pixel shows the lower left one. -/
theorem C159_violated_neighbour : Light [0, 0, 0, 0, 0, 0, 0, 0, 1] ∧
    weighted (gray 3 2 [1, 2, 3, 40, 50, 60]) [0, 0, 0, 0, 0, 0, 0, 0, 1] 1 0 0 0 = 60 ∧
    (iluConvolution (fun _ => 0) (gray 3 2 [1, 2, 3, 40, 50, 60]) [0, 0, 0, 0, 0, 0, 0, 0, 1] 1 0).map Img.data = .ok [1, 40, 3, 40, 40, 60] := by
  refine ⟨by unfold Light; decide, by decide, by decide⟩

example : Light average ∧ Light gaussian ∧ Light hSobel ∧ Light vSobel ∧ Light hPrewitt ∧ Light vPrewitt ∧ Light embossed := by
  unfold Light; decide
example : (iluConvolution (fun _ => 0) (gray 3 2 [10, 20, 30, 40, 50, 60]) [0, 0, 0, 1, 0, 1, 0, 0, 0] 2 5).map Img.data = .ok [10, 25, 30, 40, 55, 60] := by decide

/-! ### C160 -/

theorem weighted_uniform {m : Img} (hh : m.height = 2) {mat : List Int} {v : UInt8} {z c : Nat}
    (hv : ∀ x y, x < m.width → y < m.height → m.px x y z c = some v) {x y : Nat} (hx : 1 ≤ x) (hxw : x + 1 < m.width) :
    weighted m mat x y z c = ((List.range 9).map fun k => mat.getD k 0).sum * (v.toNat : Int) := by
  have e : ∀ k, k < 9 → (m.px (x + k % 3 - 1) (rowAt m.height y (k / 3)) z c).getD 0 = v := by
    intro k hk
    rw [hv _ _ (by omega) (by unfold rowAt; omega)]; rfl
  unfold weighted
  simp only [List.range_succ, List.range_zero, List.nil_append, List.map_append, List.map_cons, List.map_nil, List.sum_append, List.sum_cons, List.sum_nil]
  rw [e 0 (by omega), e 1 (by omega), e 2 (by omega), e 3 (by omega), e 4 (by omega), e 5 (by omega), e 6 (by omega), e 7 (by omega), e 8 (by omega)]
  ring

/-- **C160 violated.** Blurring should leave an image of one colour as it is.  But on two rows, both blurs make every component of such an image brighter by one,
except in the first and the last column; on three rows or more they read past its end (`C159_violated_all`). -/
theorem C160_violated_brighter (junk : Nat → UInt8) {m : Img} (h : Bytes m) (hh : m.height = 2) {v : UInt8} (hv : ∀ x y z c, m.In x y z c → m.px x y z c = some v)
    (hlt : v < 255) : (∃ m', iluBlurAvg junk m 1 = .ok m' ∧ ∀ x y z c, m.In x y z c → 1 ≤ x → x + 1 < m.width → m'.px x y z c = some (v + 1)) ∧
      ∃ m', iluBlurGaussian junk m 1 = .ok m' ∧ ∀ x y z c, m.In x y z c → 1 ≤ x → x + 1 < m.width → m'.px x y z c = some (v + 1) := by
  have one : ∀ (mat : List Int) (s : Nat), Light mat → 0 < s → ((List.range 9).map fun k => (skewed mat).getD k 0).sum = (s : Int) →
      ∃ m', iluConvolution junk m mat (s : Int) 1 = .ok m' ∧ ∀ x y z c, m.In x y z c → 1 ≤ x → x + 1 < m.width → m'.px x y z c = some (v + 1) := by
    intro mat s hm hs hsum
    obtain ⟨m', e, -, -, hx⟩ := C159_rows_partial junk h hh (mat := mat) (scale := (s : Int)) (bias := 1) hm (by omega)
    refine ⟨m', e, fun x y z c hin h1 h2 => ?_⟩
    obtain ⟨ix, iy, iz, ic⟩ := hin
    have ic' := ic
    rw [h.bpc, Nat.mul_one] at ic'
    rw [hx x y z c ⟨ix, iy, iz, ic⟩, if_neg (by omega), weighted_uniform hh (fun x' y' hx' hy' => hv x' y' z c ⟨hx', hy', iz, ic⟩) h1 h2, hsum]
    unfold shade
    have hv2 : v.toNat < 255 := hlt
    have e1 : ((s : Int) * (v.toNat : Int) + 1 * (s : Int)).natAbs = s * (v.toNat + 1) := by
      rw [show (s : Int) * (v.toNat : Int) + 1 * (s : Int) = ((s * (v.toNat + 1) : Nat) : Int) by push_cast; ring, Int.natAbs_natCast]
    rw [e1, Int.natAbs_natCast, Nat.mul_div_cancel_left _ hs, Nat.min_eq_right (by omega)]
    congr 1
  constructor
  · obtain ⟨m', e, hx⟩ := one average 9 (by unfold Light; decide) (by omega) (by decide)
    refine ⟨m', ?_, hx⟩
    unfold iluBlurAvg blur
    rw [loopN_succ, loopN_zero, bind_ok]; exact e
  · obtain ⟨m', e, hx⟩ := one gaussian 16 (by unfold Light; decide) (by omega) (by decide)
    refine ⟨m', ?_, hx⟩
    unfold iluBlurGaussian blur
    rw [loopN_succ, loopN_zero, bind_ok]; exact e

example : (iluBlurAvg (fun _ => 0) (gray 3 2 [7, 7, 7, 7, 7, 7]) 1).map Img.data = .ok [7, 8, 7, 7, 8, 7] := by decide

/-- **C160.** With no pass at all, both blurs leave every image as it is.  Missing, because false: any pass. -/
theorem C160_none_partial (junk : Nat → UInt8) (m : Img) : iluBlurAvg junk m 0 = .ok m ∧ iluBlurGaussian junk m 0 = .ok m := ⟨rfl, rfl⟩

/-! ### C161 -/

theorem combine_eq {v : UInt8} (hv : 182 ≤ v.toNat) : combine v v = .error .overflow := by
  have : ∀ n : Fin 256, 182 ≤ n.val → combine (UInt8.ofNat n.val) (UInt8.ofNat n.val) = .error .overflow := by decide +kernel
  have h := this ⟨v.toNat, v.toNat_lt⟩ hv
  simpa using h

/-- **C161 violated.** Edge detection should turn an image of one colour black.  But on two rows, when that colour has a component of 182 or more, the detectors
convert a number above 255 to a byte, which is undefined: in the first column the two passes are not black but the image itself.  On three rows or more they read
past the end (`C159_violated_all`). -/
theorem C161_violated_bright (junk junk' : Nat → UInt8) {m : Img} (h : Bytes m) (hh : m.height = 2) {v : UInt8} (hv : ∀ x y z c, m.In x y z c → m.px x y z c = some v)
    (hlt : 182 ≤ v.toNat) : ¬ C.Safe (iluEdgeDetectP junk junk' m) ∧ ¬ C.Safe (iluEdgeDetectS junk junk' m) := by
  have hin : m.In 0 0 0 0 := ⟨h.width, h.height, h.depth, by rw [h.bpc, Nat.mul_one]; exact h.bpp⟩
  have hpos : pos m.width m.height m.bpp 0 0 0 0 = 0 := by simp [pos]
  have hsz : 0 < m.size := by
    have := pos_lt (z := 0) (y := 0) (x := 0) (c := 0) h.depth h.height h.width h.bpp (Nat.le_of_eq h.size_eq.symm)
    omega
  have one : ∀ a b : List Int, Light a → Light b → ¬ C.Safe (edges junk junk' m a b) := by
    intro a b ha hb
    obtain ⟨o, e, l, s⟩ := filter_two junk h hh (mat := a) (scale := 1) (bias := 0) ha (by decide)
    obtain ⟨o', e', l', s'⟩ := filter_two junk' h hh (mat := b) (scale := 1) (bias := 0) hb (by decide)
    have s0 := s 0 0 0 0 h.depth h.height h.width h.bpp
    have s0' := s' 0 0 0 0 h.depth h.height h.width h.bpp
    rw [hpos] at s0 s0'
    unfold want at s0 s0'
    rw [if_pos (.inl rfl), hv 0 0 0 0 hin] at s0 s0'
    unfold edges
    rw [e, bind_ok, e', bind_ok]
    refine notSafe_bind (.inl (notSafe_first hsz _ ?_))
    rw [rd_of_some s0, bind_ok, rd_of_some s0', bind_ok, combine_eq hlt]
    exact C.not_safe_error _
  exact ⟨one _ _ (by unfold Light; decide) (by unfold Light; decide), one _ _ (by unfold Light; decide) (by unfold Light; decide)⟩

example : (iluEdgeDetectS (fun _ => 0) (fun _ => 0) (gray 3 2 [200, 200, 200, 200, 200, 200])).map Img.data = .error .overflow := by decide +kernel

/-- **C161.** On two rows, edge detection does turn an image of one colour with components below 182 black, except for the first and the last column; these are
made brighter by the square root of two.  Missing, because false: all else. -/
theorem C161_black_partial (junk junk' : Nat → UInt8) {m : Img} (h : Bytes m) (hh : m.height = 2) {v : UInt8} (hv : ∀ x y z c, m.In x y z c → m.px x y z c = some v)
    (hlt : v.toNat < 182) : (∃ m', iluEdgeDetectP junk junk' m = .ok m' ∧ m.SameShape m' ∧
        ∀ x y z c, m.In x y z c → m'.px x y z c = if x = 0 ∨ x + 1 = m.width then some (UInt8.ofNat (Nat.sqrt (2 * v.toNat ^ 2))) else some 0) ∧
      (∃ m', iluEdgeDetectS junk junk' m = .ok m' ∧ m.SameShape m' ∧
        ∀ x y z c, m.In x y z c → m'.px x y z c = if x = 0 ∨ x + 1 = m.width then some (UInt8.ofNat (Nat.sqrt (2 * v.toNat ^ 2))) else some 0) := by
  have hcomb : combine v v = .ok (UInt8.ofNat (Nat.sqrt (2 * v.toNat ^ 2))) := by
    have : ∀ n : Fin 256, n.val < 182 → combine (UInt8.ofNat n.val) (UInt8.ofNat n.val) = .ok (UInt8.ofNat (Nat.sqrt (2 * n.val ^ 2))) := by decide +kernel
    have h := this ⟨v.toNat, v.toNat_lt⟩ hlt
    simpa using h
  have one : ∀ a b : List Int, Light a → Light b → ((List.range 9).map fun k => (skewed a).getD k 0).sum = 0 → ((List.range 9).map fun k => (skewed b).getD k 0).sum = 0 →
      ∃ m', edges junk junk' m a b = .ok m' ∧ m.SameShape m' ∧
        ∀ x y z c, m.In x y z c → m'.px x y z c = if x = 0 ∨ x + 1 = m.width then some (UInt8.ofNat (Nat.sqrt (2 * v.toNat ^ 2))) else some 0 := by
    intro a b ha hb sa sb
    obtain ⟨o, e, l, s⟩ := filter_two junk h hh (mat := a) (scale := 1) (bias := 0) ha (by decide)
    obtain ⟨o', e', l', s'⟩ := filter_two junk' h hh (mat := b) (scale := 1) (bias := 0) hb (by decide)
    have hw : ∀ mat : List Int, ((List.range 9).map fun k => (skewed mat).getD k 0).sum = 0 → ∀ x y z c, x < m.width → y < m.height → z < m.depth → c < m.bpp →
        want m mat 1 0 x y z c = if x = 0 ∨ x + 1 = m.width then some v else some 0 := by
      intro mat hmat x y z c hx hy hz hc
      have ic : c < m.bpp * m.bpc := by rw [h.bpc, Nat.mul_one]; exact hc
      unfold want
      by_cases hb : x = 0 ∨ x + 1 = m.width
      · rw [if_pos hb, if_pos hb, hv x y z c ⟨hx, hy, hz, ic⟩]
      · rw [if_neg hb, if_neg hb, weighted_uniform hh (fun x' y' hx' hy' => hv x' y' z c ⟨hx', hy', hz, ic⟩) (by omega) (by omega), hmat, Int.zero_mul]
        rfl
    let t : Nat → Option UInt8 := fun i => if i / m.bpp % m.width = 0 ∨ i / m.bpp % m.width + 1 = m.width then some (UInt8.ofNat (Nat.sqrt (2 * v.toNat ^ 2))) else some 0
    have key : Upd (fun d => loopN m.size (fun i d => do
        let a ← rd o i
        let b ← rd o' i
        let r ← combine a b
        wr d i r) d) m.data (fun _ => False) (fun i => ∃ k, k < m.size ∧ i = k) t := by
      refine Upd.loopW (fun k hk => ?_)
      obtain ⟨z, y, x, c, hz, hy, hx, hc, rfl⟩ := pos_surj hk h.size_eq
      obtain ⟨-, -, d3, -⟩ := decode (z := z) hy hx hc
      have s0 := s z y x c hz hy hx hc
      have s0' := s' z y x c hz hy hx hc
      rw [hw a sa x y z c hx hy hz hc] at s0
      rw [hw b sb x y z c hx hy hz hc] at s0'
      have hlt' : pos m.width m.height m.bpp z y x c < m.data.length := by rw [h.consistent.2.2.2]; exact hk
      by_cases hb : x = 0 ∨ x + 1 = m.width
      · rw [if_pos hb] at s0 s0'
        refine (Upd.wr (x := UInt8.ofNat (Nat.sqrt (2 * v.toNat ^ 2))) hlt' (by show (if _ then _ else _) = _; rw [d3, if_pos hb])).congr
          (fun d _ => ?_) (fun _ h => h) (fun _ _ => Iff.rfl) (fun _ _ _ => rfl)
        rw [rd_of_some s0, bind_ok, rd_of_some s0', bind_ok, hcomb, bind_ok]
      · rw [if_neg hb] at s0 s0'
        refine (Upd.wr (x := (0 : UInt8)) hlt' (by show (if _ then _ else _) = _; rw [d3, if_neg hb])).congr
          (fun d _ => ?_) (fun _ h => h) (fun _ _ => Iff.rfl) (fun _ _ _ => rfl)
        rw [rd_of_some s0, bind_ok, rd_of_some s0', bind_ok]
        rfl
    obtain ⟨d, ed, ld, sd⟩ := key m.data rfl (fun _ h => h.elim)
    dsimp only at ed
    refine ⟨{ m with data := d }, ?_, ⟨rfl, ld⟩, ?_⟩
    · unfold edges
      rw [e, bind_ok, e', bind_ok, ed]; rfl
    · rintro x y z c ⟨hx, hy, hz, hc⟩
      rw [h.bpc, Nat.mul_one] at hc
      have e1 : ({ m with data := d } : Img).px x y z c = d[pos m.width m.height m.bpp z y x c]? := by
        unfold Img.px pos
        simp only [h.bpc, Nat.mul_one]
      have hlt1 := pos_lt hz hy hx hc (Nat.le_of_eq h.len.symm)
      obtain ⟨-, -, d3, -⟩ := decode (z := z) hy hx hc
      rw [e1, (sd _ hlt1).1 ⟨_, by rw [← h.consistent.2.2.2]; exact hlt1, rfl⟩]
      show (if _ then _ else _) = _
      rw [d3]
  exact ⟨one _ _ (by unfold Light; decide) (by unfold Light; decide) (by decide) (by decide),
    one _ _ (by unfold Light; decide) (by unfold Light; decide) (by decide) (by decide)⟩

example : (iluEdgeDetectP (fun _ => 0) (fun _ => 0) (gray 3 2 [100, 100, 100, 100, 100, 100])).map Img.data = .ok [141, 0, 141, 141, 0, 141] := by decide +kernel

end DevIL.Filter
