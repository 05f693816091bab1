import Verif.Lemmas.IcnsB
import Verif.Props.Tpl
/-! Apple icons: C229 (an icon and its mask), C230 (safety). -/
set_option autoImplicit false
namespace DevIL.Icns
open DevIL.Games DevIL.Detect DevIL.Image DevIL.DetectSpec DevIL.IcnsSpec DevIL.GamesSpec
open DevIL.Lump (SEEK_SET SEEK_CUR)
open DevIL.Psd (EofLaw fileEof lumpEof)

/-- Loading from an open file and from memory. -/
def Loads (junk : Nat → UInt8) (fuel : Nat) (cur : Img) (bs : List UInt8) (P : Bool → List Img → Prop) : Prop :=
  Both (iLoadIcnsInternal fileOps junk fuel cur) (iLoadIcnsInternal lumpOps junk fuel cur) bs P

/-- Loading from an open file and from memory runs into this fault. -/
def Fails (junk : Nat → UInt8) (fuel : Nat) (cur : Img) (bs : List UInt8) (e : Fault) : Prop :=
  ilLoadF (iLoadIcnsInternal fileOps junk fuel cur) (opened bs 0) = .error e ∧ ilLoadL (iLoadIcnsInternal lumpOps junk fuel cur) bs bs.length = .error e

section
variable {σ : Type} {o : Ops σ} {At : σ → List UInt8 → Nat → Prop}

theorem kinds_ok : ∀ k ∈ kinds, kindOf k.2.1 = some (false, k.1) ∧ kindOf k.2.2 = some (true, k.1) ∧ 0 < k.1 ∧ k.1 ≤ 128 := by decide

theorem load_head (L : Laws2 o At) (junk : Nat → UInt8) (fuel : Nat) (cur : Img) {bs : List UInt8} {s : σ} (hA : At s bs 0) (hl : 8 ≤ bs.length) (hs : at_ bs 0 4 = [105, 99, 110, 115]) :
    ∃ s', At s' bs 8 ∧ iLoadIcnsInternal o junk fuel cur s = (do
      let (ok, ms, s) ← entries o junk (Lump.toInt (beAt bs 4 4)) fuel [] s'
      pure (ok, if ms = [] then [cur] else ms, s)) := by
  obtain ⟨⟨h, s1⟩, e, -, p1, v1⟩ := head_spec L.toLaws junk bs [u32f, u32f] s 0 hA (by decide)
  have p1 : At s1 bs 8 := p1 (by show 0 + 8 ≤ _; omega)
  have m0 : fld h 0 = at_ bs 0 4 := v1 0 u32f rfl (by show 0 + 0 + 4 ≤ _; omega)
  have m1 : fbe h 1 = beAt bs 4 4 := by unfold fbe; rw [v1 1 u32f rfl (by show 0 + 4 + 4 ≤ _; omega)]; rfl
  refine ⟨s1, p1, ?_⟩
  unfold iLoadIcnsInternal
  rw [e, bind_ok]
  simp only []
  rw [m0, if_neg (by rw [hs]; simp), m1]

/-- The first entry makes an image, and one of the same width goes into it. -/
theorem slot_nil (junk : Nat → UInt8) (w : Nat) : slot junk w [] = ([blank junk w], 0) := rfl

theorem slot_one (junk : Nat → UInt8) {w : Nat} {m : Img} (h : m.width = w) : slot junk w [m] = ([m], 0) := by
  have : [m].findIdx (fun m => m.width == w) = 0 := by rw [List.findIdx_cons, beq_iff_eq.2 h]; rfl
  unfold slot
  rw [this]
  rfl

/-- A pixel's component: the colours, and the mask as alpha. -/
def pixel (bs : List UInt8) (w n at1 at2 : Nat) (x y c : Nat) : Option UInt8 := if c < 3 then colour w (at_ bs at1 n) (y * w + x) c else bs[at2 + (y * w + x)]?

theorem at_get {bs : List UInt8} {p n i : Nat} (hi : i < n) : (at_ bs p n)[i]? = bs[p + i]? := by
  unfold at_
  rw [List.getElem?_take, if_pos hi, List.getElem?_drop]

theorem cell_lt {w x y : Nat} (hx : x < w) (hy : y < w) : y * w + x < w * w := by
  have h1 : (y + 1) * w ≤ w * w := Nat.mul_le_mul_right _ hy
  rw [Nat.succ_mul] at h1; omega

theorem shown (junk : Nat → UInt8) {bs : List UInt8} {w n at1 at2 : Nat} (hw : 0 < w) (hw2 : w ≤ 128) {d : List UInt8} (hd : d.length = w * w * 4)
    (h1 : ∀ i c, i < w * w → c < 3 → d[i * 4 + c]? = colour w (at_ bs at1 n) i c) (h2 : ∀ i, i < w * w → d[i * 4 + 3]? = bs[at2 + i]?) :
    Shows { blank junk w with data := d } w w 4 IL_RGBA (pixel bs w n at1 at2) := by
  have h : w * w ≤ 128 * 128 := Nat.mul_le_mul hw2 hw2
  refine Tpl.blank_shows junk w w 4 IL_RGBA hw hw (by decide) (by omega) d hd _ (fun x y c hx hy hc => ?_)
  have := cell_lt hx hy
  unfold pixel
  split
  · exact h1 _ c this (by omega)
  · obtain rfl : c = 3 := by omega
    exact h2 _ this

theorem toInt_eq {n : Nat} (h : n + 8 < 2147483648) : Lump.toInt (n + 8) = (n : Int) + 8 := by
  unfold Lump.toInt
  rw [if_pos h]
  omega

theorem icon_run (L : Laws2 o At) (E : EofLaw o At) (junk : Nat → UInt8) (fuel : Nat) (cur : Img) {bs : List UInt8} {w n : Nat} {rgb mask : List UInt8} (I : Icon bs w n rgb mask)
    (hW : Whole w (at_ bs 16 n)) {s : σ} (hA : At s bs 0) :
    Holds (iLoadIcnsInternal o junk (fuel + 3) cur s) (fun r => (r.1 = true ∧ ∃ m, r.2.1 = [m] ∧ Shows m w w 4 IL_RGBA (pixel bs w n 16 (24 + n))) ∧ ∃ q, At r.2.2 bs q) := by
  have hlen := L.len hA
  have hends := I.ends
  obtain ⟨k1, k2, hw, hw2⟩ := kinds_ok _ I.kind
  simp only [] at k1 k2 hw hw2
  obtain ⟨b1, b2, b3⟩ := blank_fields junk hw hw2
  obtain ⟨s1, hA1, e1⟩ := load_head L junk (fuel + 3) cur hA (by omega) I.head.sig
  rw [I.head.size, show Lump.toInt bs.length = (bs.length : Int) by unfold Lump.toInt; rw [if_pos hlen]] at e1
  rw [e1]
  obtain ⟨s2, hA2, e2⟩ := entry_step L E junk hA1 (by omega) (show ((8 : Nat) : Int) < (bs.length : Int) by omega)
  rw [e2 (fuel + 2) [], I.colours.id, k1]
  simp only []
  rw [I.colours.size, toInt_eq (by omega)]
  obtain ⟨data, s3, l3, -, p3, e3⟩ := read_core L junk (n := n) (w := w) hA2 (by omega) false [] (m := blank junk w) rfl
  obtain ⟨rfl, q3⟩ := p3 (by omega)
  obtain ⟨d, ec, c1, c2, c3⟩ := (colours_spec (at_ bs 16 n) w (blank junk w).data b2).1 hW
  have es : store false w (at_ bs (8 + 8) n) (blank junk w) = .ok (some { blank junk w with data := d }) := by
    unfold store
    rw [if_neg (by decide), ec]
    rfl
  rw [e3, es, bind_ok]
  simp only [slot_nil]
  show Holds (do
      let (ok, ms, s) ← entries o junk (bs.length : Int) (fuel + 2) [{ blank junk w with data := d }] s3
      pure (ok, if ms = [] then [cur] else ms, s)) _
  have p3 : At s3 bs (16 + n) := q3
  obtain ⟨s4, hA4, e4⟩ := entry_step L E junk p3 (by omega) (show ((16 + n : Nat) : Int) < (bs.length : Int) by omega)
  rw [e4 (fuel + 1), I.mask.id, k2]
  simp only []
  rw [I.mask.size, toInt_eq (by omega)]
  have hs1 := slot_one junk (m := { blank junk w with data := d }) (w := w) b1
  obtain ⟨data2, s5, l5, -, p5, e5⟩ := read_core L junk (n := w * w) (w := w) hA4 (by omega) true [{ blank junk w with data := d }] (m := { blank junk w with data := d }) (by rw [hs1]; rfl)
  obtain ⟨rfl, q5⟩ := p5 (by omega)
  obtain ⟨d', em, m1, m2, m3⟩ := store_mask (m := { blank junk w with data := d }) l5 (by show d.length = _; omega)
  rw [e5, em, bind_ok]
  simp only [hs1]
  show Holds (do
      let (ok, ms, s) ← entries o junk (bs.length : Int) (fuel + 1) [{ blank junk w with data := d' }] s5
      pure (ok, if ms = [] then [cur] else ms, s)) _
  have p5 : At s5 bs bs.length := by rw [show bs.length = 16 + n + 8 + w * w by omega]; exact q5
  rw [entries_end L junk p5, bind_ok]
  refine Holds.pure ⟨⟨rfl, _, rfl, shown junk hw hw2 m1 (fun i c hi hc => ?_) (fun i hi => ?_)⟩, _, p5⟩
  · rw [m3 i c hc]
    exact c2 i c hi hc
  · rw [m2 i hi, at_get hi, show 16 + n + 8 = 24 + n by omega]

theorem icon2_run (L : Laws2 o At) (E : EofLaw o At) (junk : Nat → UInt8) (fuel : Nat) (cur : Img) {bs : List UInt8} {w n : Nat} {rgb mask : List UInt8} (I : Icon2 bs w n rgb mask)
    (hW : Whole w (at_ bs (24 + w * w) n)) {s : σ} (hA : At s bs 0) :
    Holds (iLoadIcnsInternal o junk (fuel + 3) cur s) (fun r => (r.1 = true ∧ ∃ m, r.2.1 = [m] ∧ Shows m w w 4 IL_RGBA (pixel bs w n (24 + w * w) 16)) ∧ ∃ q, At r.2.2 bs q) := by
  have hlen := L.len hA
  have hends := I.ends
  obtain ⟨k1, k2, hw, hw2⟩ := kinds_ok _ I.kind
  simp only [] at k1 k2 hw hw2
  obtain ⟨b1, b2, b3⟩ := blank_fields junk hw hw2
  obtain ⟨s1, hA1, e1⟩ := load_head L junk (fuel + 3) cur hA (by omega) I.head.sig
  rw [I.head.size, show Lump.toInt bs.length = (bs.length : Int) by unfold Lump.toInt; rw [if_pos hlen]] at e1
  rw [e1]
  obtain ⟨s2, hA2, e2⟩ := entry_step L E junk hA1 (by omega) (show ((8 : Nat) : Int) < (bs.length : Int) by omega)
  rw [e2 (fuel + 2) [], I.mask.id, k2]
  simp only []
  rw [I.mask.size, toInt_eq (by omega)]
  obtain ⟨data, s3, l3, -, p3, e3⟩ := read_core L junk (n := w * w) (w := w) hA2 (by omega) true [] (m := blank junk w) rfl
  obtain ⟨rfl, q3⟩ := p3 (by omega)
  obtain ⟨d, em, m1, m2, m3⟩ := store_mask (m := blank junk w) l3 b2
  rw [e3, em, bind_ok]
  simp only [slot_nil]
  show Holds (do
      let (ok, ms, s) ← entries o junk (bs.length : Int) (fuel + 2) [{ blank junk w with data := d }] s3
      pure (ok, if ms = [] then [cur] else ms, s)) _
  have p3 : At s3 bs (16 + w * w) := q3
  obtain ⟨s4, hA4, e4⟩ := entry_step L E junk p3 (by omega) (show ((16 + w * w : Nat) : Int) < (bs.length : Int) by omega)
  rw [e4 (fuel + 1), I.colours.id, k1]
  simp only []
  rw [I.colours.size, toInt_eq (by omega)]
  have hs1 := slot_one junk (m := { blank junk w with data := d }) (w := w) b1
  obtain ⟨data2, s5, l5, -, p5, e5⟩ := read_core L junk (n := n) (w := w) hA4 (by omega) false [{ blank junk w with data := d }] (m := { blank junk w with data := d }) (by rw [hs1]; rfl)
  obtain ⟨rfl, q5⟩ := p5 (by omega)
  rw [show 16 + w * w + 8 = 24 + w * w by omega] at e5 q5
  obtain ⟨d', ec, c1, c2, c3⟩ := (colours_spec (at_ bs (24 + w * w) n) w d m1).1 hW
  have es : store false w (at_ bs (24 + w * w) n) { blank junk w with data := d } = .ok (some { blank junk w with data := d' }) := by
    unfold store
    rw [if_neg (by decide), ec]
    rfl
  rw [e5, es, bind_ok]
  simp only [hs1]
  show Holds (do
      let (ok, ms, s) ← entries o junk (bs.length : Int) (fuel + 1) [{ blank junk w with data := d' }] s5
      pure (ok, if ms = [] then [cur] else ms, s)) _
  have p5 : At s5 bs bs.length := by rw [show bs.length = 24 + w * w + n by omega]; exact q5
  rw [entries_end L junk p5, bind_ok]
  refine Holds.pure ⟨⟨rfl, _, rfl, shown junk hw hw2 (by omega) c2 (fun i hi => ?_)⟩, _, p5⟩
  rw [c3 i hi, m2 i hi, at_get hi]

/-- What can happen to any file. -/
theorem any_run (L : Laws2 o At) (E : EofAny o At) (junk : Nat → UInt8) (fuel : Nat) (cur : Img) (hc : cur.data.length = cur.size) {bs : List UInt8} {s : σ} (hA : At s bs 0) :
    (∃ r, iLoadIcnsInternal o junk fuel cur s = .ok r ∧ (∀ m ∈ r.2.1, m.data.length = m.size) ∧ ∃ q, At r.2.2 bs q) ∨ iLoadIcnsInternal o junk fuel cur s = .error .oobRead ∨
      iLoadIcnsInternal o junk fuel cur s = .error .hang := by
  obtain ⟨⟨h, s1⟩, e, hA1, -⟩ := head_spec L.toLaws junk bs [u32f, u32f] s 0 hA (by decide)
  unfold iLoadIcnsInternal
  rw [e, bind_ok]
  simp only [] at hA1 ⊢
  split
  · exact .inl ⟨_, rfl, fun m hm => by rw [List.mem_singleton.1 hm]; exact hc, hA1⟩
  · rcases entries_any L E junk (Lump.toInt (fbe h 1)) fuel [] s1 (fun m hm => absurd hm List.not_mem_nil) hA1 with ⟨⟨ok, ms, s2⟩, e2, hI, hA2⟩ | e2 | e2
    · rw [e2, bind_ok]
      refine .inl ⟨_, rfl, fun m hm => ?_, hA2⟩
      simp only [] at hm hI
      split at hm
      · rw [List.mem_singleton.1 hm]; exact hc
      · exact (hI m hm).2.symm
    · rw [e2]; exact .inr (.inl rfl)
    · rw [e2]; exact .inr (.inr rfl)

theorem hang_run (L : Laws2 o At) (E : EofLaw o At) (junk : Nat → UInt8) (fuel : Nat) (cur : Img) {bs : List UInt8} (hl : 16 ≤ bs.length) (hs : at_ bs 0 4 = [105, 99, 110, 115])
    (hz : 8 < beAt bs 4 4 ∧ beAt bs 4 4 < 2147483648) (hid : ∀ k ∈ kinds, at_ bs 8 4 ≠ k.2.1 ∧ at_ bs 8 4 ≠ k.2.2) (h0 : beAt bs 12 4 = 0) {s : σ} (hA : At s bs 0) :
    iLoadIcnsInternal o junk fuel cur s = .error .hang := by
  obtain ⟨s1, hA1, e1⟩ := load_head L junk fuel cur hA (by omega) hs
  have hk : kindOf (at_ bs 8 4) = none := by
    generalize at_ bs 8 4 = id at hid
    simp only [kinds, List.mem_cons, List.not_mem_nil, or_false, forall_eq_or_imp, forall_eq] at hid
    unfold kindOf
    simp [hid]
  have go : ∀ f s, At s bs 8 → entries o junk (Lump.toInt (beAt bs 4 4)) f [] s = .error .hang := by
    intro f
    induction f with
    | zero => intro s _; rfl
    | succ f ih =>
      intro s hA
      obtain ⟨s2, hA2, e2⟩ := entry_step L E junk hA (by omega) (show ((8 : Nat) : Int) < Lump.toInt (beAt bs 4 4) by unfold Lump.toInt; rw [if_pos hz.2]; omega)
      obtain ⟨⟨b, s3⟩, e3, -, h3⟩ := L.seekCur (-8) hA2
      rw [e2 f [], hk]
      simp only []
      rw [h0, show Lump.toInt 0 - 8 = -8 from rfl, e3, bind_ok]
      exact ih s3 (h3 8 (by omega) (by omega))
  rw [e1, go fuel s1 hA1]
  rfl

theorem short_run (L : Laws2 o At) (E : EofLaw o At) (junk : Nat → UInt8) (fuel : Nat) (cur : Img) {bs : List UInt8} (hs : at_ bs 0 4 = [105, 99, 110, 115])
    (hz : 8 < beAt bs 4 4 ∧ beAt bs 4 4 < 2147483648) {w n : Nat} {rgb mask : List UInt8} (hk : (w, rgb, mask) ∈ kinds) (he : Entry bs 8 rgb n) (hW : ¬ Whole w (at_ bs 16 n)) {s : σ} (hA : At s bs 0) :
    iLoadIcnsInternal o junk (fuel + 1) cur s = .error .oobRead := by
  have hlen := L.len hA
  have hin := he.inside
  obtain ⟨k1, k2, hw, hw2⟩ := kinds_ok _ hk
  simp only [] at k1 k2 hw hw2
  obtain ⟨b1, b2, b3⟩ := blank_fields junk hw hw2
  obtain ⟨s1, hA1, e1⟩ := load_head L junk (fuel + 1) cur hA (by omega) hs
  obtain ⟨s2, hA2, e2⟩ := entry_step L E junk hA1 (by omega) (show ((8 : Nat) : Int) < Lump.toInt (beAt bs 4 4) by unfold Lump.toInt; rw [if_pos hz.2]; omega)
  obtain ⟨data, s3, l3, -, p3, e3⟩ := read_core L junk (n := n) (w := w) hA2 (by omega) false [] (m := blank junk w) rfl
  obtain ⟨rfl, q3⟩ := p3 (by omega)
  have es : store false w (at_ bs (8 + 8) n) (blank junk w) = .error .oobRead := by
    unfold store
    rw [if_neg (by decide), (colours_spec (at_ bs 16 n) w (blank junk w).data b2).2 hW]
    rfl
  rw [e1, e2 fuel [], he.id, k1]
  simp only []
  rw [he.size, toInt_eq (by omega), e3, es]
  rfl

end

/-! ### The properties -/

/-- **C229**: an ICNS file with the colours of an icon of 128, 48, 32 or 16 columns, packed or not, and then its mask loads, from a file and from memory, into one image of that size: every pixel has the
colours of the icon and the mask as its alpha, whatever was in the memory of the image. -/
theorem C229_icon (junk : Nat → UInt8) (fuel : Nat) (cur : Img) (bs : List UInt8) (w n : Nat) (rgb mask : List UInt8) (hl : bs.length < 2147483648) (I : Icon bs w n rgb mask)
    (hW : Whole w (at_ bs 16 n)) (hf : 3 ≤ fuel) :
    Loads junk fuel cur bs (fun ok ms => ok = true ∧ ∃ m, ms = [m] ∧
      Shows m w w 4 IL_RGBA (fun x y c => if c < 3 then colour w (at_ bs 16 n) (y * w + x) c else bs[24 + n + (y * w + x)]?)) := by
  obtain ⟨f, rfl⟩ : ∃ f, fuel = f + 3 := ⟨fuel - 3, by omega⟩
  exact both (by have := I.ends; omega) hl (fun _ ht => icon_run fileLaws2 fileEof junk f cur I hW ht) (fun _ ht => icon_run lumpLaws2 lumpEof junk f cur I hW ht)

/-- **C229**, the other order: the same when the mask comes before the colours. -/
theorem C229_mask_first (junk : Nat → UInt8) (fuel : Nat) (cur : Img) (bs : List UInt8) (w n : Nat) (rgb mask : List UInt8) (hl : bs.length < 2147483648) (I : Icon2 bs w n rgb mask)
    (hW : Whole w (at_ bs (24 + w * w) n)) (hf : 3 ≤ fuel) :
    Loads junk fuel cur bs (fun ok ms => ok = true ∧ ∃ m, ms = [m] ∧
      Shows m w w 4 IL_RGBA (fun x y c => if c < 3 then colour w (at_ bs (24 + w * w) n) (y * w + x) c else bs[16 + (y * w + x)]?)) := by
  obtain ⟨f, rfl⟩ : ∃ f, fuel = f + 3 := ⟨fuel - 3, by omega⟩
  exact both (by have := I.ends; omega) hl (fun _ ht => icon2_run fileLaws2 fileEof junk f cur I hW ht) (fun _ ht => icon2_run lumpLaws2 lumpEof junk f cur I hW ht)

/-- The result of a program is good, or it reads outside a block, or it does not end. -/
def OnlyReads {α : Type} (c : C α) (P : α → Prop) : Prop := (∃ a, c = .ok a ∧ P a) ∨ c = .error .oobRead ∨ c = .error .hang

/-- **C230**, in part: whatever the file is, loading it never writes outside the blocks of the images, and when it ends every image has a block of the size it reports.  What is missing, since the loader
does neither, is that it reads only the bytes of an entry and that it ends. -/
theorem C230_writes_partial (junk : Nat → UInt8) (fuel : Nat) (cur : Img) (hc : cur.data.length = cur.size) (bs : List UInt8) (h0 : 0 < bs.length) (hl : bs.length < 2147483648) :
    OnlyReads (ilLoadF (iLoadIcnsInternal fileOps junk fuel cur) (opened bs 0)) (fun r => ∀ m ∈ r.2.1, m.data.length = m.size) ∧
      OnlyReads (ilLoadL (iLoadIcnsInternal lumpOps junk fuel cur) bs bs.length) (fun r => ∀ m ∈ r.2, m.data.length = m.size) := by
  constructor
  · unfold ilLoadF
    simp only []
    rcases any_run fileLaws2 fileEofAny junk fuel cur hc (input_at (opened bs 0) rfl hl) with ⟨⟨ok, ms, s⟩, e, h, -⟩ | e | e
    · rw [e, bind_ok]; exact .inl ⟨_, rfl, h⟩
    · rw [e]; exact .inr (.inl rfl)
    · rw [e]; exact .inr (.inr rfl)
  · unfold ilLoadL
    simp only []
    rcases any_run lumpLaws2 lumpEofAny junk fuel cur hc (lump_at bs hl h0) with ⟨⟨ok, ms, s⟩, e, h, -⟩ | e | e
    · rw [e, bind_ok]; exact .inl ⟨_, rfl, h⟩
    · rw [e]; exact .inr (.inl rfl)
    · rw [e]; exact .inr (.inr rfl)

theorem fails {junk : Nat → UInt8} {fuel : Nat} {cur : Img} {bs : List UInt8} {e : Fault} (h0 : 0 < bs.length) (hl : bs.length < 2147483648)
    (hF : ∀ s, FileAt s bs 0 → iLoadIcnsInternal fileOps junk fuel cur s = .error e) (hL : ∀ s, LumpAt s bs 0 → iLoadIcnsInternal lumpOps junk fuel cur s = .error e) : Fails junk fuel cur bs e := by
  refine ⟨?_, ?_⟩
  · unfold ilLoadF
    simp only []
    rw [hF _ (input_at (opened bs 0) rfl hl)]
    rfl
  · unfold ilLoadL
    simp only []
    rw [hL _ (lump_at bs hl h0)]
    rfl

/-- **C230 violated**: a file whose first entry is of a kind the loader does not know and claims no bytes at all is never done with: the loader goes back to it for ever. -/
theorem C230_violated_hang (junk : Nat → UInt8) (fuel : Nat) (cur : Img) (bs : List UInt8) (hl : bs.length < 2147483648) (h16 : 16 ≤ bs.length) (hs : at_ bs 0 4 = [105, 99, 110, 115])
    (hz : 8 < beAt bs 4 4 ∧ beAt bs 4 4 < 2147483648) (hid : ∀ k ∈ kinds, at_ bs 8 4 ≠ k.2.1 ∧ at_ bs 8 4 ≠ k.2.2) (h0 : beAt bs 12 4 = 0) : Fails junk fuel cur bs .hang :=
  fails (by omega) hl (fun _ ht => hang_run fileLaws2 fileEof junk fuel cur h16 hs hz hid h0 ht) (fun _ ht => hang_run lumpLaws2 lumpEof junk fuel cur h16 hs hz hid h0 ht)

/-- **C230 violated**: every file whose first entry is an icon with too few packed bytes makes the loader read beyond the block it made for them. -/
theorem C230_violated_short (junk : Nat → UInt8) (fuel : Nat) (cur : Img) (bs : List UInt8) (hl : bs.length < 2147483648) (hs : at_ bs 0 4 = [105, 99, 110, 115])
    (hz : 8 < beAt bs 4 4 ∧ beAt bs 4 4 < 2147483648) (w n : Nat) (rgb mask : List UInt8) (hk : (w, rgb, mask) ∈ kinds) (he : Entry bs 8 rgb n) (hW : ¬ Whole w (at_ bs 16 n)) (hf : 1 ≤ fuel) :
    Fails junk fuel cur bs .oobRead := by
  obtain ⟨f, rfl⟩ : ∃ f, fuel = f + 1 := ⟨fuel - 1, by omega⟩
  exact fails (by have := he.inside; omega) hl (fun _ ht => short_run fileLaws2 fileEof junk f cur hs hz hk he hW ht) (fun _ ht => short_run lumpLaws2 lumpEof junk f cur hs hz hk he hW ht)

/-! ### Concrete cases: icons of 16 columns whose halves have one colour each -/

/-- Six packets, two for each component. -/
def halves : List UInt8 := [253, 1, 253, 2, 253, 3, 253, 4, 253, 5, 253, 6]

/-- The icon and its mask. -/
def sample1 : List UInt8 := [105, 99, 110, 115, 0, 0, 1, 36, 105, 115, 51, 50, 0, 0, 0, 20] ++ halves ++ [115, 56, 109, 107, 0, 0, 1, 8] ++ List.replicate 256 9

/-- The mask and the icon. -/
def sample2 : List UInt8 := [105, 99, 110, 115, 0, 0, 1, 36, 115, 56, 109, 107, 0, 0, 1, 8] ++ List.replicate 256 9 ++ [105, 115, 51, 50, 0, 0, 0, 20] ++ halves

set_option maxRecDepth 8000 in
example (junk : Nat → UInt8) (cur : Img) : Loads junk 3 cur sample1 (fun ok ms => ok = true ∧ ∃ m, ms = [m] ∧
    Shows m 16 16 4 IL_RGBA (fun x y c => if c < 3 then colour 16 (at_ sample1 16 12) (y * 16 + x) c else sample1[24 + 12 + (y * 16 + x)]?)) :=
  C229_icon junk 3 cur sample1 16 12 [105, 115, 51, 50] [115, 56, 109, 107] (by decide)
    ⟨⟨by decide, by decide⟩, by decide, ⟨by decide, by decide, by decide⟩, ⟨by decide, by decide, by decide⟩, by decide⟩ (.inr (by decide)) (by decide)

set_option maxRecDepth 8000 in
example : colour 16 (at_ sample1 16 12) 127 0 = some 1 ∧ colour 16 (at_ sample1 16 12) 128 0 = some 2 ∧ colour 16 (at_ sample1 16 12) 255 2 = some 6 := by decide

set_option maxRecDepth 8000 in
example (junk : Nat → UInt8) (cur : Img) : Loads junk 3 cur sample2 (fun ok ms => ok = true ∧ ∃ m, ms = [m] ∧
    Shows m 16 16 4 IL_RGBA (fun x y c => if c < 3 then colour 16 (at_ sample2 (24 + 16 * 16) 12) (y * 16 + x) c else sample2[16 + (y * 16 + x)]?)) :=
  C229_mask_first junk 3 cur sample2 16 12 [105, 115, 51, 50] [115, 56, 109, 107] (by decide)
    ⟨⟨by decide, by decide⟩, by decide, ⟨by decide, by decide, by decide⟩, ⟨by decide, by decide, by decide⟩, by decide⟩ (.inr (by decide)) (by decide)

set_option maxRecDepth 8000 in
example (junk : Nat → UInt8) (cur : Img) (hc : cur.data.length = cur.size) :
    OnlyReads (ilLoadF (iLoadIcnsInternal fileOps junk 3 cur) (opened sample1 0)) (fun r => ∀ m ∈ r.2.1, m.data.length = m.size) :=
  (C230_writes_partial junk 3 cur hc sample1 (by decide) (by decide)).1

/-- An entry of an unknown kind that claims no bytes. -/
example (junk : Nat → UInt8) (fuel : Nat) (cur : Img) : Fails junk fuel cur [105, 99, 110, 115, 0, 0, 0, 16, 1, 2, 3, 4, 0, 0, 0, 0] .hang :=
  C230_violated_hang junk fuel cur _ (by decide) (by decide) (by decide) (by decide) (by decide) (by decide)

/-- An icon with one packet. -/
example (junk : Nat → UInt8) (cur : Img) : Fails junk 1 cur [105, 99, 110, 115, 0, 0, 0, 18, 105, 115, 51, 50, 0, 0, 0, 10, 253, 1] .oobRead :=
  C230_violated_short junk 1 cur _ (by decide) (by decide) (by decide) 16 2 [105, 115, 51, 50] [115, 56, 109, 107] (by decide) ⟨by decide, by decide, by decide⟩
    (fun h => absurd (h.resolve_left (by decide)) (by decide)) (by decide)

end DevIL.Icns
