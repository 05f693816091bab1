import Verif.Spec.PalFile
import Verif.Lemmas.PalFile
import Verif.Props.Pal
/-! Properties C105 to C107: palette files. -/
set_option autoImplicit false
namespace DevIL.PalFile
open DevIL.Utility DevIL.Register DevIL.PnmSpec DevIL.PalFileSpec DevIL.Palette

theorem take_set {b : List UInt8} {k : Nat} {v : UInt8} (h : k < b.length) : (b.set k v).take (k + 1) = b.take k ++ [v] := by
  rw [List.take_add_one, List.getElem?_set_self h, List.take_set_of_le (Nat.le_refl _)]
  rfl

/-- Reading one component. -/
theorem comp {d b w : List UInt8} {p k q : Nat} (hg : iFgetw d p = .ok (w, q)) (hw : IsByte w) (hk : k < b.length) (hb : b.length < 2 ^ 32) :
    (do
      let (w, p) ← iFgetw d p
      let v ← atoi w
      let b ← wr b (u32 k) (UInt8.ofNat (v % 256).toNat)
      pure (b, p) : C (List UInt8 × Nat)) = .ok (b.set k (UInt8.ofNat (number w)), q) := by
  obtain ⟨h1, h2, h3⟩ := hw
  rw [hg, bind_ok]
  simp only
  rw [atoi_number h1 (by omega), bind_ok, u32_of_lt (by omega)]
  have : ((number w : Int) % 256).toNat = number w := by omega
  rw [this, wr_of_lt hk]
  rfl

theorem plain_of {w : List UInt8} (h : IsByte w) : (∀ c ∈ w, Plain c) ∧ w.length < 255 := ⟨fun c hc => digit_plain (h.1.2 c hc), h.2.2⟩

theorem head_ne {w r : List UInt8} (h : IsByte w) : ∃ c t, w ++ r = c :: t ∧ c ≠ 32 := by
  cases w with
  | nil => exact absurd rfl h.1.1
  | cons c t => exact ⟨c, t ++ r, rfl, fun e => by subst e; exact absurd (h.1.2 32 (by simp)).1 (by decide)⟩

/-- Reading the three components of a colour. -/
theorem colour {d b r : List UInt8} {p i : Nat} {c : Digits} (hd : d.drop p = c.line ++ r) (hc : c.Ok) (hi : i * 3 + 3 ≤ b.length) (hb : b.length < 2 ^ 32) :
    ∃ b' p', loopN 3 (fun c (s : List UInt8 × Nat) => do
      let (w, p) ← iFgetw d s.2
      let v ← atoi w
      let b ← wr s.1 (u32 (i * 3 + c)) (UInt8.ofNat (v % 256).toNat)
      pure (b, p)) (b, p) = .ok (b', p') ∧ d.drop p' = r ∧ b'.length = b.length ∧ b'.take (i * 3 + 3) = b.take (i * 3) ++ c.bytes := by
  obtain ⟨hr, hg, hbl⟩ := hc
  have hd1 : d.drop p = c.r ++ 32 :: (c.g ++ (32 :: (c.b ++ (10 :: r)))) := by rw [hd]; simp [Digits.line]
  obtain ⟨x, t, e1, n1⟩ := head_ne (r := 32 :: (c.b ++ (10 :: r))) hg
  rw [e1] at hd1
  obtain ⟨g1, hd2⟩ := getw_sp hd1 n1 (plain_of hr).1 (plain_of hr).2
  rw [← e1] at hd2
  obtain ⟨y, t', e2, n2⟩ := head_ne (r := 10 :: r) hbl
  rw [e2] at hd2
  obtain ⟨g2, hd3⟩ := getw_sp hd2 n2 (plain_of hg).1 (plain_of hg).2
  rw [← e2] at hd3
  obtain ⟨g3, hd4⟩ := getw_lf hd3 (plain_of hbl).1 (plain_of hbl).2
  refine ⟨((b.set (i * 3 + 0) (UInt8.ofNat (number c.r))).set (i * 3 + 1) (UInt8.ofNat (number c.g))).set (i * 3 + 2) (UInt8.ofNat (number c.b)), _, ?_, hd4, ?_, ?_⟩
  rotate_left
  · simp
  · rw [show i * 3 + 3 = (i * 3 + 2) + 1 by omega, take_set (by simp; omega), show i * 3 + 2 = (i * 3 + 1) + 1 by omega, take_set (by simp; omega), Nat.add_zero (i * 3), take_set (by omega)]
    simp [Digits.bytes]
  · rw [loopN_succ, loopN_succ, loopN_succ, loopN_zero, bind_ok]
    rw [comp g1 hr (by omega) hb, bind_ok, comp g2 hg (by simp; omega) (by simpa using hb), bind_ok, comp g3 hbl (by simp; omega) (by simpa using hb)]

theorem bytes_length (cs : List Digits) : (cs.flatMap Digits.bytes).length = cs.length * 3 := by
  induction cs with
  | nil => rfl
  | cons c cs ih => rw [List.flatMap_cons, List.length_append, ih, List.length_cons, show c.bytes.length = 3 from rfl]; omega

/-- **C105 (loading).** A palette file in the JASC format with lines that end in line feeds gives a palette of exactly its colours. -/
theorem C105_load (junk : Nat → UInt8) (count : List UInt8) (cs : List Digits) (hn : IsNumber count) (hl : count.length < 255) (hc : number count = cs.length) (h0 : 0 < cs.length)
    (h31 : cs.length * 3 < 2 ^ 32) (hok : ∀ c ∈ cs, c.Ok) :
    ilLoadJascPal junk (jasc count cs) = .ok (.pal ⟨cs.flatMap Digits.bytes, cs.length * 3, IL_PAL_RGB24⟩) := by
  obtain ⟨d, hd⟩ : ∃ d, d = jasc count cs := ⟨_, rfl⟩
  have h1 : d.drop 0 = [74, 65, 83, 67, 45, 80, 65, 76] ++ 10 :: ([48, 49, 48, 48] ++ 10 :: (count ++ 10 :: cs.flatMap Digits.line)) := by rw [hd]; rfl
  obtain ⟨g1, h2⟩ := getw_lf h1 (by intro c hc; simp only [List.mem_cons, List.not_mem_nil, or_false] at hc; rcases hc with rfl | rfl | rfl | rfl | rfl | rfl | rfl | rfl <;> exact ⟨by decide, by decide⟩) (by decide)
  obtain ⟨g2, h3⟩ := getw_lf h2 (by intro c hc; simp only [List.mem_cons, List.not_mem_nil, or_false] at hc; rcases hc with rfl | rfl | rfl | rfl <;> exact ⟨by decide, by decide⟩) (by decide)
  obtain ⟨g3, h4⟩ := getw_lf h3 (fun c h => digit_plain (hn.2 c h)) hl
  unfold ilLoadJascPal
  rw [← hd, g1, bind_ok]
  simp only
  rw [g2, bind_ok]
  simp only
  rw [g3, bind_ok]
  simp only
  rw [atoi_number hn (by omega), bind_ok, hc]
  have e1 : ((cs.length : Int) % 4294967296).toNat = cs.length := by omega
  rw [e1, if_neg (by
    rintro (h | h | h)
    · omega
    · exact h (by decide)
    · exact h (by decide)), u32_of_lt h31]
  generalize 0 + _ + 1 + _ + 1 + _ + 1 = p at *
  obtain ⟨s, e, i1, i2, i3⟩ := loopN_inv (f := fun i s => loopN 3 (fun c (s : List UInt8 × Nat) => do
      let (w, p) ← iFgetw d s.2
      let v ← atoi w
      let b ← wr s.1 (u32 (i * 3 + c)) (UInt8.ofNat (v % 256).toNat)
      pure (b, p)) s) (n := cs.length) (s := (alloc junk (cs.length * 3), p))
    (fun i s => s.1.length = cs.length * 3 ∧ s.1.take (i * 3) = (cs.take i).flatMap Digits.bytes ∧ d.drop s.2 = (cs.drop i).flatMap Digits.line)
    ⟨alloc_length _ _, by simp, h4⟩
    (by
      rintro i ⟨b, q⟩ hi ⟨j1, j2, j3⟩
      simp only at j1 j2 j3
      rw [List.drop_eq_getElem_cons hi, List.flatMap_cons] at j3
      obtain ⟨b', p', e, k1, k2, k3⟩ := colour (i := i) (b := b) j3 (hok _ (List.getElem_mem hi)) (by omega) (by omega)
      refine ⟨(b', p'), e, by simp only; omega, ?_, k1⟩
      simp only
      rw [show (i + 1) * 3 = i * 3 + 3 by omega, k3, j2, List.take_succ_eq_append_getElem hi, List.flatMap_append]
      simp)
  rw [e, bind_ok]
  have : s.1 = cs.flatMap Digits.bytes := by
    rw [List.take_of_length_le (by omega), List.take_of_length_le (Nat.le_refl _)] at i2
    exact i2
  rw [← this]
  rfl

/-- The digits that `%d` writes for a byte. -/
theorem printD_byte (v : UInt8) : IsByte (Pnm.printD v.toNat) ∧ number (Pnm.printD v.toNat) = v.toNat := by
  have hv := v.toNat_lt
  obtain ⟨a, b, c⟩ : IsNumber (Pnm.dec 10 v.toNat) ∧ number (Pnm.dec 10 v.toNat) = v.toNat ∧ (Pnm.dec 10 v.toNat).length ≤ 10 := Pnm.dec_spec 9 v.toNat (by omega)
  unfold Pnm.printD
  rw [if_pos (by omega)]
  exact ⟨⟨a, by omega, by omega⟩, b⟩

/-- The digits of colour `i` of a block of RGB entries. -/
def digitsOf (d : List UInt8) (i : Nat) : Digits := ⟨Pnm.printD (d[i * 3]?.getD 0).toNat, Pnm.printD (d[i * 3 + 1]?.getD 0).toNat, Pnm.printD (d[i * 3 + 2]?.getD 0).toNat⟩

/-- Black. -/
def black : Digits := ⟨[48], [48], [48]⟩

theorem digitsOf_ok (d : List UInt8) (i : Nat) : (digitsOf d i).Ok := ⟨(printD_byte _).1, (printD_byte _).1, (printD_byte _).1⟩

theorem black_ok : black.Ok := by
  have : IsByte [48] := by refine ⟨⟨by decide, ?_⟩, by decide, by decide⟩; intro d hd; rw [List.mem_singleton] at hd; subst hd; decide
  exact ⟨this, this, this⟩

theorem flat3 {cs : List Digits} {i : Nat} (hi : i < cs.length) : (cs.flatMap Digits.bytes)[i * 3]? = some (UInt8.ofNat (number cs[i].r)) ∧
    (cs.flatMap Digits.bytes)[i * 3 + 1]? = some (UInt8.ofNat (number cs[i].g)) ∧ (cs.flatMap Digits.bytes)[i * 3 + 2]? = some (UInt8.ofNat (number cs[i].b)) := by
  induction cs generalizing i with
  | nil => simp at hi
  | cons c cs ih =>
    rw [List.flatMap_cons]
    cases i with
    | zero => exact ⟨rfl, rfl, rfl⟩
    | succ i =>
      have h := ih (i := i) (by simpa using hi)
      have l : c.bytes.length = 3 := rfl
      refine ⟨?_, ?_, ?_⟩
      · rw [List.getElem?_append_right (by omega), l, show (i + 1) * 3 - 3 = i * 3 by omega]; exact h.1
      · rw [List.getElem?_append_right (by omega), l, show (i + 1) * 3 + 1 - 3 = i * 3 + 1 by omega]; exact h.2.1
      · rw [List.getElem?_append_right (by omega), l, show (i + 1) * 3 + 2 - 3 = i * 3 + 2 by omega]; exact h.2.2

/-- What `ilSaveJascPal` writes and leaves behind. -/
theorem save_spec (junk : Nat → UInt8) (p : Pal) (n : Nat) (hp : Has p n) (h0 : 0 < n) (hn : n ≤ 256) :
    ∃ q, ilSaveJascPal junk p = .ok (some (jasc [50, 53, 54] ((List.range n).map (digitsOf q.data) ++ List.replicate (256 - n) black), ⟨p.data, n * 3, IL_PAL_RGB24⟩)) ∧
      q.type = IL_PAL_RGB24 ∧ Has q n ∧ ∀ i, i < n → red q i = red p i ∧ green q i = green p i ∧ blue q i = blue p i := by
  obtain ⟨q, e, ht, hq, hs⟩ := C29_convert_partial junk p n IL_PAL_RGB24 hp (by decide) (by omega)
  refine ⟨q, ?_, ht, hq, fun i hi => ⟨(hs i hi).1, (hs i hi).2.1, (hs i hi).2.2.1⟩⟩
  have hst : ilGetBppPal p.type = stride p.type := by
    have := hp.type
    unfold IsPal at this
    simp only [List.mem_cons, List.not_mem_nil, or_false] at this
    rcases this with h | h | h | h | h | h <;> rw [h] <;> decide
  have hcols : p.size / ilGetBppPal p.type = n := by
    rw [hst, hp.size]
    exact Nat.mul_div_cancel _ (by unfold stride; split <;> decide)
  have hq3 : q.size = n * 3 := by rw [hq.size, ht]; rfl
  have hql : q.data.length = n * 3 := by rw [hq.len, hq3]
  unfold ilSaveJascPal
  simp only [hcols]
  rw [if_neg (by omega), memcpy_all hp.len, bind_ok]
  have hc : ilConvertPal junk ⟨p.data, p.size, p.type⟩ IL_PAL_RGB24 = .ok (some ⟨q.data, q.size, q.type⟩) := by
    unfold ilConvertPal
    rw [show (⟨p.data, p.size, p.type⟩ : Pal) = p from rfl, e, bind_ok]
    simp only
    rw [memcpy_all hq.len]
    rfl
  rw [hc, bind_ok]
  simp only
  rw [ht, hq3, show ilGetBppPal IL_PAL_RGB24 = 3 by decide, forStep_mul (by decide)]
  have hlines : ∀ t, loopN n (fun k t => do
        let r ← rd q.data (k * 3)
        let g ← rd q.data (k * 3 + 1)
        let b ← rd q.data (k * 3 + 2)
        pure (t ++ line r g b)) t = .ok (t ++ ((List.range n).map (digitsOf q.data)).flatMap Digits.line) := by
    intro t
    have : ∀ m, m ≤ n → loopN m (fun k t => do
        let r ← rd q.data (k * 3)
        let g ← rd q.data (k * 3 + 1)
        let b ← rd q.data (k * 3 + 2)
        pure (t ++ line r g b)) t = .ok (t ++ ((List.range m).map (digitsOf q.data)).flatMap Digits.line) := by
      intro m
      induction m with
      | zero => intro _; simp
      | succ m ih =>
        intro hm
        rw [loopN_succ, ih (by omega), bind_ok, rd_of_lt (by omega), bind_ok, rd_of_lt (by omega), bind_ok, rd_of_lt (by omega), bind_ok]
        rw [List.range_succ, List.map_append, List.flatMap_append]
        simp only [List.map_cons, List.map_nil, List.flatMap_cons, List.flatMap_nil, List.append_nil, pure_eq_ok]
        congr 1
        rw [List.append_assoc]
        congr 2
        unfold line Digits.line digitsOf
        simp only [List.getElem?_eq_getElem (show m * 3 < q.data.length by omega), List.getElem?_eq_getElem (show m * 3 + 1 < q.data.length by omega),
          List.getElem?_eq_getElem (show m * 3 + 2 < q.data.length by omega), Option.getD_some]
        simp
    exact this n (Nat.le_refl _)
  have hz : ∀ m t, loopN m (fun _ t => (pure (t ++ txt ['0', ' ', '0', ' ', '0', '\n']) : C (List UInt8))) t = .ok (t ++ (List.replicate m black).flatMap Digits.line) := by
    intro m
    induction m with
    | zero => intro t; simp
    | succ m ih =>
      intro t
      rw [loopN_succ, ih, bind_ok, List.replicate_succ', List.flatMap_append, pure_eq_ok, List.append_assoc]
      rfl
  rw [hlines, bind_ok, hz, bind_ok]
  simp only [pure_eq_ok]
  congr 3
  unfold jasc
  rw [List.flatMap_append]
  simp only [List.append_assoc]
  rfl

/-- **C105.** A palette of 1 to 256 colours in any layout, saved as a JASC file and loaded again, has the same colours in the same places; it is filled up with black to 256 colours. -/
theorem C105_roundtrip (junk junk' : Nat → UInt8) (p : Pal) (n : Nat) (hp : Has p n) (h0 : 0 < n) (hn : n ≤ 256) :
    ∃ file p' q, ilSaveJascPal junk p = .ok (some (file, p')) ∧ ilLoadJascPal junk' file = .ok (.pal q) ∧ Has q 256 ∧
      (∀ i, i < n → red q i = red p i ∧ green q i = green p i ∧ blue q i = blue p i) ∧ ∀ i, n ≤ i → i < 256 → red q i = some 0 ∧ green q i = some 0 ∧ blue q i = some 0 := by
  obtain ⟨r, e, ht, hr, hs⟩ := save_spec junk p n hp h0 hn
  have hlen : ((List.range n).map (digitsOf r.data) ++ List.replicate (256 - n) black).length = 256 := by simp; omega
  have hl := C105_load junk' [50, 53, 54] ((List.range n).map (digitsOf r.data) ++ List.replicate (256 - n) black)
    (by refine ⟨by decide, ?_⟩; intro d hd; simp only [List.mem_cons, List.not_mem_nil, or_false] at hd; rcases hd with rfl | rfl | rfl <;> decide)
    (by decide) (by rw [hlen]; decide) (by rw [hlen]; decide) (by rw [hlen]; decide)
    (by
      intro c hc
      rcases List.mem_append.mp hc with h | h
      · obtain ⟨i, -, rfl⟩ := List.mem_map.mp h
        exact digitsOf_ok _ _
      · rw [List.eq_of_mem_replicate h]; exact black_ok)
  refine ⟨_, _, _, e, hl, ⟨show IsPal IL_PAL_RGB24 by decide, by rw [hlen]; rfl, by rw [bytes_length]⟩, ?_, ?_⟩
  · intro i hi
    obtain ⟨s1, s2, s3⟩ := hs i hi
    have hrl : r.data.length = n * 3 := by rw [hr.len, hr.size, ht]; rfl
    obtain ⟨f1, f2, f3⟩ := flat3 (cs := (List.range n).map (digitsOf r.data) ++ List.replicate (256 - n) black) (i := i) (by omega)
    have hg : ((List.range n).map (digitsOf r.data) ++ List.replicate (256 - n) black)[i]'(by omega) = digitsOf r.data i := by
      rw [List.getElem_append_left (by simpa using hi)]; simp
    rw [hg] at f1 f2 f3
    have conv : ∀ k, k < r.data.length → some (UInt8.ofNat (number (Pnm.printD (r.data[k]?.getD 0).toNat))) = r.data[k]? := by
      intro k hk
      rw [(printD_byte _).2, List.getElem?_eq_getElem hk]
      simp
    rw [← s1, ← s2, ← s3]
    unfold red green blue
    rw [ht]
    refine ⟨?_, ?_, ?_⟩
    · exact f1.trans (conv _ (by omega))
    · exact f2.trans (conv _ (by omega))
    · exact f3.trans (conv _ (by omega))
  · intro i hi hi'
    obtain ⟨f1, f2, f3⟩ := flat3 (cs := (List.range n).map (digitsOf r.data) ++ List.replicate (256 - n) black) (i := i) (by omega)
    have hg : ((List.range n).map (digitsOf r.data) ++ List.replicate (256 - n) black)[i]'(by omega) = black := by
      rw [List.getElem_append_right (by simpa using hi)]; simp
    rw [hg] at f1 f2 f3
    exact ⟨f1, f2, f3⟩

-- the hypotheses of C105_load are met
example : ilLoadJascPal (fun _ => 0) (jasc [50] [⟨[49], [50, 53, 53], [51]⟩, ⟨[48], [48], [57]⟩]) = .ok (.pal ⟨[1, 255, 3, 0, 0, 9], 6, IL_PAL_RGB24⟩) :=
  C105_load (fun _ => 0) [50] [⟨[49], [50, 53, 53], [51]⟩, ⟨[48], [48], [57]⟩] ⟨by decide, by decide⟩ (by decide) (by decide) (by decide) (by decide) (by
    unfold Digits.Ok IsByte IsNumber
    simp only [List.mem_cons, List.not_mem_nil, or_false, forall_eq_or_imp, forall_eq]
    decide)

/-! ### What fails -/

/-- Two colours with alpha. -/
def rgba : Pal := ⟨[1, 2, 3, 9, 4, 5, 6, 8], 8, IL_PAL_RGBA32⟩

theorem rgba_has : Has rgba 2 := ⟨by decide, by decide, by decide⟩

-- the hypotheses of C105_roundtrip are met
example : ∃ file p' q, ilSaveJascPal (fun _ => 0) rgba = .ok (some (file, p')) ∧ ilLoadJascPal (fun _ => 0) file = .ok (.pal q) ∧ red q 1 = some 4 ∧ red q 2 = some 0 := by
  obtain ⟨f, p', q, a, b, -, h1, h2⟩ := C105_roundtrip (fun _ => 0) (fun _ => 0) rgba 2 rgba_has (by decide) (by decide)
  exact ⟨f, p', q, a, b, (h1 1 (by decide)).1.trans (by decide), (h2 2 (by decide) (by decide)).1⟩

/-- **C106** (part).  Saving a palette of RGB entries leaves the palette of the image as it was.  What is missing: the other layouts, for which it is false, see `C106_violated_layout`. -/
theorem C106_save_partial (junk : Nat → UInt8) (p : Pal) (n : Nat) (hp : Has p n) (h0 : 0 < n) (hn : n ≤ 256) (ht : p.type = IL_PAL_RGB24) :
    ∃ file, ilSaveJascPal junk p = .ok (some (file, p)) := by
  obtain ⟨q, e, -, -, -⟩ := save_spec junk p n hp h0 hn
  have : (⟨p.data, n * 3, IL_PAL_RGB24⟩ : Pal) = p := by
    cases p with
    | mk d s t =>
      simp only at ht
      subst ht
      have := hp.size
      simp only [stride] at this
      congr 1
      exact this.symm
  rw [this] at e
  exact ⟨_, e⟩

example : ∃ file, ilSaveJascPal (fun _ => 0) ⟨[1, 2, 3, 4, 5, 6], 6, IL_PAL_RGB24⟩ = .ok (some (file, ⟨[1, 2, 3, 4, 5, 6], 6, IL_PAL_RGB24⟩)) :=
  C106_save_partial _ _ 2 ⟨by decide, by decide, by decide⟩ (by decide) (by decide) rfl

/-- **C106 is false of a palette with alpha**: after it is saved, the second colour of the image has the alpha of the first one as its red component. -/
theorem C106_violated_layout (junk : Nat → UInt8) : ∃ file p', ilSaveJascPal junk rgba = .ok (some (file, p')) ∧ red rgba 1 = some 4 ∧ red p' 1 = some 9 := by
  obtain ⟨q, e, -, -, -⟩ := save_spec junk rgba 2 rgba_has (by decide) (by decide)
  exact ⟨_, _, e, by decide, by decide⟩

/-- **C107** (part).  A file of printing characters and line feeds, without a run of ten digits and without a negative number, whatever else it says, makes the loader neither fault nor hang; a palette that it returns has a block of the size it claims.
What is missing: other characters and larger or negative numbers, for which it is false, see `C107_violated_hang` and `C107_violated_count`, and Adobe palettes, see `C107_violated_act`. -/
theorem C107_safe_partial (junk : Nat → UInt8) (d : List UInt8) (ht : Tame d) :
    ∃ r, ilLoadJascPal junk d = .ok r ∧ ∀ q, r = .pal q → q.data.length = q.size ∧ q.size ≠ 0 ∧ q.type = IL_PAL_RGB24 := by
  suffices h : Holds (ilLoadJascPal junk d) (fun r => ∀ q, r = .pal q → q.data.length = q.size ∧ q.size ≠ 0 ∧ q.type = IL_PAL_RGB24) from h
  unfold ilLoadJascPal
  refine (iFgetw_holds ht.chars (Nat.zero_le _)).bind (fun r1 h1 => ?_)
  refine (iFgetw_holds ht.chars h1.2).bind (fun r2 h2 => ?_)
  refine (iFgetw_holds ht.chars h2.2).bind (fun r3 h3 => ?_)
  refine (atoi_holds ht h3.1).bind (fun v hv => ?_)
  obtain ⟨n, hn⟩ : ∃ n, n = (v % 4294967296).toNat := ⟨_, rfl⟩
  rw [← hn]
  refine Holds.ite (fun _ => Holds.pure (fun q h => by cases h)) (fun hnot => ?_)
  have hn0 : n ≠ 0 := fun e => hnot (.inl e)
  rw [u32_of_lt (show n * 3 < 4294967296 by omega)]
  refine Holds.bind (Holds.loop (fun _ (s : List UInt8 × Nat) => s.1.length = n * 3 ∧ s.2 ≤ d.length) ⟨alloc_length _ _, h3.2⟩ ?_) (fun s hs => ?_)
  · intro i s hi h
    refine Holds.loop (fun _ (s : List UInt8 × Nat) => s.1.length = n * 3 ∧ s.2 ≤ d.length) h ?_
    intro c s hc h
    refine (iFgetw_holds ht.chars h.2).bind (fun r h4 => ?_)
    refine (atoi_holds ht h4.1).bind (fun v _ => ?_)
    refine (Holds.wr (by rw [u32_of_lt (by omega), h.1]; omega)).bind (fun b hb => ?_)
    exact Holds.pure ⟨by rw [hb.1]; exact h.1, h4.2⟩
  · refine Holds.pure (fun q hq => ?_)
    cases hq
    exact ⟨hs.1, by simp only; omega, rfl⟩

-- a file with a wrong count and no colours is such a file
example : Tame [74, 65, 83, 67, 45, 80, 65, 76, 10, 48, 49, 48, 48, 10, 57, 57, 10] := by
  refine ⟨by decide, fun ds hds hd => ?_, fun c hc => ?_⟩
  · obtain ⟨a, b, e⟩ := hds
    rcases Nat.lt_or_ge ds.length 10 with h | h
    · exact h
    · exfalso
      have hl : (a ++ ds ++ b).length = 17 := by rw [e]; rfl
      simp only [List.length_append] at hl
      have key : ∀ i, a.length ≤ i → i < a.length + 10 → ∃ c, [74, 65, 83, 67, 45, 80, 65, 76, 10, 48, 49, 48, 48, 10, 57, 57, 10][i]? = some c ∧ 48 ≤ c ∧ c ≤ (57 : UInt8) := by
        intro i h1 h2
        rw [← e, List.append_assoc, List.getElem?_append_right h1, List.getElem?_append_left (by omega), List.getElem?_eq_getElem (by omega)]
        exact ⟨_, rfl, hd _ (List.getElem_mem _)⟩
      rcases Nat.lt_or_ge a.length 5 with h5 | h5
      · obtain ⟨c, e1, e2⟩ := key 8 (by omega) (by omega)
        cases e1
        exact absurd e2 (by decide)
      · obtain ⟨c, e1, e2⟩ := key 13 (by omega) (by omega)
        cases e1
        exact absurd e2 (by decide)
  · obtain ⟨a, b, e⟩ := hc
    have hl : (a ++ [45, c] ++ b).length = 17 := by rw [e]; rfl
    simp only [List.length_append, List.length_cons, List.length_nil] at hl
    have k1 : [74, 65, 83, 67, 45, 80, 65, 76, 10, 48, 49, 48, 48, 10, 57, 57, 10][a.length]? = some (45 : UInt8) := by
      rw [← e, List.append_assoc, List.getElem?_append_right (Nat.le_refl _), Nat.sub_self]; rfl
    have k2 : [74, 65, 83, 67, 45, 80, 65, 76, 10, 48, 49, 48, 48, 10, 57, 57, 10][a.length + 1]? = some c := by
      rw [← e, List.append_assoc, List.getElem?_append_right (by omega), show a.length + 1 - a.length = 1 by omega]; rfl
    have : a.length = 4 := by
      have : ∀ i, i < 16 → [74, 65, 83, 67, 45, 80, 65, 76, 10, 48, 49, 48, 48, 10, 57, 57, 10][i]? = some (45 : UInt8) → i = 4 := by decide
      exact this _ (by omega) k1
    rw [this] at k2
    cases k2
    decide

/-- A palette of one colour with DOS line ends. -/
def dos : List UInt8 := [74, 65, 83, 67, 45, 80, 65, 76, 13, 10, 48, 49, 48, 48, 13, 10, 49, 13, 10, 49, 32, 50, 32, 51, 13, 10]

set_option maxRecDepth 100000 in
/-- **C107 is false**: loading a well-formed palette file with DOS line ends never returns. -/
theorem C107_violated_hang (junk : Nat → UInt8) : ilLoadJascPal junk dos = .error .hang := by
  have h1 : iFgetw dos 0 = .ok ([74, 65, 83, 67, 45, 80, 65, 76], 10) := by decide
  have h2 : iFgetw dos 10 = .ok ([48, 49, 48, 48], 16) := by decide
  have h3 : iFgetw dos 16 = .ok ([49], 19) := by decide
  have h4 : iFgetw dos 19 = .ok ([49], 21) := by decide
  have h5 : iFgetw dos 21 = .ok ([50], 23) := by decide
  have h6 : iFgetw dos 23 = .error .hang := by decide
  unfold ilLoadJascPal
  rw [h1, bind_ok]
  simp only
  rw [h2, bind_ok]
  simp only
  rw [h3, bind_ok]
  simp only
  rw [show atoi [49] = .ok 1 by decide, bind_ok, if_neg (by decide)]
  simp only [show ((1 : Int) % 4294967296).toNat = 1 by decide, loopN_succ, loopN_zero, bind_ok, h4, h6, show atoi [49] = .ok 1 by decide, show atoi [50] = .ok 2 by decide]
  rw [wr_of_lt (by rw [alloc_length]; decide), bind_ok]
  simp only [pure_eq_ok, bind_ok, h5, show atoi [50] = .ok 2 by decide]
  rw [wr_of_lt (by rw [List.length_set, alloc_length]; decide), bind_ok]
  simp only [bind_ok, h6]
  rfl

/-- A palette that claims 1431655766 colours: three times that is 2 modulo 2 ^ 32. -/
def many : List UInt8 := [74, 65, 83, 67, 45, 80, 65, 76, 10, 48, 49, 48, 48, 10, 49, 52, 51, 49, 54, 53, 53, 55, 54, 54, 10, 49, 32, 50, 32, 51, 10]

set_option maxRecDepth 100000 in
/-- **C107 is false**: a file that claims 1431655766 colours makes the loader write after the end of its block. -/
theorem C107_violated_count (junk : Nat → UInt8) : ilLoadJascPal junk many = .error .oobWrite := by
  have h1 : iFgetw many 0 = .ok ([74, 65, 83, 67, 45, 80, 65, 76], 9) := by decide
  have h2 : iFgetw many 9 = .ok ([48, 49, 48, 48], 14) := by decide
  have h3 : iFgetw many 14 = .ok ([49, 52, 51, 49, 54, 53, 53, 55, 54, 54], 25) := by decide
  have h4 : iFgetw many 25 = .ok ([49], 27) := by decide
  have h5 : iFgetw many 27 = .ok ([50], 29) := by decide
  have h6 : iFgetw many 29 = .ok ([51], 31) := by decide
  unfold ilLoadJascPal
  rw [h1, bind_ok]
  simp only
  rw [h2, bind_ok]
  simp only
  rw [h3, bind_ok]
  simp only
  rw [show atoi [49, 52, 51, 49, 54, 53, 53, 55, 54, 54] = .ok 1431655766 by decide, bind_ok, if_neg (by decide)]
  rw [loopN_error (k := 0) (e := .oobWrite) (by decide) (loopN_zero _ _)]
  · rfl
  simp only [loopN_succ, loopN_zero, bind_ok, h4, show atoi [49] = .ok 1 by decide]
  rw [wr_of_lt (by rw [alloc_length]; decide), bind_ok]
  simp only [pure_eq_ok, bind_ok, h5, show atoi [50] = .ok 2 by decide]
  rw [wr_of_lt (by rw [List.length_set, alloc_length]; decide), bind_ok]
  simp only [bind_ok, h6, show atoi [51] = .ok 3 by decide]
  rw [wr_of_ge (by rw [List.length_set, List.length_set, alloc_length]; decide)]
  rfl

/-- **C107 is false of Adobe palettes**: the loader opens the file but reads the one that was opened last by something else.  When there was none it reads through a null handle; when it is closed, through a freed one; and when it is still open, the palette is what that file says, whatever the named file `d` says. -/
theorem C107_violated_act (junk : Nat → UInt8) (d other : List UInt8) (h : other.length = 768) :
    ilLoadActPal junk .none d = .error .nullDeref ∧ ilLoadActPal junk .closed d = .error .useAfterFree ∧
      ilLoadActPal junk (.open_ other) d = .ok (true, .pal ⟨other, 768, IL_PAL_RGB24⟩) := by
  refine ⟨rfl, rfl, ?_⟩
  unfold ilLoadActPal iread
  simp only [pure_eq_ok, bind_ok]
  rw [List.take_of_length_le (by omega), h, memcpy_all h]
  rfl

example : (List.replicate 768 (7 : UInt8)).length = 768 := List.length_replicate

end DevIL.PalFile
