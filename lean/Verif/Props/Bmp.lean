import Verif.Lemmas.Bmp
import Verif.Props.Pcx
/-! C47 and C89: loading arbitrary bytes as BMP. -/
set_option autoImplicit false
namespace DevIL.Bmp
open DevIL.Lump DevIL.Endian DevIL.Image DevIL.Utility DevIL.Load
open DevIL.Targa (Loaded)

/-- The image owns a block of the size it reports, its dimensions agree with it if their product can be represented, and so does its palette. -/
def Owns (r : Loaded) : Prop :=
  r.1.data.length = r.1.size ∧ (r.1.width * r.1.bpp * r.1.height * r.1.depth < 4294967296 → r.1.Consistent) ∧ ∀ p, r.2 = some p → p.data.length = p.size

theorem initAny (junk : Nat → UInt8) {w h bpp fmt : Nat} (hw : 0 < w) (hh : 0 < h) :
    ∃ m, ilInitImage junk w h 1 bpp fmt IL_UNSIGNED_BYTE none = .ok (some m) ∧ m.data.length = m.size ∧ m.width = w ∧ m.height = h ∧ m.depth = 1 ∧
      m.bpp = bpp ∧ m.bpc = 1 ∧ m.size < 4294967296 ∧ (w * bpp * h < 4294967296 → m.Consistent) := by
  have e1 : atLeast1 w = w := by unfold atLeast1; rw [if_neg (by omega)]
  have e2 : atLeast1 h = h := by unfold atLeast1; rw [if_neg (by omega)]
  refine ⟨_, rfl, alloc_length _ _, e1, e2, rfl, rfl, rfl, u32_lt _, fun hfit => ?_⟩
  obtain ⟨m, em, c, _⟩ := init8 junk (bpp := bpp) fmt hw hh hfit
  cases em
  exact c

/-! ### The OS/2 header -/

def os2Of (file : List UInt8) : Os2 :=
  ⟨field file 0 2, field file 10 4, field file 14 4, field file 18 2, field file 20 2, field file 22 2, field file 24 2⟩

theorem os2Head_at {l : R} (g : Good l) (h0 : l.pos = 0) (junk : Nat → UInt8) (h : 26 ≤ l.size)
    (hfix : ¬ (2147483648 ≤ field l.data 14 4 ∧ field l.data 14 4 < 2147483660)) :
    Holds (iGetOS2Head junk l) fun r => r.1 = os2Of l.data ∧ Same l r.2 := by
  have hlen : 26 ≤ l.data.length := by rw [← g.size]; exact h
  have a : At l (l.data.take 26 ++ l.data.drop 26) := ⟨g, by rw [h0, List.drop_zero, List.take_append_drop]⟩
  have hl : (l.data.take 26).length = 26 := by rw [List.length_take]; omega
  unfold iGetOS2Head
  rw [a.read (size := 26) (number := 1) (by rw [hl]) (by decide), bind_ok]
  have hb : l.data.take 26 ++ (alloc junk 26).drop (l.data.take 26).length = l.data.take 26 := by
    rw [hl, List.drop_eq_nil_of_le (by rw [alloc_length]), List.append_nil]
  have hf : ∀ i n, i + n ≤ 26 → leVal (((l.data.take 26).drop i).take n) = field l.data i n := by
    intro i n hin
    unfold field
    rw [List.drop_take, List.take_take, Nat.min_eq_left (by omega)]
  dsimp only
  simp only [hb, hf 0 2 (by decide), hf 10 4 (by decide), hf 14 4 (by decide), hf 18 2 (by decide), hf 20 2 (by decide), hf 22 2 (by decide),
    hf 24 2 (by decide)]
  have hov : ¬ toInt (field l.data 14 4) - 12 < -2147483648 := by
    have := field_lt l.data 14 4
    unfold toInt
    split <;> omega
  rw [if_neg (by simp), if_neg hov]
  have g2 : Good (adv l 26) := good_adv g (by omega)
  rw [hl]
  refine (holds_seek (mode := SEEK_CUR) g2 (fun h => absurd h (by decide)) (by decide)).bind fun r hr => ?_
  exact Holds.pure ⟨rfl, hr.good, hr.data, hr.size⟩

theorem os2Bytes_safe {m : Img} {l : R} (g : Good l) (hc : m.Consistent) (hd : m.depth = 1) (hbc : m.bpc = 1) (hlt : m.size < 4294967296) :
    Holds (os2Bytes m l) (SOk l m.size) := by
  have e1 := hc.1
  have e3 := hc.2.2.1
  have e4 := hc.2.2.2
  rw [hbc, Nat.mul_one] at e1 e3
  rw [hd, Nat.mul_one] at e3
  have es : m.size = m.height * m.bps := by rw [e3, e1]; grind
  unfold os2Bytes
  refine Holds.ite (fun _ => ?_) (fun _ => ?_)
  · refine (holds_readAt' g (by rw [u32_of_lt (by omega)]; omega)).bind fun r hr => ?_
    exact Holds.pure ⟨hr.1, hr.2.2.trans e4⟩
  · refine (Holds.loop (fun (_ : Nat) (s : S) => SOk l m.size s) ⟨Same.refl g, e4⟩ ?_)
    intro j s hj hs
    have hle : (j + 1) * m.bps ≤ m.height * m.bps := Nat.mul_le_mul_right _ hj
    rw [Nat.add_mul, Nat.one_mul] at hle
    refine Holds.ite (fun _ => Holds.pure hs) (fun _ => ?_)
    refine (holds_readAt' hs.1.good (by rw [u32_of_lt (by omega), u32_of_lt (by omega), hs.2]; omega)).bind fun r hr => ?_
    obtain ⟨k, d, l'⟩ := r
    dsimp only at hr ⊢
    refine Holds.ite (fun _ => Holds.pure ⟨hs.1.trans hr.1, hr.2.2.trans hs.2⟩) (fun _ => ?_)
    refine (holds_seek (mode := SEEK_CUR) hr.1.good (fun h => absurd h (by decide)) (by decide)).bind fun r2 hr2 => ?_
    exact Holds.pure ⟨(hs.1.trans hr.1).trans hr2, hr.2.2.trans hs.2⟩

/-- What is promised of the image and palette after a load: if they were touched at all. -/
def Fine (r : Bool × Option Loaded × R) : Prop := ∀ m : Loaded, r.2.1 = some m → Owns m

theorem iGetOS2Bmp_safe {junk : Nat → UInt8} {h : Os2} {l : R} (g : Good l) (hc : iCheckOS2 h = true) (ho : h.off < 2147483648)
    (hx : h.cx < 65536) (hy : h.cy < 65536) (hfit : h.bits = 24 → h.cx * h.cy * 3 < 4294967296) : Holds (iGetOS2Bmp junk h l) Fine := by
  unfold iCheckOS2 at hc
  split at hc
  · cases hc
  split at hc
  · cases hc
  split at hc
  · cases hc
  rename_i _ _ hz
  simp only [decide_eq_true_eq] at hc
  have hfit' : h.cx * (if h.bits = 24 then 3 else 1) * h.cy < 4294967296 := by
    split
    · have := hfit ‹_›
      rw [Nat.mul_right_comm]; exact this
    · rw [Nat.mul_one]
      have := Nat.mul_le_mul (Nat.le_of_lt_succ hx) (Nat.le_of_lt_succ hy)
      omega
  unfold iGetOS2Bmp
  obtain ⟨m, em, c, f1, f2, f3, f4, f5, f6, f7, f8, f9, f10⟩ := init8 junk (if h.bits = 24 then IL_BGR else IL_COLOUR_INDEX) (w := h.cx) (h := h.cy)
    (bpp := if h.bits = 24 then 3 else 1) (by omega) (by omega) hfit'
  rw [em, bind_ok]
  dsimp only
  have hpal : ∀ n, n ≤ 768 → u32 (1 * n) = n := fun n hn => by rw [Nat.one_mul, u32_of_lt (by omega)]
  have hn : (if h.bits = 1 then 6 else if h.bits = 4 then 48 else if h.bits = 8 then 768 else 0) ≤ 768 := by
    split
    · decide
    split
    · decide
    split <;> decide
  generalize (if h.bits = 1 then 6 else if h.bits = 4 then 48 else if h.bits = 8 then 768 else 0) = n at hn ⊢
  have hown : ∀ (d pd : List UInt8), d.length = m.size → pd.length = n →
      Owns ({ m with origin := IL_ORIGIN_LOWER_LEFT, data := d }, if n = 0 then none else some (⟨pd, n, IL_PAL_BGR24⟩ : Pal)) := by
    intro d pd hd hpd
    refine ⟨hd, fun _ => ⟨c.1, c.2.1, c.2.2.1, hd⟩, fun p hp => ?_⟩
    dsimp only at hp
    split at hp
    · cases hp
    · cases hp; exact hpd
  refine (holds_readAt' g (by rw [hpal n hn, alloc_length]; omega)).bind fun r hr => ?_
  obtain ⟨k, pd, l1⟩ := r
  dsimp only at hr ⊢
  have hpd : pd.length = n := by rw [hr.2.2, alloc_length]
  refine Holds.ite (fun _ => Holds.pure (fun q hq => ?_)) (fun _ => ?_)
  · cases hq; exact hown m.data pd c.2.2.2 hpd
  have hto : toInt h.off = (h.off : Int) := by unfold toInt; rw [if_pos ho]
  refine (holds_seek hr.1.good (fun _ => by rw [hto]; omega) (by decide)).bind fun r2 hr2 => ?_
  obtain ⟨b2, l2⟩ := r2
  dsimp only at hr2 ⊢
  have hj : m.bpp = 1 → ∀ j, j < m.height → ∀ x, x < m.width → u32 (j * m.width + x) < m.size := by
    intro h1 j hj x hx
    have h2 := idx_lt hj hx
    have h3 : m.size = m.height * m.width := by rw [f9, ← f1, ← f2, ← f4, h1]; grind
    rw [u32_of_lt (by omega)]
    omega
  have hlt : m.size < 4294967296 := by rw [f9]; exact hfit'
  have hpx : Holds (if h.bits = 1 then loopN m.height (os2Row bitStep ((32 - m.width % 32) / 8 % 4) m.width) ⟨m.data, l2, false⟩
        else if h.bits = 4 then loopN m.height (os2Row nibbleStep ((8 - m.width % 8) / 2 % 4) m.width) ⟨m.data, l2, false⟩
        else os2Bytes { m with origin := IL_ORIGIN_LOWER_LEFT } l2) (SOk l2 m.size) := by
    refine Holds.ite (fun h1 => ?_) (fun h1 => Holds.ite (fun h4 => ?_) (fun h4 => ?_))
    · refine (Holds.loop (fun (_ : Nat) (s : S) => SOk l2 m.size s) ⟨Same.refl hr2.good, c.2.2.2⟩ ?_)
      intro j s hjh hs
      exact os2Row_safe hs fun t ht hct => bitStep_safe (hj (by rw [f4, h1]; rfl) j hjh) ht hct
    · refine (Holds.loop (fun (_ : Nat) (s : S) => SOk l2 m.size s) ⟨Same.refl hr2.good, c.2.2.2⟩ ?_)
      intro j s hjh hs
      exact os2Row_safe hs fun t ht hct => nibbleStep_safe (hj (by rw [f4, h4]; rfl) j hjh) ht hct
    · exact os2Bytes_safe (m := { m with origin := IL_ORIGIN_LOWER_LEFT }) hr2.good ⟨c.1, c.2.1, c.2.2.1, c.2.2.2⟩ f3 f5 hlt
  refine hpx.bind fun s hs => ?_
  refine Holds.pure (fun q hq => ?_)
  cases hq
  exact hown s.data pd hs.2 hpd

/-! ### Windows bitmaps -/

theorem absHeight_ok {h : Head} (hh : h.height ≠ -2147483648) : absHeight h = .ok h.height.natAbs := by
  unfold absHeight; rw [if_neg hh]; rfl

theorem palBytes_ok {u : Int} (h1 : -536870912 ≤ u) (h2 : u < 536870912) : ∃ n, palBytes u = .ok n ∧ n < 4294967296 := by
  unfold palBytes
  rw [if_neg (by omega)]
  refine ⟨_, rfl, ?_⟩
  unfold ofInt
  omega

theorem palSizeOf_ok {h : Head} (h1 : -536870912 ≤ h.used) (h2 : h.used < 536870912) : ∃ n, palSizeOf h = .ok n ∧ n < 4294967296 := by
  obtain ⟨k, ek, hk⟩ := palBytes_ok h1 h2
  unfold palSizeOf
  split
  · exact ⟨8, rfl, by decide⟩
  split
  · by_cases hu : h.used ≠ 0
    · rw [if_pos hu, ek, bind_ok]
      refine ⟨_, rfl, ?_⟩
      split <;> omega
    · rw [if_neg hu]
      refine ⟨_, rfl, ?_⟩
      split <;> omega
  · exact ⟨0, rfl, by decide⟩

theorem ilReadUncompBmp_safe {big : Bool} {junk : Nat → UInt8} {h : Head} {l : R} (g : Good l) (hc : iCheckBmp h = true) (hh : h.height ≠ -2147483648)
    (h1 : -536870912 ≤ h.used) (h2 : h.used < 536870912) (ho : 0 ≤ h.off) (ho3 : h.comp = 3 → 12 ≤ h.off)
    (hfit : h.width.toNat * (kindOf h).2 * h.height.natAbs < 4294967296) : Holds (ilReadUncompBmp big junk h l) Fine := by
  obtain ⟨hb, _, _, hz, hw, _⟩ := bits_cases hc
  unfold ilReadUncompBmp
  rw [absHeight_ok hh, bind_ok]
  obtain ⟨m, em, c, f1, f2, f3, f4, f5, f6, f7, f8, f9, f10⟩ := init8 junk 0 (w := h.width.toNat) (h := h.height.natAbs)
    (bpp := (kindOf h).2) (by omega) (by omega) hfit
  rw [em, bind_ok]
  dsimp only
  obtain ⟨n, en, hn⟩ := palSizeOf_ok h1 h2
  rw [en, bind_ok]
  have hown : ∀ (d pd : List UInt8), d.length = m.size → pd.length = n →
      Owns ({ m with format := (kindOf h).1, origin := originOf h, data := d }, if n = 0 then none else some (⟨pd, n, IL_PAL_BGR32⟩ : Pal)) := by
    intro d pd hd hpd
    refine ⟨hd, fun _ => ⟨c.1, c.2.1, c.2.2.1, hd⟩, fun p hp => ?_⟩
    dsimp only at hp
    split at hp
    · cases hp
    · cases hp; exact hpd
  refine (holds_seek (mode := SEEK_SET) g (fun _ => by decide) (by decide)).bind fun r hr => ?_
  obtain ⟨b1, l1⟩ := r
  dsimp only at hr ⊢
  refine (holds_readAt' hr.good (by rw [Nat.one_mul, u32_of_lt hn, alloc_length]; omega)).bind fun r2 hr2 => ?_
  obtain ⟨k, pd, l2⟩ := r2
  dsimp only at hr2 ⊢
  have hpd : pd.length = n := by rw [hr2.2.2, alloc_length]
  refine Holds.ite (fun _ => Holds.pure (fun q hq => ?_)) (fun _ => ?_)
  · cases hq; exact hown m.data pd c.2.2.2 hpd
  refine (holds_seek hr2.1.good (fun _ => ho) (by decide)).bind fun r3 hr3 => ?_
  obtain ⟨b3, l3⟩ := r3
  dsimp only at hr3 ⊢
  refine (readPixels_safe (m := { m with format := (kindOf h).1, origin := originOf h }) hr3.good hb ho3 (by show 0 < m.width; rw [f1]; omega)
    ⟨c.1, c.2.1, c.2.2.1, c.2.2.2⟩ f3 f5 f4 (by show m.size < _; rw [f9]; exact hfit)).bind fun s hs => ?_
  refine Holds.pure (fun q hq => ?_)
  cases hq
  exact hown s.data pd hs.2 hpd

theorem ilReadRleBmp_safe {four : Bool} {junk : Nat → UInt8} {h : Head} {l : R} (g : Good l) (hc : iCheckBmp h = true) (hh : h.height ≠ -2147483648)
    (h1 : -536870912 ≤ h.used) (h2 : h.used < 536870912) (ho : 0 ≤ h.off) : Holds (ilReadRleBmp four junk h l) Fine := by
  obtain ⟨hb, _, _, hz, hw, _⟩ := bits_cases hc
  unfold ilReadRleBmp
  rw [absHeight_ok hh, bind_ok]
  obtain ⟨m, em, f1, f2, f3, f4, f5, f6, f7, f8⟩ := initAny junk (fmt := 0) (w := h.width.toNat) (h := h.height.natAbs) (bpp := 1) (by omega) (by omega)
  rw [em, bind_ok]
  dsimp only
  have hn : Holds (if four then pure 64 else do
      let n ← palBytes h.used
      pure (if n = 0 then 1024 else n) : C Nat) fun n => n < 4294967296 := by
    refine Holds.ite (fun _ => Holds.pure (by decide)) (fun _ => ?_)
    obtain ⟨k, ek, hk⟩ := palBytes_ok h1 h2
    rw [ek, bind_ok]
    refine Holds.pure ?_
    split <;> omega
  refine hn.bind fun n hn => ?_
  have hown : ∀ (d pd : List UInt8), d.length = m.size → pd.length = n →
      Owns ({ m with format := IL_COLOUR_INDEX, origin := originOf h, data := d }, some (⟨pd, n, IL_PAL_BGR32⟩ : Pal)) := by
    intro d pd hd hpd
    refine ⟨hd, fun hlt => ?_, fun p hp => ?_⟩
    · have hlt' : m.width * m.bpp * m.height * m.depth < 4294967296 := hlt
      rw [f2, f5, f3, f4, Nat.mul_one, Nat.mul_one] at hlt'
      have c := f8 (by rw [Nat.mul_one]; exact hlt')
      exact ⟨c.1, c.2.1, c.2.2.1, hd⟩
    · cases hp; exact hpd
  refine (holds_seek (mode := SEEK_SET) g (fun _ => by decide) (by decide)).bind fun r hr => ?_
  obtain ⟨b1, l1⟩ := r
  dsimp only at hr ⊢
  refine (holds_readAt' hr.good (by rw [Nat.mul_one, u32_of_lt hn, alloc_length]; omega)).bind fun r2 hr2 => ?_
  obtain ⟨k, pd, l2⟩ := r2
  dsimp only at hr2 ⊢
  have hpd : pd.length = n := by rw [hr2.2.2, alloc_length]
  refine Holds.ite (fun _ => Holds.pure (fun q hq => ?_)) (fun _ => ?_)
  · cases hq; exact hown m.data pd f1 hpd
  refine (holds_seek hr2.1.good (fun _ => ho) (by decide)).bind fun r3 hr3 => ?_
  obtain ⟨b3, l3⟩ := r3
  dsimp only at hr3 ⊢
  have hcodes : Holds (codes (if four then step4 else step8) { m with format := IL_COLOUR_INDEX, origin := originOf h } l3)
      fun s => Same l3 s.inp ∧ s.data.length = m.size := by
    refine codes_safe (m := { m with format := IL_COLOUR_INDEX, origin := originOf h }) hr3.good f1 fun s s1 s2 s3 => ?_
    cases four
    · exact step8_safe s1 s2 s3 f7
    · exact step4_safe s1 s2 s3
  refine hcodes.bind fun s hs => ?_
  refine Holds.pure (fun q hq => ?_)
  cases hq
  exact hown s.data pd hs.2 hpd

/-! ## C89 and C47 -/

/-- A file whose header fields (little-endian, at the offsets of the format) keep clear of the loader's faults, see the violations below. -/
structure Sane (file : List UInt8) : Prop where
  /-- The pixels are not in front of the file. -/
  off : 0 ≤ sfield file 10 4
  /-- Neither are the bit masks. -/
  masks : sfield file 30 4 = 3 → 12 ≤ sfield file 10 4
  /-- The height has an absolute value. -/
  height : sfield file 22 4 ≠ -2147483648
  /-- The size of the palette can be represented. -/
  used : -536870912 ≤ sfield file 46 4 ∧ sfield file 46 4 < 536870912
  /-- The size of an uncompressed image can be represented. -/
  fits : sfield file 30 4 = 0 ∨ sfield file 30 4 = 3 →
    (sfield file 18 4).toNat * (if sfield file 28 2 ≤ 8 then 1 else 3) * (sfield file 22 4).natAbs < 4294967296
  /-- The size of an OS/2 header can be subtracted from. -/
  fix : ¬ (2147483648 ≤ field file 14 4 ∧ field file 14 4 < 2147483660)
  /-- The size of an OS/2 image can be represented. -/
  os2 : field file 24 2 = 24 → field file 18 2 * field file 20 2 * 3 < 4294967296

/-- **C89.** Loading any file of at least 54 bytes as BMP terminates without an access outside a block, whatever it contains behind a `Sane`
header, and leaves an image and palette that own what they report.  Missing, and false: other headers, see the violations.  Missing: files
shorter than the header, whose missing fields are what was in memory. -/
theorem C89_safe_partial (big : Bool) (junk : Nat → UInt8) (file : List UInt8) (h54 : 54 ≤ file.length) (hlt : file.length < 4294967295) (hs : Sane file) :
    ∃ ok im l, iLoadBitmapInternal big junk (open_ file file.length) = .ok (ok, im, l) ∧ ∀ m : Loaded, im = some m → Owns m := by
  have g := (at_open (data := file) (by omega) hlt).1
  suffices h : Holds (iLoadBitmapInternal big junk (open_ file file.length)) Fine by
    obtain ⟨⟨a, b, c⟩, e, h⟩ := h
    exact ⟨a, b, c, e, h⟩
  unfold iLoadBitmapInternal
  rw [head_at g rfl big junk h54, bind_ok]
  have gd : (open_ file file.length).data = file := rfl
  dsimp only
  rw [gd]
  have hg54 : Good (adv (open_ file file.length) 54) := good_adv g (by show 0 + 54 ≤ file.length; omega)
  refine Holds.ite (fun hc => ?_) (fun hc => ?_)
  · have hsk : seek (adv (open_ file file.length) 54) (-54) SEEK_CUR = .ok (true, open_ file file.length) := by
      unfold seek seekTo
      have : ofInt (((adv (open_ file file.length) 54).pos : Int) + -54) = 0 := rfl
      rw [if_neg (by decide), if_pos rfl, this, if_neg (Nat.not_lt_zero _)]
      rfl
    rw [hsk, bind_ok]
    refine (os2Head_at g rfl junk (by show 26 ≤ file.length; omega) (by rw [gd]; exact hs.fix)).bind fun r hr => ?_
    obtain ⟨o, l1⟩ := r
    obtain ⟨ho, hsame⟩ := hr
    dsimp only at ho hsame ⊢
    rw [ho, gd]
    refine Holds.ite (fun _ => Holds.pure (fun q hq => nomatch hq)) (fun hck => ?_)
    have hoff := hs.off
    refine iGetOS2Bmp_safe hsame.good (by simpa using hck) ?_ (field_lt file 18 2) (field_lt file 20 2) hs.os2
    show field file 10 4 < 2147483648
    unfold sfield at hoff
    have := field_lt file 10 4
    simp only [Nat.reducePow, Nat.reduceMul, Nat.reduceSub] at this hoff
    split at hoff <;> omega
  · have hc : iCheckBmp (headOf file) = true := by simpa using hc
    refine Holds.ite (fun _ => Holds.pure (fun q hq => nomatch hq)) (fun _ => ?_)
    refine Holds.ite (fun hcomp => ?_) (fun _ => ?_)
    · refine ilReadUncompBmp_safe hg54 hc hs.height hs.used.1 hs.used.2 hs.off hs.masks ?_
      have := hs.fits hcomp
      unfold kindOf
      by_cases hb : sfield file 28 2 ≤ 8
      · rw [if_pos hb] at this
        rw [if_pos (show (headOf file).bits ≤ 8 from hb)]
        exact this
      · rw [if_neg hb] at this
        rw [if_neg (show ¬ (headOf file).bits ≤ 8 from hb)]
        exact this
    · exact ilReadRleBmp_safe hg54 hc hs.height hs.used.1 hs.used.2 hs.off

/-- The header of a Windows bitmap: its mark, sizes, and dimensions that are not empty. -/
structure Windows (file : List UInt8) : Prop where
  long : 54 ≤ file.length
  lt : file.length < 4294967295
  mark : file[0]? = some 66 ∧ file[1]? = some 77
  size : field file 14 4 = 40
  width : 1 ≤ sfield file 18 4
  height : sfield file 22 4 ≠ 0
  planes : field file 26 2 = 1
  bits : field file 28 2 = 1 ∨ field file 28 2 = 4 ∨ field file 28 2 = 8 ∨ field file 28 2 = 16 ∨ field file 28 2 = 24 ∨ field file 28 2 = 32

theorem sfield_of {file : List UInt8} {o n v : Nat} (h : field file o n = v) (hv : v < 2 ^ (8 * n - 1)) : sfield file o n = v := by
  unfold sfield
  rw [if_pos (by omega), h]

theorem mark_field {file : List UInt8} (h : file[0]? = some 66 ∧ file[1]? = some 77) : field file 0 2 = 19778 := by
  match file, h with
  | a :: b :: t, h =>
    simp only [List.getElem?_cons_zero, Option.some.injEq, List.getElem?_cons_succ] at h
    rw [h.1, h.2]
    simp [field, leVal]

theorem Windows.check {file : List UInt8} (h : Windows file) (hc : field file 30 4 ≤ 3) (hb : field file 30 4 = 3 → field file 28 2 = 16 ∨ field file 28 2 = 32) :
    iCheckBmp (headOf file) = true ∧ (headOf file).planes = 1 ∧ (headOf file).bits = field file 28 2 ∧ (headOf file).comp = field file 30 4 := by
  have e1 : sfield file 14 4 = 40 := sfield_of h.size (by decide)
  have e2 : sfield file 26 2 = 1 := sfield_of h.planes (by decide)
  have hbits := h.bits
  have e3 : sfield file 28 2 = (field file 28 2 : Int) := sfield_of rfl (by simp only [Nat.reduceMul, Nat.reduceSub, Nat.reducePow]; omega)
  have e4 : sfield file 30 4 = (field file 30 4 : Int) := sfield_of rfl (by simp only [Nat.reduceMul, Nat.reduceSub, Nat.reducePow]; omega)
  have hw := h.width
  have hh := h.height
  refine ⟨?_, e2, e3, e4⟩
  have t : (headOf file).type = 19778#16 := by
    show BitVec.ofNat 16 (field file 0 2) = _
    rw [mark_field h.mark]
  have e1' : (headOf file).size = 40 := e1
  have e2' : (headOf file).planes = 1 := e2
  have e3' : (headOf file).bits = (field file 28 2 : Int) := e3
  have e4' : (headOf file).comp = (field file 30 4 : Int) := e4
  unfold iCheckBmp
  rw [if_neg (by rw [t, e1']; simp), if_neg (by
    show ¬ (sfield file 22 4 = 0 ∨ sfield file 18 4 < 1)
    omega), if_neg (by omega), if_neg (by omega), if_neg (by omega), decide_eq_true_eq]
  omega

/-- **C47.** Decoding any run-length encoded bitmap (compression 1 or 2), of any announced dimensions, terminates without an access outside a
block, if the header does not place the pixels in front of the file, the height has an absolute value and the number of colours can be
multiplied by four.  Missing, and false: other headers, see the violations. -/
theorem C47_safe_partial (big : Bool) (junk : Nat → UInt8) (file : List UInt8) (hw : Windows file) (hcomp : field file 30 4 = 1 ∨ field file 30 4 = 2)
    (hoff : 0 ≤ sfield file 10 4) (hheight : sfield file 22 4 ≠ -2147483648)
    (hused : -536870912 ≤ sfield file 46 4 ∧ sfield file 46 4 < 536870912) :
    ∃ ok im l, iLoadBitmapInternal big junk (open_ file file.length) = .ok (ok, im, l) ∧ ∀ m : Loaded, im = some m → Owns m := by
  have h54 := hw.long
  have g := (at_open (data := file) (by omega) hw.lt).1
  obtain ⟨hc, hp, hb, hcm⟩ := hw.check (by omega) (by omega)
  suffices h : Holds (iLoadBitmapInternal big junk (open_ file file.length)) Fine by
    obtain ⟨⟨a, b, c⟩, e, h⟩ := h
    exact ⟨a, b, c, e, h⟩
  unfold iLoadBitmapInternal
  rw [head_at g rfl big junk h54, bind_ok]
  have gd : (open_ file file.length).data = file := rfl
  dsimp only
  rw [gd, hc, if_neg (by decide), hp, if_neg (by decide), if_neg (by omega)]
  exact ilReadRleBmp_safe (good_adv g (by show 0 + 54 ≤ file.length; omega)) hc hheight hused.1 hused.2 hoff

/-! ### Instances and violations -/

/-- A file with the given fields: data offset, width, height, bits, compression and colours; `rest` follows the header. -/
def bmp (off w h bits comp used : Nat) (rest : List UInt8) : List UInt8 :=
  [66, 77] ++ leBytes 4 0 ++ leBytes 4 0 ++ leBytes 4 off ++ leBytes 4 40 ++ leBytes 4 w ++ leBytes 4 h ++ leBytes 2 1 ++ leBytes 2 bits ++
    leBytes 4 comp ++ leBytes 4 0 ++ leBytes 4 0 ++ leBytes 4 0 ++ leBytes 4 used ++ leBytes 4 0 ++ rest

set_option maxRecDepth 20000 in
/-- A three by two image, run-length encoded with a delta. -/
example : ∃ ok im l, iLoadBitmapInternal false (fun _ => 9) (open_ (bmp 62 3 2 8 1 2 [1, 2, 3, 0, 4, 5, 6, 0, 2, 1, 0, 2, 1, 1, 2, 1]) 70) =
    .ok (ok, im, l) ∧ ∀ m : Loaded, im = some m → Owns m :=
  C47_safe_partial false (fun _ => 9) (bmp 62 3 2 8 1 2 [1, 2, 3, 0, 4, 5, 6, 0, 2, 1, 0, 2, 1, 1, 2, 1])
    ⟨by decide, by decide, by decide, by decide, by decide, by decide, by decide, by decide⟩ (by decide) (by decide) (by decide) (by decide)

set_option maxRecDepth 20000 in
/-- A one-bit bitmap, cut off. -/
example : ∃ ok im l, iLoadBitmapInternal false (fun _ => 9) (open_ (bmp 62 9 2 1 0 0 [1, 2, 3, 0, 4, 5, 6, 0, 0xAA]) 63) =
    .ok (ok, im, l) ∧ ∀ m : Loaded, im = some m → Owns m :=
  C89_safe_partial false (fun _ => 9) (bmp 62 9 2 1 0 0 [1, 2, 3, 0, 4, 5, 6, 0, 0xAA]) (by decide) (by decide)
    ⟨by decide, by decide, by decide, by decide, by decide, by decide, by decide⟩

set_option maxRecDepth 20000 in
/-- **C47 (violated).** A negative data offset moves the input in front of its first byte, and reading there is outside the block. -/
theorem C47_violated_offset :
    iLoadBitmapInternal false (fun _ => 0) (open_ (bmp 4294967295 1 1 8 1 1 [1, 2, 3, 0]) 58) = .error .oobRead := by rfl

set_option maxRecDepth 20000 in
/-- **C47 (violated).** The number of colours times four overflows. -/
theorem C47_violated_colours :
    iLoadBitmapInternal false (fun _ => 0) (open_ (bmp 58 1 1 8 1 0x20000000 [1, 2, 3, 0]) 58) = .error .overflow := by rfl

set_option maxRecDepth 20000 in
/-- **C89 (violated).** The same offset in an uncompressed bitmap. -/
theorem C89_violated_offset :
    iLoadBitmapInternal false (fun _ => 0) (open_ (bmp 4294967295 1 1 24 0 0 [1, 2, 3, 0]) 58) = .error .oobRead := by rfl

set_option maxRecDepth 20000 in
/-- **C89 (violated).** With bit fields, an offset below 12 places the masks in front of the file. -/
theorem C89_violated_masks :
    iLoadBitmapInternal false (fun _ => 0) (open_ (bmp 11 1 1 16 3 0 [1, 2, 3, 0]) 58) = .error .oobRead := by rfl

set_option maxRecDepth 20000 in
/-- **C89 (violated).** A one-bit image of 2^30 columns and four rows: the size of the block wraps to nothing, and the first pixel is stored
outside it. -/
theorem C89_violated_wrap :
    iLoadBitmapInternal false (fun _ => 0) (open_ (bmp 54 0x40000000 4 1 0 0 [1, 2, 3, 0, 1, 2, 3, 0]) 62) = .error .oobWrite := by rfl

set_option maxRecDepth 20000 in
/-- **C89 (violated).** The least height has no absolute value. -/
theorem C89_violated_height :
    iLoadBitmapInternal false (fun _ => 0) (open_ (bmp 54 1 0x80000000 24 0 0 [1, 2, 3, 0]) 58) = .error .overflow := by rfl

end DevIL.Bmp
