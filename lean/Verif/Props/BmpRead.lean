import Verif.Lemmas.BmpRead
import Verif.Props.Bmp
/-! C90: what an uncompressed Windows bitmap decodes to. -/
set_option autoImplicit false
namespace DevIL.Bmp
open DevIL.Lump DevIL.Endian DevIL.Image DevIL.Utility DevIL.Load
open DevIL.Targa (Loaded)

/-! ### Specification -/

/-- The bytes from one row to the next: rows are padded to 32 bits. -/
def stride (bits w : Nat) : Nat := (w * bits + 31) / 32 * 4

/-- Component `c` (blue, green, red; or the colour index) of pixel `x` of the stored row `y` of a bitmap of `w` columns whose pixels start at
`off`: the leftmost pixel is in the highest bits of a byte, and 16-bit pixels have five bits per channel, which become the high bits of a byte. -/
def sample (file : List UInt8) (bits off w x y c : Nat) : UInt8 :=
  let row := off + y * stride bits w
  if bits = 1 then UInt8.ofNat ((file.getD (row + x / 8) 0).toNat / 2 ^ (7 - x % 8) % 2)
  else if bits = 4 then UInt8.ofNat (if x % 2 = 0 then (file.getD (row + x / 2) 0).toNat / 16 else (file.getD (row + x / 2) 0).toNat % 16)
  else if bits = 8 then file.getD (row + x) 0
  else if bits = 16 then UInt8.ofNat (field file (row + x * 2) 2 / 32 ^ c % 32 * 8)
  else if bits = 24 then file.getD (row + x * 3 + c) 0
  else file.getD (row + x * 4 + c) 0

/-- The same for bit fields: `k` bits from bit `lo` of the pixel on, as the high bits of a byte. -/
def bitSample (file : List UInt8) (bits off w k lo x y : Nat) : UInt8 :=
  UInt8.ofNat (field file (off + y * stride bits w + x * (bits / 8)) (bits / 8) / 2 ^ lo % 2 ^ k * 2 ^ (8 - k))

/-- The number of colours in the palette, by the bits per pixel and the number the header gives. -/
def colours (bits used : Nat) : Nat := if 8 < bits then 0 else if used = 0 then 2 ^ bits else used

/-- The palette, which follows the header: four bytes per colour, blue first. -/
def paletteOf (file : List UInt8) (n : Nat) : Option Pal := if n = 0 then none else some ⟨(file.drop 54).take (n * 4), n * 4, IL_PAL_BGR32⟩

/-- A complete uncompressed Windows bitmap of `w` columns and `h` rows: the header is in order, and every row is in the file. -/
structure Complete (file : List UInt8) (w h bits off : Nat) : Prop where
  windows : Windows file
  small : file.length < 2147483648
  width : field file 18 4 = w
  height : (sfield file 22 4).natAbs = h
  depth : field file 28 2 = bits
  start : field file 10 4 = off
  palette : 54 + colours bits (field file 46 4) * 4 ≤ off
  rows : off + h * stride bits w ≤ file.length
  fits : w * (if bits ≤ 8 then 1 else 3) * h < 4294967296

/-- The image that a file is to give. -/
structure Gives (m : Img) (file : List UInt8) (w h bits : Nat) (f : Nat → Nat → Nat → UInt8) : Prop where
  cons : m.Consistent
  width : m.width = w
  height : m.height = h
  depth : m.depth = 1
  bpp : m.bpp = if bits ≤ 8 then 1 else 3
  bpc : m.bpc = 1
  type : m.type = IL_UNSIGNED_BYTE
  format : m.format = if bits ≤ 8 then IL_COLOUR_INDEX else IL_BGR
  /-- The first stored row is at the bottom, unless the height is negative. -/
  origin : m.origin = if sfield file 22 4 < 0 then IL_ORIGIN_UPPER_LEFT else IL_ORIGIN_LOWER_LEFT
  pixels : ∀ x y c, x < w → y < h → c < m.bpp → m.px x y 0 c = some (f x y c)

/-! ### The pixels -/

/-- The value of a cell of the block, given the values of pixels. -/
def cell (w k : Nat) (f : Nat → Nat → Nat → UInt8) (i : Nat) : UInt8 := f (i / k % w) (i / k / w) (i % k)

theorem cell_eq {w k x y c : Nat} (f : Nat → Nat → Nat → UInt8) (hx : x < w) (hc : c < k) : cell w k f ((y * w + x) * k + c) = f x y c := by
  unfold cell
  rw [idx_div hc, idx_mod hc, idx_div hx, idx_mod hx]

theorem cell_one {w x y : Nat} (f : Nat → Nat → Nat → UInt8) (hx : x < w) : cell w 1 f (y * w + x) = f x y 0 := by
  have := cell_eq (k := 1) (c := 0) (y := y) f hx (by decide)
  rwa [Nat.mul_one, Nat.add_zero] at this

theorem field_one (file : List UInt8) {i : Nat} (h : i < file.length) : field file i 1 = (file.getD i 0).toNat := by
  unfold field
  rw [List.drop_eq_getElem_cons h, List.take_succ_cons]
  simp [leVal, h]

theorem field_succ (file : List UInt8) {i n : Nat} (h : i < file.length) : field file i (n + 1) = (file.getD i 0).toNat + 256 * field file (i + 1) n := by
  unfold field
  rw [List.drop_eq_getElem_cons h, List.take_succ_cons]
  simp [leVal, h]

/-- A byte of a little-endian number. -/
theorem field_byte (file : List UInt8) : ∀ (c n i : Nat), c < n → i + n ≤ file.length → field file i n / 256 ^ c % 256 = (file.getD (i + c) 0).toNat := by
  intro c
  induction c with
  | zero =>
    intro n i hc h
    obtain ⟨n, rfl⟩ : ∃ k, n = k + 1 := ⟨n - 1, by omega⟩
    rw [field_succ file (by omega)]
    have := (file.getD i 0).toNat_lt
    simp only [Nat.pow_zero, Nat.div_one, Nat.add_zero]
    omega
  | succ c ih =>
    intro n i hc h
    obtain ⟨n, rfl⟩ : ∃ k, n = k + 1 := ⟨n - 1, by omega⟩
    rw [field_succ file (by omega), Nat.pow_succ, Nat.mul_comm (256 ^ c), ← Nat.div_div_eq_div_mul]
    have := (file.getD i 0).toNat_lt
    rw [show ((file.getD i 0).toNat + 256 * field file (i + 1) n) / 256 = field file (i + 1) n by omega, ih n (i + 1) (by omega) (by omega)]
    congr 2
    omega

/-- The pixels of an image whose input stands at the first of them. -/
theorem readPixels_spec {h : Head} {m : Img} {l : R} (g : Good l) {bits off w hh : Nat} {f : Nat → Nat → Nat → UInt8}
    (hbits : h.bits = (bits : Int)) (hb : bits = 1 ∨ bits = 4 ∨ bits = 8 ∨ bits = 16 ∨ bits = 24 ∨ bits = 32) (big : Bool) (hbig : bits = 16 ∨ bits = 32 → big = false)
    (hcomp : h.comp = 0) (hpos : l.pos = off)
    (hw0 : 0 < w) (hmw : m.width = w) (hmh : m.height = hh) (hc : m.Consistent) (hd : m.depth = 1) (hbc : m.bpc = 1)
    (hbp : m.bpp = if bits ≤ 8 then 1 else 3) (hlt : m.size < 4294967296) (hrows : off + hh * stride bits w ≤ l.size)
    (hf : ∀ x y c, f x y c = sample l.data bits off w x y c) :
    Holds (readPixels big h m l) fun s => Filled (cell w m.bpp f) m.size m.size s.data ∧ s.failed = false := by
  have e1 := hc.1
  have e2 := hc.2.1
  have e3 := hc.2.2.1
  have e4 := hc.2.2.2
  have hsz := g.size
  rw [hbc, Nat.mul_one] at e1 e2 e3
  rw [hd, Nat.mul_one] at e3
  rw [hmw] at e1 e2 e3
  rw [hmh] at e2 e3
  have hrow : ∀ j, j < hh → j * stride bits w + stride bits w ≤ hh * stride bits w := by
    intro j hj
    rw [← Nat.succ_mul]
    exact Nat.mul_le_mul_right _ hj
  have small : m.bpp = 1 → m.size = hh * w := fun h1 => by rw [e3, h1, Nat.mul_one, Nat.mul_comm]
  have wide : m.bpp = 3 → m.size = hh * w * 3 := fun h1 => by rw [e3, h1]; grind
  have hjw : ∀ j, j < hh → j * w + w ≤ hh * w := fun j hj => by rw [← Nat.succ_mul]; exact Nat.mul_le_mul_right _ hj
  unfold readPixels
  rw [hbits, hmw, hmh]
  rcases hb with rfl | rfl | rfl | rfl | rfl | rfl
  · -- one bit
    rw [if_pos (by decide)]
    have b1 : m.bpp = 1 := hbp
    have es := small b1
    rw [b1]
    refine (smallRows_spec (stride := stride 1 w) (f := cell w 1 f) (n := m.size) e4 ?_).mono fun s hs => ⟨by rw [es] at hs ⊢; exact hs.1, hs.2⟩
    intro j d hj hfil
    have hs := hrow j hj
    have hpad : (w + 7) / 8 + (32 - w % 32) / 8 % 4 = stride 1 w := by unfold stride; omega
    refine (bitRow_spec g (o := j * stride 1 w) (by rw [es]; exact hjw j hj) hlt hfil (by omega) ?_).mono fun s h => ⟨h.1, by rw [h.2.1, Nat.add_assoc, hpad], h.2.2⟩
    intro x hx
    rw [cell_one f hx, hf, hpos]
    rfl
  · -- four bits
    rw [if_neg (by decide), if_pos (by decide)]
    have b1 : m.bpp = 1 := hbp
    have es := small b1
    rw [b1]
    refine (smallRows_spec (stride := stride 4 w) (f := cell w 1 f) (n := m.size) e4 ?_).mono fun s hs => ⟨by rw [es] at hs ⊢; exact hs.1, hs.2⟩
    intro j d hj hfil
    have hs := hrow j hj
    have hpad : (w + 1) / 2 + (8 - w % 8) / 2 % 4 = stride 4 w := by unfold stride; omega
    refine (nibbleRow_spec g (o := j * stride 4 w) (by rw [es]; exact hjw j hj) hlt hfil (by omega) ?_).mono fun s h => ⟨h.1, by rw [h.2.1, Nat.add_assoc, hpad], h.2.2⟩
    intro x hx
    rw [cell_one f hx, hf, hpos]
    rfl
  · -- eight bits
    rw [if_neg (by decide), if_neg (by decide), if_neg (by decide), if_neg (by decide)]
    have b1 : m.bpp = 1 := hbp
    have es := small b1
    have eb : m.bps = w := by rw [e1, b1, Nat.mul_one]
    have ep : m.plane = m.size := by rw [e2, e3]
    rw [b1, eb, ep]
    refine rowsBytes_spec g (stride := stride 8 w) hw0 es e4 (by unfold stride; omega) (by omega) ?_
    intro j x hj hx
    rw [cell_one f hx, hf, hpos]
    rfl
  · -- sixteen bits
    rw [if_neg (by decide), if_neg (by decide), if_pos (by decide)]
    have b1 : m.bpp = 3 := hbp
    have es := wide b1
    rw [b1, hbig (.inl rfl)]
    unfold readMasks
    rw [if_neg (by rw [hcomp]; decide), pure_eq_ok, bind_ok]
    dsimp only
    rw [masks16_eq]
    refine rows16_spec g (stride := stride 16 w) es hlt e4 (by unfold stride; omega) (by omega) ?_
    intro j x hj hx
    dsimp only
    simp only [maskOf_get, hpos]
    refine ⟨?_, ?_, ?_⟩
    · have := cell_eq (k := 3) (c := 0) (y := j) f hx (by decide)
      rw [Nat.add_zero] at this
      rw [this, hf]; rfl
    · rw [cell_eq f hx (by decide), hf]; rfl
    · rw [cell_eq f hx (by decide), hf]; rfl
  · -- twenty-four bits
    rw [if_neg (by decide), if_neg (by decide), if_neg (by decide), if_neg (by decide)]
    have b1 : m.bpp = 3 := hbp
    have eb : m.bps = w * 3 := by rw [e1, b1]
    have ep : m.plane = m.size := by rw [e2, e3]
    rw [b1, eb, ep]
    refine rowsBytes_spec g (h := hh) (stride := stride 24 w) (by omega) (by rw [wide b1, Nat.mul_assoc]) e4 (by unfold stride; omega) (by omega) ?_
    intro j x hj hx
    have hq : x / 3 < w := Nat.div_lt_of_lt_mul (by omega)
    have hm : x % 3 < 3 := Nat.mod_lt _ (by decide)
    have := cell_eq (k := 3) (c := x % 3) (y := j) f hq hm
    rw [show (j * w + x / 3) * 3 + x % 3 = j * (w * 3) + x by rw [Nat.add_mul, Nat.mul_assoc]; omega] at this
    rw [this, hf, hpos]
    show l.data.getD (off + j * stride 24 w + x / 3 * 3 + x % 3) 0 = _
    congr 1
    omega
  · -- thirty-two bits
    rw [if_neg (by decide), if_neg (by decide), if_neg (by decide), if_pos (by decide)]
    have b1 : m.bpp = 3 := hbp
    have es := wide b1
    rw [b1, hbig (.inr rfl)]
    unfold readMasks
    rw [if_neg (by rw [hcomp]; decide), pure_eq_ok, bind_ok]
    dsimp only
    rw [masks32_eq]
    have hst : stride 32 w = w * 4 := by unfold stride; omega
    rw [hst] at hrows
    have ha : hh * w * 4 = hh * (w * 4) := Nat.mul_assoc _ _ _
    refine rows32_spec g (k := hh * w) es e4 (by omega) ?_
    intro p hp
    have hx : p % w < w := Nat.mod_lt _ hw0
    have hep : p / w * w + p % w = p := by rw [Nat.mul_comm]; exact Nat.div_add_mod p w
    have hpp : p * 4 = p / w * (w * 4) + p % w * 4 := by rw [← Nat.mul_assoc, ← Nat.add_mul, hep]
    have hin : l.pos + p * 4 + 4 ≤ l.data.length := by
      have := Nat.mul_le_mul_right 4 (Nat.succ_le_of_lt hp)
      rw [Nat.succ_mul] at this
      omega
    have key : ∀ c, c < 3 → f (p % w) (p / w) c = (maskOf 8 (8 * c)).get (field l.data (l.pos + p * 4) 4) := by
      intro c hc
      rw [maskOf_get, Nat.pow_mul, Nat.sub_self, Nat.pow_zero, Nat.mul_one, show (2 : Nat) ^ 8 = 256 from rfl, field_byte l.data c 4 _ (by omega) hin, hf]
      show l.data.getD (off + p / w * stride 32 w + p % w * 4 + c) 0 = _
      rw [hst, Nat.add_assoc off, ← hpp, hpos, UInt8.ofNat_toNat]
    dsimp only
    refine ⟨?_, ?_, ?_⟩
    · have := cell_eq (k := 3) (c := 0) (y := p / w) f hx (by decide)
      rw [Nat.add_zero, hep] at this
      rw [this]; exact key 0 (by decide)
    · have := cell_eq (k := 3) (c := 1) (y := p / w) f hx (by decide)
      rw [hep] at this
      rw [this]; exact key 1 (by decide)
    · have := cell_eq (k := 3) (c := 2) (y := p / w) f hx (by decide)
      rw [hep] at this
      rw [this]; exact key 2 (by decide)

theorem seek_off {l : R} (hs : l.size < 2147483648) {o : Nat} (ho : o ≤ l.size) : seek l (o : Int) SEEK_SET = .ok (true, { l with pos := o }) := by
  unfold seek seekTo
  have e2 : toInt l.size = (l.size : Int) := by unfold toInt; omega
  rw [if_pos rfl, e2, if_neg (by omega)]
  have : ofInt (o : Int) = o := by unfold ofInt; omega
  rw [this]
  rfl

theorem palSizeOf_eq {file : List UInt8} {bits : Nat} (hb : (headOf file).bits = (bits : Int))
    (hbits : bits = 1 ∨ bits = 4 ∨ bits = 8 ∨ bits = 16 ∨ bits = 24 ∨ bits = 32)
    (h1 : bits = 1 → field file 46 4 = 0 ∨ field file 46 4 = 2) (h4 : bits = 4 → field file 46 4 = 0 ∨ field file 46 4 = 16)
    (h8 : colours bits (field file 46 4) * 4 < 2147483648) : palSizeOf (headOf file) = .ok (colours bits (field file 46 4) * 4) := by
  have hu : bits ≤ 8 → (headOf file).used = (field file 46 4 : Int) := by
    intro hb8
    refine sfield_of rfl ?_
    unfold colours at h8
    rw [if_neg (by omega)] at h8
    simp only [Nat.reduceMul, Nat.reduceSub, Nat.reducePow]
    split at h8 <;> omega
  generalize field file 46 4 = u at *
  unfold palSizeOf
  rw [hb]
  rcases hbits with rfl | rfl | rfl | rfl | rfl | rfl
  · rw [if_pos (by decide)]
    rcases h1 rfl with rfl | rfl <;> rfl
  · rw [if_neg (by decide), if_pos (by decide), hu (by decide)]
    rcases h4 rfl with rfl | rfl <;> rfl
  · rw [if_neg (by decide), if_pos (by decide), hu (by decide)]
    by_cases hz : u = 0
    · rw [hz]; rfl
    · have e : colours 8 u = u := by unfold colours; rw [if_neg (by decide), if_neg hz]
      rw [e] at h8 ⊢
      unfold palBytes
      rw [if_pos (by omega), if_neg (by omega), pure_eq_ok, bind_ok, if_neg (by decide), pure_eq_ok]
      congr 1
      unfold ofInt
      omega
  all_goals rfl

/-- What loading a complete file gives, by what the pixels are read as. -/
theorem load_spec {big : Bool} (junk : Nat → UInt8) {file : List UInt8} {w h bits off : Nat} (hC : Complete file w h bits off)
    (hcomp : field file 30 4 = 0 ∨ field file 30 4 = 3 ∧ (bits = 16 ∨ bits = 32))
    (h1 : bits = 1 → field file 46 4 = 0 ∨ field file 46 4 = 2) (h4 : bits = 4 → field file 46 4 = 0 ∨ field file 46 4 = 16) {f : Nat → Nat → Nat → UInt8}
    (hpix : ∀ (m : Img) (l : R), Good l → l.data = file → l.size = file.length → l.pos = off → m.Consistent → m.width = w → m.height = h → m.depth = 1 →
      m.bpc = 1 → m.bpp = (if bits ≤ 8 then 1 else 3) → m.size < 4294967296 →
      Holds (readPixels big (headOf file) m l) fun s => Filled (cell w m.bpp f) m.size m.size s.data ∧ s.failed = false) :
    ∃ m l, iLoadBitmapInternal big junk (open_ file file.length) = .ok (true, some (m, paletteOf file (colours bits (field file 46 4))), l) ∧
      Gives m file w h bits f := by
  have hw := hC.windows
  have h54 := hw.long
  have hbits := hw.bits
  have g := (at_open (data := file) (by omega) hw.lt).1
  rw [hC.depth] at hbits
  obtain ⟨hc, hp, hb, hcm⟩ := hw.check (by omega) (by rw [hC.depth]; omega)
  rw [hC.depth] at hb
  have hsmall := hC.small
  have hw0 : 0 < w ∧ (headOf file).width.toNat = w := by
    have h1 := hw.width
    have e : (headOf file).width = sfield file 18 4 := rfl
    rw [e]
    unfold sfield at h1 ⊢
    have := field_lt file 18 4
    rw [hC.width] at h1 this ⊢
    simp only [Nat.reducePow, Nat.reduceMul, Nat.reduceSub, Int.reducePow] at this h1 ⊢
    split at h1 <;> split <;> omega
  have hh0 : 0 < h := by have := hw.height; have := hC.height; omega
  have hoff := hC.rows
  have hpal := hC.palette
  have hst : 0 < h * stride bits w := Nat.mul_pos hh0 (by unfold stride; have := Nat.mul_le_mul_right bits hw0.1; omega)
  have ho : (headOf file).off = (off : Int) := by
    have := sfield_of hC.start (n := 4) (by simp only [Nat.reduceMul, Nat.reduceSub, Nat.reducePow]; omega)
    exact this
  have hk : kindOf (headOf file) = if bits ≤ 8 then (IL_COLOUR_INDEX, 1) else (IL_BGR, 3) := by
    unfold kindOf
    rw [hb]
    by_cases h8 : bits ≤ 8
    · rw [if_pos h8, if_pos (by omega)]
    · rw [if_neg h8, if_neg (by omega)]
  have hk2 : (kindOf (headOf file)).2 = if bits ≤ 8 then 1 else 3 := by rw [hk]; split <;> rfl
  have hk1 : (kindOf (headOf file)).1 = if bits ≤ 8 then IL_COLOUR_INDEX else IL_BGR := by rw [hk]; split <;> rfl
  have hhe : (headOf file).height.natAbs = h := hC.height
  have hfits := hC.fits
  have hhn : (headOf file).height ≠ -2147483648 := by
    intro e
    rw [e] at hhe
    have h2 : h = 2147483648 := hhe.symm
    have : h * 1 ≤ h * stride bits w := Nat.mul_le_mul_left h (by unfold stride; have := Nat.mul_le_mul_right bits hw0.1; omega)
    omega
  unfold iLoadBitmapInternal
  rw [head_at g rfl big junk h54, bind_ok]
  have gd : (open_ file file.length).data = file := rfl
  dsimp only
  rw [gd, hc, if_neg (by decide), if_neg (by rw [hp]; decide), if_pos (by rw [hcm]; omega)]
  unfold ilReadUncompBmp
  rw [absHeight_ok hhn, bind_ok, hw0.2, hhe, hk2, hk1]
  obtain ⟨m, em, c, f1, f2, f3, f4, f5, f6, f7, f8, f9, f10⟩ := init8 junk 0 (w := w) (h := h) (bpp := if bits ≤ 8 then 1 else 3) hw0.1 hh0 hfits
  rw [em, bind_ok]
  dsimp only
  have hn : colours bits (field file 46 4) * 4 < 2147483648 := by omega
  rw [palSizeOf_eq hb hbits h1 h4 hn, bind_ok]
  generalize hcol : colours bits (field file 46 4) = n at *
  have e54 : seek (adv (open_ file file.length) 54) 54 SEEK_SET = .ok (true, { (adv (open_ file file.length) 54) with pos := 54 }) :=
    seek_off (l := adv (open_ file file.length) 54) (o := 54) hsmall h54
  rw [e54, bind_ok]
  dsimp only
  have g54 : Good { (adv (open_ file file.length) 54) with pos := 54 } := ⟨g.size, h54, g.lt, g.ne⟩
  rw [readAt_here g54 (k := n * 4) (by show 54 + n * 4 ≤ file.length; omega) (by rw [alloc_length]; omega), bind_ok]
  dsimp only
  rw [if_neg (by simp), ho, seek_off (o := off) (by exact hsmall) (by show off ≤ file.length; omega), bind_ok]
  dsimp only
  obtain ⟨s, es, hs⟩ := hpix { m with format := if bits ≤ 8 then IL_COLOUR_INDEX else IL_BGR, origin := originOf (headOf file) }
    { (adv { (adv (open_ file file.length) 54) with pos := 54 } (n * 4)) with pos := off } ⟨g.size, by show off ≤ file.length; omega, g.lt, g.ne⟩ rfl rfl rfl
    ⟨c.1, c.2.1, c.2.2.1, c.2.2.2⟩ f1 f2 f3 f5 f4 (by show m.size < _; rw [f9]; exact hfits)
  rw [es, bind_ok, hs.2]
  refine ⟨{ m with format := if bits ≤ 8 then IL_COLOUR_INDEX else IL_BGR, origin := originOf (headOf file), data := s.data }, s.inp, ?_, ?_⟩
  · rw [pure_eq_ok]
    have hq : ∀ pd, pd = (file.drop 54).take (n * 4) → (if n * 4 = 0 then none else some (⟨pd, n * 4, IL_PAL_BGR32⟩ : Pal)) = paletteOf file n := by
      intro pd hpd
      unfold paletteOf
      by_cases hz : n = 0
      · rw [if_pos hz, if_pos (by omega)]
      · rw [if_neg hz, if_neg (by omega), hpd]
    have : (alloc junk (n * 4)).drop (0 + n * 4) = [] := by
      rw [Nat.zero_add, List.drop_eq_nil_iff, alloc_length]
    rw [hq _ (by rw [this, List.append_nil, List.take_zero, List.nil_append]; rfl)]
    rfl
  · refine ⟨⟨c.1, c.2.1, c.2.2.1, hs.1.1⟩, f1, f2, f3, f4, f5, f7, rfl, rfl, ?_⟩
    intro x y cc hx hy hcc
    rw [px_eq (m := { m with format := if bits ≤ 8 then IL_COLOUR_INDEX else IL_BGR, origin := originOf (headOf file), data := s.data }) f5]
    show s.data[(y * m.width + x) * m.bpp + cc]? = _
    have hcc' : cc < m.bpp := hcc
    rw [← cell_eq (w := w) (k := m.bpp) f hx hcc', f1]
    refine hs.1.2 _ ?_
    show _ < m.size
    have := idx_lt (idx_lt hy hx) hcc'
    rw [f9, f4]
    rw [f4] at this
    calc _ < _ := this
      _ = _ := by grind

/-! ## C90 -/

/-- **C90.** A complete uncompressed bitmap (the number of colours, if given, being the full number for 1 and 4 bits; the host being little-endian
for 16 and 32 bits) loads: the image has the announced dimensions, the origin that the sign of the height says, every pixel is the stored
one, and the palette is the stored one.  Nothing depends on what was in memory.  Missing, and false: other hosts and smaller palettes, see the violations. -/
theorem C90_pixels_partial (big : Bool) (junk : Nat → UInt8) (file : List UInt8) (w h bits off : Nat) (hC : Complete file w h bits off)
    (hcomp : field file 30 4 = 0) (hhost : bits = 16 ∨ bits = 32 → big = false)
    (h1 : bits = 1 → field file 46 4 = 0 ∨ field file 46 4 = 2) (h4 : bits = 4 → field file 46 4 = 0 ∨ field file 46 4 = 16) :
    ∃ m l, iLoadBitmapInternal big junk (open_ file file.length) = .ok (true, some (m, paletteOf file (colours bits (field file 46 4))), l) ∧
      Gives m file w h bits (sample file bits off w) := by
  refine load_spec junk hC (.inl hcomp) h1 h4 ?_
  intro m l g hd hs hp c f1 f2 f3 f5 f4 hlt
  have hw := hC.windows
  have hbits := hw.bits
  rw [hC.depth] at hbits
  have hb : (headOf file).bits = (bits : Int) := by
    have := sfield_of hC.depth (n := 2) (by simp only [Nat.reduceMul, Nat.reduceSub, Nat.reducePow]; omega)
    exact this
  have hc0 : (headOf file).comp = 0 := sfield_of hcomp (by decide)
  refine readPixels_spec g hb hbits big hhost hc0 hp ?_ f1 f2 c f3 f5 f4 hlt (by rw [hs]; exact hC.rows) (by rw [hd]; exact fun _ _ _ => rfl)
  have hw1 := hw.width
  unfold sfield at hw1
  rw [hC.width] at hw1
  split at hw1 <;> omega

/-- The masks of bit fields. -/
structure Fields (file : List UInt8) (bits : Nat) (k lo : Nat → Nat) : Prop where
  red : field file 54 4 = (2 ^ k 2 - 1) * 2 ^ lo 2
  green : field file 58 4 = (2 ^ k 1 - 1) * 2 ^ lo 1
  blue : field file 62 4 = (2 ^ k 0 - 1) * 2 ^ lo 0
  ones : ∀ c, c < 3 → 0 < k c ∧ k c ≤ 8 ∧ lo c + k c ≤ bits

theorem readMasks_here {l : R} (g : Good l) {big : Bool} {h : Head} {init : Mask × Mask × Mask} {bits : Nat} {k lo : Nat → Nat} (hb : bits ≤ 32)
    (hcomp : h.comp = 3) (ho : h.off = 66) (hsm : l.size < 2147483648) (h66 : 66 ≤ l.size) (hf : Fields l.data bits k lo) :
    readMasks big h init l = .ok ((maskOf (k 0) (lo 0), maskOf (k 1) (lo 1), maskOf (k 2) (lo 2)), { l with pos := 66 }) := by
  have h0 := hf.ones 0 (by decide)
  have h1 := hf.ones 1 (by decide)
  have h2 := hf.ones 2 (by decide)
  unfold readMasks
  rw [if_pos hcomp, ho, if_neg (by decide)]
  have e : seek l (66 - 12) SEEK_SET = .ok (true, { l with pos := 54 }) := seek_off (o := 54) hsm (by omega)
  rw [e, bind_ok]
  dsimp only
  rw [readMask_here (l := { l with pos := 54 }) ⟨g.size, by show 54 ≤ l.size; omega, g.lt, g.ne⟩ big _ h2.1 h2.2.1 (by omega) (by show 58 ≤ l.size; omega) hf.red, bind_ok]
  dsimp only
  rw [readMask_here (l := adv { l with pos := 54 } 4) ⟨g.size, by show 58 ≤ l.size; omega, g.lt, g.ne⟩ big _ h1.1 h1.2.1 (by omega) (by show 62 ≤ l.size; omega) hf.green, bind_ok]
  dsimp only
  rw [readMask_here (l := adv (adv { l with pos := 54 } 4) 4) ⟨g.size, by show 62 ≤ l.size; omega, g.lt, g.ne⟩ big _ h0.1 h0.2.1 (by omega) h66 hf.blue, bind_ok]
  rfl

/-- **C90 (bit fields).** A complete 16- or 32-bit bitmap with three masks of at most eight bits behind the header, followed by the pixels, loads on
a little-endian host; every channel is the bits of the pixel under its mask, as the high bits of a byte.  Missing, and false: wider masks, a gap
between masks and pixels, and other hosts, see the violations. -/
theorem C90_fields_partial (junk : Nat → UInt8) (file : List UInt8) (w h bits : Nat) (k lo : Nat → Nat) (hC : Complete file w h bits 66)
    (hcomp : field file 30 4 = 3) (hbits : bits = 16 ∨ bits = 32) (hf : Fields file bits k lo) :
    ∃ m l, iLoadBitmapInternal false junk (open_ file file.length) = .ok (true, some (m, none), l) ∧
      Gives m file w h bits fun x y c => bitSample file bits 66 w (k c) (lo c) x y := by
  have hcol : colours bits (field file 46 4) = 0 := by unfold colours; rw [if_pos (by omega)]
  suffices hh : _ by
    have := load_spec (big := false) junk hC (.inr ⟨hcomp, hbits⟩) (by omega) (by omega) (f := fun x y c => bitSample file bits 66 w (k c) (lo c) x y) hh
    rw [hcol] at this
    exact this
  intro m l g hd hs hp c f1 f2 f3 f5 f4 hlt
  have hw := hC.windows
  have hrows := hC.rows
  have hsz := g.size
  have hb : (headOf file).bits = (bits : Int) := by
    have := sfield_of hC.depth (n := 2) (by simp only [Nat.reduceMul, Nat.reduceSub, Nat.reducePow]; omega)
    exact this
  have hc3 : (headOf file).comp = 3 := sfield_of hcomp (by decide)
  have ho : (headOf file).off = 66 := sfield_of hC.start (by decide)
  have b1 : m.bpp = 3 := by rw [f4, if_neg (by omega)]
  have e3 := c.2.2.1
  rw [f5, f3, f1, f2, b1, Nat.mul_one, Nat.mul_one] at e3
  have es : m.size = h * w * 3 := by rw [e3]; grind
  have hw0 : 0 < w := by
    have hw1 := hw.width
    unfold sfield at hw1
    rw [hC.width] at hw1
    split at hw1 <;> omega
  have g66 : Good { l with pos := 66 } := ⟨g.size, by show 66 ≤ l.size; omega, g.lt, g.ne⟩
  have hm : ∀ init, readMasks false (headOf file) init l = .ok ((maskOf (k 0) (lo 0), maskOf (k 1) (lo 1), maskOf (k 2) (lo 2)), { l with pos := 66 }) := by
    intro init
    exact readMasks_here (bits := bits) g (by omega) hc3 ho (by rw [hs]; exact hC.small) (by omega) (by rw [hd]; exact hf)
  unfold readPixels
  rw [hb, f1, f2]
  rcases hbits with rfl | rfl
  · rw [if_neg (by decide), if_neg (by decide), if_pos (by decide), hm, bind_ok]
    dsimp only
    refine rows16_spec g66 (stride := stride 16 w) es hlt c.2.2.2 (by unfold stride; omega) (by show 66 + _ ≤ l.size; omega) ?_
    intro j x hj hx
    dsimp only
    simp only [maskOf_get, b1]
    refine ⟨?_, ?_, ?_⟩
    · have := cell_eq (k := 3) (c := 0) (y := j) (fun x y c => bitSample file 16 66 w (k c) (lo c) x y) hx (by decide)
      rw [Nat.add_zero] at this
      rw [this, hd]; rfl
    · rw [cell_eq _ hx (by decide), hd]; rfl
    · rw [cell_eq _ hx (by decide), hd]; rfl
  · rw [if_neg (by decide), if_neg (by decide), if_neg (by decide), if_pos (by decide), hm, bind_ok]
    dsimp only
    have hst : stride 32 w = w * 4 := by unfold stride; omega
    rw [hst] at hrows
    have ha : h * w * 4 = h * (w * 4) := Nat.mul_assoc _ _ _
    refine rows32_spec g66 (k := h * w) es c.2.2.2 (by show 66 + _ ≤ l.size; omega) ?_
    intro p hp
    have hx : p % w < w := Nat.mod_lt _ hw0
    have hep : p / w * w + p % w = p := by rw [Nat.mul_comm]; exact Nat.div_add_mod p w
    have hpp : p * 4 = p / w * (w * 4) + p % w * 4 := by rw [← Nat.mul_assoc, ← Nat.add_mul, hep]
    have key : ∀ c, bitSample file 32 66 w (k c) (lo c) (p % w) (p / w) = (maskOf (k c) (lo c)).get (field l.data (66 + p * 4) 4) := by
      intro c
      rw [maskOf_get, hd]
      unfold bitSample
      rw [hst, Nat.add_assoc, hpp]
    dsimp only
    rw [b1]
    refine ⟨?_, ?_, ?_⟩
    · have := cell_eq (k := 3) (c := 0) (y := p / w) (fun x y c => bitSample file 32 66 w (k c) (lo c) x y) hx (by decide)
      rw [Nat.add_zero, hep] at this
      rw [this]; exact key 0
    · have := cell_eq (k := 3) (c := 1) (y := p / w) (fun x y c => bitSample file 32 66 w (k c) (lo c) x y) hx (by decide)
      rw [hep] at this
      rw [this]; exact key 1
    · have := cell_eq (k := 3) (c := 2) (y := p / w) (fun x y c => bitSample file 32 66 w (k c) (lo c) x y) hx (by decide)
      rw [hep] at this
      rw [this]; exact key 2

/-! ### Instances and violations -/

/-- A three by two bitmap of one bit per pixel, stored top down. -/
abbrev oneBit : List UInt8 := bmp 62 3 0xFFFFFFFE 1 0 2 [1, 2, 3, 0, 4, 5, 6, 0, 0xA0, 0, 0, 0, 0x40, 0, 0, 0]

set_option maxRecDepth 20000 in
theorem oneBit_complete : Complete oneBit 3 2 1 62 :=
  ⟨⟨by decide, by decide, by decide, by decide, by decide, by decide, by decide, by decide⟩, by decide, by decide, by decide, by decide, by decide, by decide,
    by decide, by decide⟩

set_option maxRecDepth 20000 in
example : ∃ m l, iLoadBitmapInternal true (fun _ => 9) (open_ oneBit 70) = .ok (true, some (m, some ⟨[1, 2, 3, 0, 4, 5, 6, 0], 8, IL_PAL_BGR32⟩), l) ∧
    m.origin = IL_ORIGIN_UPPER_LEFT ∧ m.px 0 0 0 0 = some 1 ∧ m.px 1 0 0 0 = some 0 ∧ m.px 1 1 0 0 = some 1 := by
  obtain ⟨m, l, e, h⟩ := C90_pixels_partial true (fun _ => 9) oneBit 3 2 1 62 oneBit_complete (by decide) (by decide) (by decide) (by decide)
  have hb : 0 < m.bpp := by rw [h.bpp]; decide
  refine ⟨m, l, e.trans (by rfl), h.origin, (h.pixels 0 0 0 (by decide) (by decide) hb).trans (by decide),
    (h.pixels 1 0 0 (by decide) (by decide) hb).trans (by decide), (h.pixels 1 1 0 (by decide) (by decide) hb).trans (by decide)⟩

/-- One pixel of sixteen bits, five, six and five of them for the channels. -/
abbrev five65 : List UInt8 := bmp 66 1 1 16 3 0 (leBytes 4 0xF800 ++ leBytes 4 0x7E0 ++ leBytes 4 0x1F ++ leBytes 2 0xFFDF ++ [0, 0])

/-- The widths and places of its masks. -/
def k565 (c : Nat) : Nat := if c = 1 then 6 else 5
def lo565 (c : Nat) : Nat := if c = 0 then 0 else if c = 1 then 5 else 11

set_option maxRecDepth 20000 in
example : ∃ m l, iLoadBitmapInternal false (fun _ => 9) (open_ five65 70) = .ok (true, some (m, none), l) ∧
    m.px 0 0 0 0 = some 248 ∧ m.px 0 0 0 1 = some 248 ∧ m.px 0 0 0 2 = some 248 := by
  obtain ⟨m, l, e, h⟩ := C90_fields_partial (fun _ => 9) five65 1 1 16 k565 lo565
    ⟨⟨by decide, by decide, by decide, by decide, by decide, by decide, by decide, by decide⟩, by decide, by decide, by decide, by decide, by decide, by decide,
      by decide, by decide⟩ (by decide) (by decide)
    ⟨by decide, by decide, by decide, fun c hc => by
      have : c = 0 ∨ c = 1 ∨ c = 2 := by omega
      rcases this with rfl | rfl | rfl <;> decide⟩
  have hb : 2 < m.bpp := by rw [h.bpp]; decide
  exact ⟨m, l, e, (h.pixels 0 0 0 (by decide) (by decide) (by omega)).trans (by decide), (h.pixels 0 0 1 (by decide) (by decide) (by omega)).trans (by decide),
    (h.pixels 0 0 2 (by decide) (by decide) hb).trans (by decide)⟩

set_option maxRecDepth 20000 in
/-- **C90 (violated).** A complete four-bit bitmap whose palette has two colours does not load: sixteen are read in any case. -/
theorem C90_violated_palette : ∃ file, Complete file 1 1 4 62 ∧ field file 30 4 = 0 ∧
    ∃ im l, iLoadBitmapInternal false (fun _ => 0) (open_ file file.length) = .ok (false, im, l) :=
  ⟨bmp 62 1 1 4 0 2 [1, 2, 3, 0, 4, 5, 6, 0, 0x10, 0, 0, 0],
    ⟨⟨by decide, by decide, by decide, by decide, by decide, by decide, by decide, by decide⟩, by decide, by decide, by decide, by decide, by decide, by decide,
      by decide, by decide⟩, by decide, _, _, rfl⟩

set_option maxRecDepth 20000 in
/-- **C90 (violated).** On a big-endian host a blue pixel of sixteen bits loads as something else. -/
theorem C90_violated_host : ∃ file, Complete file 1 1 16 54 ∧ field file 30 4 = 0 ∧ sample file 16 54 1 0 0 0 = 0xF8 ∧
    ∃ m l, iLoadBitmapInternal true (fun _ => 0) (open_ file file.length) = .ok (true, some (m, none), l) ∧ m.px 0 0 0 0 = some 0 :=
  ⟨bmp 54 1 1 16 0 0 [0x1F, 0, 0, 0],
    ⟨⟨by decide, by decide, by decide, by decide, by decide, by decide, by decide, by decide⟩, by decide, by decide, by decide, by decide, by decide, by decide,
      by decide, by decide⟩, by decide, by decide, _, _, rfl, rfl⟩

set_option maxRecDepth 20000 in
/-- **C90 (violated).** A mask of ten bits: a pixel with three quarters of full blue (0x300 of 0x3FF) loads with none. -/
theorem C90_violated_wide : ∃ file, Complete file 1 1 32 66 ∧ field file 30 4 = 3 ∧ field file 62 4 = 2 ^ 10 - 1 ∧ field file 66 4 = 0x300 ∧
    ∃ m l, iLoadBitmapInternal false (fun _ => 0) (open_ file file.length) = .ok (true, some (m, none), l) ∧ m.px 0 0 0 0 = some 0 :=
  ⟨bmp 66 1 1 32 3 0 (leBytes 4 0x3FF00000 ++ leBytes 4 0xFFC00 ++ leBytes 4 0x3FF ++ leBytes 4 0x300),
    ⟨⟨by decide, by decide, by decide, by decide, by decide, by decide, by decide, by decide⟩, by decide, by decide, by decide, by decide, by decide, by decide,
      by decide, by decide⟩, by decide, by decide, by decide, _, _, rfl, rfl⟩

set_option maxRecDepth 20000 in
/-- **C90 (violated).** With a gap of four bytes between the masks and the pixels, the masks are read from the wrong place: a blue pixel loads as
a green one. -/
theorem C90_violated_gap : ∃ file, Complete file 1 1 32 70 ∧ field file 30 4 = 3 ∧ Fields file 32 (fun _ => 8) (fun c => 8 * c) ∧
    bitSample file 32 70 1 8 0 0 0 = 255 ∧
    ∃ m l, iLoadBitmapInternal false (fun _ => 0) (open_ file file.length) = .ok (true, some (m, none), l) ∧ m.px 0 0 0 0 = some 0 ∧ m.px 0 0 0 1 = some 255 :=
  ⟨bmp 70 1 1 32 3 0 (leBytes 4 0xFF0000 ++ leBytes 4 0xFF00 ++ leBytes 4 0xFF ++ leBytes 4 0 ++ leBytes 4 0xFF),
    ⟨⟨by decide, by decide, by decide, by decide, by decide, by decide, by decide, by decide⟩, by decide, by decide, by decide, by decide, by decide, by decide,
      by decide, by decide⟩, by decide, ⟨by decide, by decide, by decide, fun c hc => by
      have : c = 0 ∨ c = 1 ∨ c = 2 := by omega
      rcases this with rfl | rfl | rfl <;> decide⟩, by decide, _, _, rfl, rfl, rfl⟩

/-- **C90 (violated).** A one-pixel OS/2 bitmap, complete in its thirty bytes, does not load: the Windows header is read first, and its
54 bytes are not there to go back over. -/
theorem C90_violated_short : ∃ im l, iLoadBitmapInternal false (fun _ => 0)
    (open_ ([66, 77] ++ leBytes 4 30 ++ leBytes 4 0 ++ leBytes 4 26 ++ leBytes 4 12 ++ leBytes 2 1 ++ leBytes 2 1 ++ leBytes 2 1 ++ leBytes 2 24 ++ [1, 2, 3, 0]) 30) =
    .ok (false, im, l) := ⟨_, _, rfl⟩

end DevIL.Bmp
