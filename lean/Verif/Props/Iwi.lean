import Verif.Lemmas.IwiD
import Verif.Props.DdsMip
/-! Infinity Ward images: C204 (pictures without compression), C205 (mipmaps), C206 (compressed pictures), C207 (four bits per component), C208 (safety). -/
set_option autoImplicit false
namespace DevIL.Iwi
open DevIL.Games DevIL.GamesSpec DevIL.Detect DevIL.Image DevIL.DetectSpec DevIL.DdsSpec DevIL.IwiSpec
open DevIL.Dds (side_zero)
open DevIL.DdsSave (Made made)

/-- Loading from an open file and from memory. -/
def Loads (junk : Nat → UInt8) (cur : Img) (bs : List UInt8) (P : Bool → List Img → Prop) : Prop :=
  Both (iLoadIwiInternal fileOps junk cur) (iLoadIwiInternal lumpOps junk cur) bs P

/-- The head of a file. -/
def headOf (fmt flags w h : UInt8) : List UInt8 := [73, 87, 105, 5, fmt, flags, w, 0, h, 0] ++ List.replicate 18 0

/-! ### C204 -/

/-- Loading of levels without compression. -/
theorem load_plain (junk : Nat → UInt8) (cur : Img) {bs : List UInt8} (hl : bs.length < 2147483648) {fmt k f w h : Nat} {mips : Bool} (H : Header bs fmt w h mips) (hp : Plain fmt k f)
    (hfit : w * h * k < 4294967296) : Loads junk cur bs (fun ok ms =>
      (fileBytes (plainBytes k w h) (count w h mips) ≤ bs.length → ok = true ∧ ms.length = count w h mips ∧
        ∀ (i : Nat) m, ms[i]? = some m → Shows m (side w i) (side h i) k f (fun x y c => bs[levelAt (plainBytes k w h) (count w h mips) i + ((y * side w i + x) * k + c)]?)) ∧
      (bs.length < fileBytes (plainBytes k w h) (count w h mips) → ok = false)) := by
  have hf : [1, 2, 3, 4].contains fmt = true := by rcases hp with ⟨rfl, -⟩ | ⟨rfl, -⟩ | ⟨rfl, -⟩ <;> decide
  exact both (by have := H.len; omega) hl
    (fun _ hs => load_spec fileLaws2 junk cur hs H (.inr hf) (fun i _ => reads_plain fileLaws2 junk hp H.w0 H.h0 hfit i))
    (fun _ hs => load_spec lumpLaws2 junk cur hs H (.inr hf) (fun i _ => reads_plain lumpLaws2 junk hp H.w0 H.h0 hfit i))

theorem Both.mono {ρ : Type} {vF : Cache.S → C (Bool × ρ × Cache.S)} {vL : Lump.R → C (Bool × ρ × Lump.R)} {bs : List UInt8} {P Q : Bool → ρ → Prop} (h : Both vF vL bs P)
    (hi : ∀ ok r, P ok r → Q ok r) : Both vF vL bs Q := by
  obtain ⟨⟨ok, r, s', a, b, c⟩, ok', r', d, e⟩ := h
  exact ⟨⟨ok, r, s', a, hi _ _ b, c⟩, ok', r', d, hi _ _ e⟩

theorem fileBytes_one (bytes : Nat → Nat) : fileBytes bytes 1 = 28 + bytes 0 := by
  unfold fileBytes
  simp

theorem levelAt_one (bytes : Nat → Nat) : levelAt bytes 1 0 = 28 := by
  unfold levelAt
  rw [List.drop_of_length_le (by simp)]
  rfl

/-- **C204.** A file without mipmaps in one of the three formats with a byte for each component (BGRA, BGR, alpha) is loaded exactly if all the pixels are there, and the image shows them:
the sides, the format and every component, from the top left. -/
theorem C204_plain (junk : Nat → UInt8) (cur : Img) (bs : List UInt8) (hl : bs.length < 2147483648) {fmt k f w h : Nat} (H : Header bs fmt w h false) (hp : Plain fmt k f)
    (hfit : w * h * k < 4294967296) : Loads junk cur bs (fun ok ms =>
      (28 + w * h * k ≤ bs.length → ok = true ∧ ∃ m, ms = [m] ∧ Shows m w h k f (fun x y c => bs[28 + ((y * w + x) * k + c)]?)) ∧
      (bs.length < 28 + w * h * k → ok = false)) := by
  refine Both.mono (load_plain junk cur hl H hp hfit) (fun ok ms hr => ?_)
  have e : count w h false = 1 := rfl
  rw [e, fileBytes_one] at hr
  have e0 : plainBytes k w h 0 = w * h * k := by unfold plainBytes; rw [side_zero H.w0, side_zero H.h0]
  rw [e0] at hr
  refine ⟨fun h1 => ?_, hr.2⟩
  obtain ⟨a, b, c⟩ := hr.1 h1
  obtain ⟨m, rfl⟩ := List.length_eq_one_iff.1 b
  have := c 0 m rfl
  rw [levelAt_one, side_zero H.w0, side_zero H.h0] at this
  exact ⟨a, m, rfl, this⟩

/-- The hypotheses are met: a picture of 2 by 3 pixels with three bytes each. -/
example (junk : Nat → UInt8) (cur : Img) (p : List UInt8) (hp : p.length = 18) : Loads junk cur (headOf 2 3 2 3 ++ p) (fun ok ms =>
    ok = true ∧ ∃ m, ms = [m] ∧ Shows m 2 3 3 IL_BGR (fun x y c => (headOf 2 3 2 3 ++ p)[28 + ((y * 2 + x) * 3 + c)]?)) := by
  have hlen : (headOf 2 3 2 3 ++ p).length = 46 := by rw [List.length_append, hp]; rfl
  have H : Header (headOf 2 3 2 3 ++ p) 2 2 3 false := ⟨by omega, .inl rfl, rfl, rfl, rfl, rfl, by decide, by decide⟩
  exact Both.mono (C204_plain junk cur _ (by omega) H (.inr (.inl ⟨rfl, rfl, rfl⟩)) (by decide)) (fun ok ms hr => hr.1 (by omega))

/-! ### C205 -/

/-- **C205 (part): mipmaps.** If the two sides have as many binary digits (or there are no mipmaps), the levels, the smallest of which comes first, are read from their places, and loading
succeeds exactly if all are there: level 0 is the picture, and the sides of the others are half of those of the level before, and at least 1.  Missing: all other sides, see the
violation. -/
theorem C205_partial (junk : Nat → UInt8) (cur : Img) (bs : List UInt8) (hl : bs.length < 2147483648) {fmt k f w h : Nat} {mips : Bool} (H : Header bs fmt w h mips) (hp : Plain fmt k f)
    (hfit : w * h * k < 4294967296) (hg : mips = true → Nat.log2 w = Nat.log2 h) : Loads junk cur bs (fun ok ms =>
      (fileBytes (plainBytes k w h) (number w h mips) ≤ bs.length → ok = true ∧ ms.length = number w h mips ∧
        ∀ (i : Nat) m, ms[i]? = some m → Shows m (side w i) (side h i) k f (fun x y c => bs[levelAt (plainBytes k w h) (number w h mips) i + ((y * side w i + x) * k + c)]?)) ∧
      (bs.length < fileBytes (plainBytes k w h) (number w h mips) → ok = false)) := by
  have := load_plain junk cur hl H hp hfit
  rwa [count_eq hg] at this

/-- The hypotheses are met: a picture of 3 by 2 pixels, and one of a single pixel before it. -/
example (junk : Nat → UInt8) (cur : Img) (p : List UInt8) (hp : p.length = 7) : Loads junk cur (headOf 4 0 3 2 ++ p) (fun ok ms => ok = true ∧ ms.length = 2 ∧
    ∀ (i : Nat) m, ms[i]? = some m → Shows m (side 3 i) (side 2 i) 1 IL_ALPHA
      (fun x y c => (headOf 4 0 3 2 ++ p)[levelAt (plainBytes 1 3 2) 2 i + ((y * side 3 i + x) * 1 + c)]?)) ∧ levelAt (plainBytes 1 3 2) 2 0 = 29 ∧ levelAt (plainBytes 1 3 2) 2 1 = 28 := by
  have hlen : (headOf 4 0 3 2 ++ p).length = 35 := by rw [List.length_append, hp]; rfl
  have H : Header (headOf 4 0 3 2 ++ p) 4 3 2 true := ⟨by omega, .inl rfl, rfl, rfl, rfl, rfl, by decide, by decide⟩
  exact ⟨Both.mono (C205_partial junk cur _ (by omega) H (.inr (.inr ⟨rfl, rfl, rfl⟩)) (by decide) (fun _ => by decide)) (fun ok ms hr => hr.1 (by
    have : fileBytes (plainBytes 1 3 2) (number 3 2 true) = 35 := by decide
    omega)), by decide, by decide⟩

theorem sum_le (bytes : Nat → Nat) {a b : Nat} (h : a ≤ b) (l : Nat) : (((List.range a).drop l).map bytes).sum ≤ (((List.range b).drop l).map bytes).sum := by
  obtain ⟨c, rfl⟩ := Nat.exists_eq_add_of_le h
  induction c with
  | zero => exact Nat.le_refl _
  | succ c ih =>
    refine (ih (by omega)).trans ?_
    rw [← Nat.add_assoc, List.range_succ, List.drop_append, List.map_append, List.sum_append]
    omega

/-- **C205 is violated: sides of different lengths.** For every complete file with mipmaps of a picture one side of which has more binary digits than the other, loading reports success,
but there are too few levels, and the image shows bytes that begin before its own: those of smaller levels. -/
theorem C205_violated_oblong (junk : Nat → UInt8) (cur : Img) (bs : List UInt8) (hl : bs.length < 2147483648) {fmt k f w h : Nat} (H : Header bs fmt w h true) (hp : Plain fmt k f)
    (hfit : w * h * k < 4294967296) (hg : Nat.log2 w ≠ Nat.log2 h) (hfull : fileBytes (plainBytes k w h) (levels w h) ≤ bs.length) : Loads junk cur bs (fun ok ms =>
      ok = true ∧ ms.length < levels w h ∧ ∃ m q, ms[0]? = some m ∧ q < levelAt (plainBytes k w h) (levels w h) 0 ∧ Shows m w h k f (fun x y c => bs[q + ((y * w + x) * k + c)]?)) := by
  refine Both.mono (load_plain junk cur hl H hp hfit) (fun ok ms hr => ?_)
  have hc : count w h true < levels w h := by rw [levels_eq]; show min _ _ + 1 < _; omega
  have hk : 0 < k := by rcases hp with ⟨-, rfl, -⟩ | ⟨-, rfl, -⟩ | ⟨-, rfl, -⟩ <;> decide
  have hle : fileBytes (plainBytes k w h) (count w h true) ≤ fileBytes (plainBytes k w h) (levels w h) := by
    unfold fileBytes
    have := sum_le (plainBytes k w h) hc.le 0
    simp only [List.drop_zero] at this
    omega
  obtain ⟨a, b, c⟩ := hr.1 (by omega)
  have h1 : 1 ≤ count w h true := by show 1 ≤ min _ _ + 1; omega
  have hlt : 0 < ms.length := by omega
  refine ⟨a, by omega, ms[0], levelAt (plainBytes k w h) (count w h true) 0, List.getElem?_eq_getElem hlt, ?_, ?_⟩
  · unfold levelAt
    have e := sum_le (plainBytes k w h) (show count w h true + 1 ≤ levels w h from hc) 1
    rw [sum_drop (plainBytes k w h) (count w h true) 0 h1] at e
    have : 0 < plainBytes k w h (count w h true) := Nat.mul_pos (Nat.mul_pos (Dds.side_pos _ _) (Dds.side_pos _ _)) hk
    simp only [Nat.zero_add] at e ⊢
    omega
  · have := c 0 ms[0] (List.getElem?_eq_getElem hlt)
    rwa [side_zero H.w0, side_zero H.h0] at this

/-- The hypotheses are met: a picture of 4 by 1 pixels has the levels 4 by 1, 2 by 1 and 1 by 1. -/
example (junk : Nat → UInt8) (cur : Img) (p : List UInt8) (hp : p.length = 7) : Loads junk cur (headOf 4 0 4 1 ++ p) (fun ok ms => ok = true ∧ ms.length < 3 ∧
    ∃ m q, ms[0]? = some m ∧ q < 31 ∧ Shows m 4 1 1 IL_ALPHA (fun x y c => (headOf 4 0 4 1 ++ p)[q + ((y * 4 + x) * 1 + c)]?)) := by
  have hlen : (headOf 4 0 4 1 ++ p).length = 35 := by rw [List.length_append, hp]; rfl
  have H : Header (headOf 4 0 4 1 ++ p) 4 4 1 true := ⟨by omega, .inl rfl, rfl, rfl, rfl, rfl, by decide, by decide⟩
  have e : fileBytes (plainBytes 1 4 1) (levels 4 1) = 35 := by decide
  exact C205_violated_oblong junk cur _ (by omega) H (.inr (.inr ⟨rfl, rfl, rfl⟩)) (by decide) (by decide) (by omega)

/-! ### C206 -/

theorem pow2_pow (a : Nat) : pow2 (2 ^ a) = true := by
  unfold pow2
  rw [Nat.log2_two_pow]
  exact beq_self_eq_true _

/-- **C206 (part): compressed pictures.** The sides of a compressed picture are powers of two.  Without mipmaps, if both sides are at least 4 or both at most 4, and with mipmaps, if the
picture is a square, the loader succeeds exactly if all the blocks are there, and each level shows what `ilDxtcDataToSurface` makes of its own blocks.  Missing: all other sides, see the
violation, and pictures of 2^27 pixels or more. -/
theorem C206_partial (junk : Nat → UInt8) (cur : Img) (bs : List UInt8) (hl : bs.length < 2147483648) {fmt dxt a b : Nat} {mips : Bool} (H : Header bs fmt (2 ^ a) (2 ^ b) mips)
    (hp : Coded fmt dxt) (hfit : 2 ^ a * 2 ^ b < 2 ^ 27) (hg : a = b ∨ (mips = false ∧ ((2 ≤ a ∧ 2 ≤ b) ∨ (a ≤ 2 ∧ b ≤ 2)))) : Loads junk cur bs (fun ok ms =>
      (fileBytes (levelBytes (Dxt.bsize dxt) (2 ^ a) (2 ^ b)) (number (2 ^ a) (2 ^ b) mips) ≤ bs.length → ok = true ∧ ms.length = number (2 ^ a) (2 ^ b) mips ∧
        ∀ (i : Nat) m, ms[i]? = some m → Made junk bs dxt (levelAt (levelBytes (Dxt.bsize dxt) (2 ^ a) (2 ^ b)) (number (2 ^ a) (2 ^ b) mips) i) (side (2 ^ a) i) (side (2 ^ b) i) m) ∧
      (bs.length < fileBytes (levelBytes (Dxt.bsize dxt) (2 ^ a) (2 ^ b)) (number (2 ^ a) (2 ^ b) mips) → ok = false)) := by
  have hfm : dxt = IL_DXT1 ∨ dxt = IL_DXT3 ∨ dxt = IL_DXT5 := by rcases hp with h | h | h <;> simp [h.2]
  have hf : [11, 12, 13].contains fmt = true := by rcases hp with ⟨rfl, -⟩ | ⟨rfl, -⟩ | ⟨rfl, -⟩ <;> decide
  have hn : count (2 ^ a) (2 ^ b) mips = number (2 ^ a) (2 ^ b) mips := count_eq (fun hm => by
    rcases hg with rfl | ⟨g, -⟩
    · rfl
    · rw [g] at hm; cases hm)
  have hb : ∀ i, i < count (2 ^ a) (2 ^ b) mips →
      max (side (2 ^ a) i * side (2 ^ b) i / (if fmt = 11 then 2 else 1)) (Dxt.bsize dxt) = levelBytes (Dxt.bsize dxt) (2 ^ a) (2 ^ b) i := by
    intro i hi
    unfold levelBytes
    rw [side_pow, side_pow]
    refine coded_bytes hp ?_
    rcases hg with rfl | ⟨rfl, g⟩
    · omega
    · have hi : i < 1 := hi
      omega
  rw [← hn]
  exact both (by have := H.len; omega) hl
    (fun _ hs => (load_spec fileLaws2 junk cur hs H (.inl ⟨hf, pow2_pow a, pow2_pow b⟩) (fun i hi => reads_coded fileLaws2 junk hp H.w0 H.h0 hfit i (hb i hi))).mono (fun r hr =>
      ⟨⟨fun h => ⟨(hr.1.1 h).1, (hr.1.1 h).2.1, fun i m hi => made hfm ((hr.1.1 h).2.2 i m hi)⟩, hr.1.2⟩, hr.2⟩))
    (fun _ hs => (load_spec lumpLaws2 junk cur hs H (.inl ⟨hf, pow2_pow a, pow2_pow b⟩) (fun i hi => reads_coded lumpLaws2 junk hp H.w0 H.h0 hfit i (hb i hi))).mono (fun r hr =>
      ⟨⟨fun h => ⟨(hr.1.1 h).1, (hr.1.1 h).2.1, fun i m hi => made hfm ((hr.1.1 h).2.2 i m hi)⟩, hr.1.2⟩, hr.2⟩))

/-- The hypotheses are met: a square of 8 by 8 pixels of DXT5 data, and its three mipmaps before it. -/
example (junk : Nat → UInt8) (cur : Img) (p : List UInt8) (hp : p.length = 112) : Loads junk cur (headOf 13 0 8 8 ++ p) (fun ok ms => ok = true ∧ ms.length = 4 ∧
    ∀ m, ms[0]? = some m → Made junk (headOf 13 0 8 8 ++ p) IL_DXT5 76 8 8 m) := by
  have hlen : (headOf 13 0 8 8 ++ p).length = 140 := by rw [List.length_append, hp]; rfl
  have H : Header (headOf 13 0 8 8 ++ p) 13 (2 ^ 3) (2 ^ 3) true := ⟨by omega, .inl rfl, rfl, rfl, rfl, rfl, by decide, by decide⟩
  refine Both.mono (C206_partial junk cur _ (by omega) H (.inr (.inr ⟨rfl, rfl⟩)) (by decide) (.inl rfl)) (fun ok ms hr => ?_)
  have e : fileBytes (levelBytes (Dxt.bsize IL_DXT5) (2 ^ 3) (2 ^ 3)) (number (2 ^ 3) (2 ^ 3) true) = 140 := by decide
  obtain ⟨h1, h2, h3⟩ := hr.1 (by omega)
  exact ⟨h1, h2, fun m hm => h3 0 m hm⟩

/-- An image to begin with. -/
def dot : Img := tex (fun _ => 0) 1 1 1 IL_LUMINANCE

/-- A complete file of 8 by 2 pixels: two blocks of DXT1. -/
def wide : List UInt8 := headOf 11 3 8 2 ++ List.replicate 16 0

/-- **C206 is violated: flat pictures.** For a picture of 8 by 2 pixels the loader takes memory for one block only, and then reads behind it. -/
theorem C206_violated_flat : Header wide 11 8 2 false ∧ wide.length = 28 + DxtSpec.bytes 8 8 2 1 ∧
    ilLoadF (iLoadIwiInternal fileOps (fun _ => 0) dot) (opened wide 0) = .error .oobRead ∧ ilLoadL (iLoadIwiInternal lumpOps (fun _ => 0) dot) wide wide.length = .error .oobRead :=
  ⟨⟨by decide, .inl rfl, rfl, rfl, rfl, rfl, by decide, by decide⟩, rfl, error_of (by decide +kernel), error_of (by decide +kernel)⟩

/-! ### C207 -/

/-- **C207 (part): four bits per component.** A complete file is loaded, and each component of the image is 16 times the one in the file; if pixels are missing, the loader fails.
Missing: the full range, see the violation; with mipmaps, sides with different numbers of binary digits; and pictures of 512 MiB or more. -/
theorem C207_partial (junk : Nat → UInt8) (cur : Img) (bs : List UInt8) (hl : bs.length < 2147483648) {w h : Nat} {mips : Bool} (H : Header bs 3 w h mips)
    (hfit : w * h * 4 < 2147483648) (hg : mips = true → Nat.log2 w = Nat.log2 h) : Loads junk cur bs (fun ok ms =>
      (fileBytes (plainBytes 2 w h) (number w h mips) ≤ bs.length → ok = true ∧ ms.length = number w h mips ∧
        ∀ (i : Nat) m, ms[i]? = some m → Shows m (side w i) (side h i) 4 IL_BGRA (fun x y c =>
          (bs[levelAt (plainBytes 2 w h) (number w h mips) i + ((y * side w i + x) * 2 + c / 2)]?).map (fun v => UInt8.ofNat (16 * nibble v c)))) ∧
      (bs.length < fileBytes (plainBytes 2 w h) (number w h mips) → ok = false)) := by
  have : Loads junk cur bs (fun ok ms =>
      (fileBytes (plainBytes 2 w h) (count w h mips) ≤ bs.length → ok = true ∧ ms.length = count w h mips ∧
        ∀ (i : Nat) m, ms[i]? = some m → Shows m (side w i) (side h i) 4 IL_BGRA (fun x y c =>
          (bs[levelAt (plainBytes 2 w h) (count w h mips) i + ((y * side w i + x) * 2 + c / 2)]?).map (fun v => half v c))) ∧
      (bs.length < fileBytes (plainBytes 2 w h) (count w h mips) → ok = false)) := both (by have := H.len; omega) hl
    (fun _ hs => load_spec fileLaws2 junk cur hs H (.inr (by decide)) (fun i _ => reads_half fileLaws2 junk H.w0 H.h0 hfit i))
    (fun _ hs => load_spec lumpLaws2 junk cur hs H (.inr (by decide)) (fun i _ => reads_half lumpLaws2 junk H.w0 H.h0 hfit i))
  rw [count_eq hg] at this
  simp only [half_eq] at this
  exact this

/-- **C207 is violated: the brightest component.** In every complete file without mipmaps, a component with the largest value, 15, becomes 240, not 255: nothing that is loaded is
opaque or white. -/
theorem C207_violated_range (junk : Nat → UInt8) (cur : Img) (bs : List UInt8) (hl : bs.length < 2147483648) {w h : Nat} (H : Header bs 3 w h false)
    (hfit : w * h * 4 < 2147483648) (hfull : 28 + w * h * 2 ≤ bs.length) : Loads junk cur bs (fun ok ms => ok = true ∧ ∃ m, ms = [m] ∧ m.width = w ∧ m.height = h ∧
      ∀ x y c, x < w → y < h → c < 4 → ∃ v u : UInt8, bs[28 + ((y * w + x) * 2 + c / 2)]? = some v ∧ m.px x y 0 c = some u ∧ (nibble v c = 15 → u = 240) ∧ u ≠ 255) := by
  refine Both.mono (C207_partial junk cur bs hl H hfit (by intro h; cases h)) (fun ok ms hr => ?_)
  have e : number w h false = 1 := rfl
  rw [e, fileBytes_one] at hr
  have e0 : plainBytes 2 w h 0 = w * h * 2 := by unfold plainBytes; rw [side_zero H.w0, side_zero H.h0]
  rw [e0] at hr
  obtain ⟨a, b, c⟩ := hr.1 hfull
  obtain ⟨m, rfl⟩ := List.length_eq_one_iff.1 b
  have S := c 0 m rfl
  rw [levelAt_one, side_zero H.w0, side_zero H.h0] at S
  refine ⟨a, m, rfl, S.width, S.height, fun x y c hx hy hc => ?_⟩
  have hlt := pix_lt hx hy hc
  have hb : 28 + ((y * w + x) * 2 + c / 2) < bs.length := by omega
  refine ⟨bs[28 + ((y * w + x) * 2 + c / 2)], UInt8.ofNat (16 * nibble bs[28 + ((y * w + x) * 2 + c / 2)] c), List.getElem?_eq_getElem hb, ?_, fun h => by rw [h]; rfl, ?_⟩
  · rw [(S.px x y c hx hy hc).1, List.getElem?_eq_getElem hb]
    rfl
  · have hv : nibble bs[28 + ((y * w + x) * 2 + c / 2)] c < 16 := by
      have := (bs[28 + ((y * w + x) * 2 + c / 2)]).toNat_lt
      unfold nibble
      split <;> omega
    have hall : ∀ n : Fin 16, UInt8.ofNat (16 * n.1) ≠ 255 := by decide
    exact hall ⟨_, hv⟩

/-- The hypotheses are met: a white, opaque pixel. -/
example (junk : Nat → UInt8) (cur : Img) : Loads junk cur (headOf 3 3 1 1 ++ [0xFF, 0xFF]) (fun ok ms => ok = true ∧ ∃ m, ms = [m] ∧ m.px 0 0 0 3 = some 240) := by
  have H : Header (headOf 3 3 1 1 ++ [0xFF, 0xFF]) 3 1 1 false := ⟨by decide, .inl rfl, rfl, rfl, rfl, rfl, by decide, by decide⟩
  refine Both.mono (C207_violated_range junk cur _ (by decide) H (by decide) (by decide)) (fun ok ms hr => ?_)
  obtain ⟨h1, m, h2, -, -, h3⟩ := hr
  obtain ⟨v, u, hv, hu, h15, -⟩ := h3 0 0 3 (by decide) (by decide) (by decide)
  have : v = 0xFF := by
    have e : (headOf 3 3 1 1 ++ [0xFF, 0xFF])[28 + ((0 * 1 + 0) * 2 + 3 / 2)]? = some 0xFF := by decide
    rw [e] at hv
    exact (Option.some.inj hv).symm
  subst this
  exact ⟨h1, m, h2, by rw [hu, h15 (by decide)]⟩

/-! ### C208 -/

/-- **C208 (part): safety.** Whatever the bytes are, if the format in the header is there and is not one of the compressed ones, loading ends without a fault, and the memory of every image
has the size it reports.  Missing: compressed pictures (see the violation), and files of less than five bytes. -/
theorem C208_partial (junk : Nat → UInt8) (cur : Img) (hcur : cur.data.length = cur.size) (bs : List UInt8) (h5 : 5 ≤ bs.length) (hl : bs.length < 2147483648)
    (hf : ¬ (leAt bs 4 1 = 11 ∨ leAt bs 4 1 = 12 ∨ leAt bs 4 1 = 13)) : Loads junk cur bs (fun _ ms => ∀ m ∈ ms, m.data.length = m.size) :=
  both (by omega) hl (fun _ hs => load_safe fileLaws2 junk cur hcur hs h5 hf) (fun _ hs => load_safe lumpLaws2 junk cur hcur hs h5 hf)

/-- The hypotheses are met, and a file that is cut off is no harm. -/
example (junk : Nat → UInt8) : Loads junk dot (headOf 3 0 200 100 ++ [1, 2, 3]) (fun _ ms => ∀ m ∈ ms, m.data.length = m.size) :=
  C208_partial junk dot (by decide) _ (by decide) (by decide) (by decide)

/-- **C208 is violated: compressed pictures**: see `wide`. -/
theorem C208_violated_flat : ¬ (ilLoadL (iLoadIwiInternal lumpOps (fun _ => 0) dot) wide wide.length).Safe := by
  rw [C206_violated_flat.2.2.2]
  intro h
  exact h.elim (fun _ h => by cases h)

end DevIL.Iwi
