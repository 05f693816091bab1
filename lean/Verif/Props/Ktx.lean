import Verif.Lemmas.KtxB
import Verif.Props.Games
/-! KTX textures that are not compressed: C241 (the picture), C242 (whatever the bytes are). -/
set_option autoImplicit false
namespace DevIL.Ktx
open DevIL.Games DevIL.Detect DevIL.Image DevIL.DetectSpec DevIL.KtxSpec
open DevIL.GamesSpec (Shows)

/-- The loader of what is not modelled, for files and for memory. -/
structure Other where
  file : List (List UInt8) → Nat → Cache.S → C (Bool × List Img × Cache.S)
  lump : List (List UInt8) → Nat → Lump.R → C (Bool × List Img × Lump.R)

/-- Loading from an open file and from memory. -/
def Loads (junk : Nat → UInt8) (other : Other) (fuel : Nat) (cur : Img) (bs : List UInt8) (P : Bool → List Img → Prop) : Prop :=
  Both (iLoadKtxInternal fileOps junk other.file fuel cur) (iLoadKtxInternal lumpOps junk other.lump fuel cur) bs P

/-- Loading from an open file and from memory both have this fault. -/
def Fails (junk : Nat → UInt8) (other : Other) (fuel : Nat) (cur : Img) (bs : List UInt8) (e : Fault) : Prop :=
  ilLoadF (iLoadKtxInternal fileOps junk other.file fuel cur) (opened bs 0) = .error e ∧ ilLoadL (iLoadKtxInternal lumpOps junk other.lump fuel cur) bs bs.length = .error e

theorem fails {junk : Nat → UInt8} {other : Other} {fuel : Nat} {cur : Img} {bs : List UInt8} {e : Fault} (h0 : 0 < bs.length) (hl : bs.length < 2147483648)
    (hF : ∀ s, FileAt s bs 0 → iLoadKtxInternal fileOps junk other.file fuel cur s = .error e) (hL : ∀ s, LumpAt s bs 0 → iLoadKtxInternal lumpOps junk other.lump fuel cur s = .error e) :
    Fails junk other fuel cur bs e := by
  refine ⟨?_, ?_⟩
  · unfold ilLoadF
    simp only []
    rw [hF _ (input_at (opened bs 0) rfl hl)]
    rfl
  · unfold ilLoadL
    simp only []
    rw [hL _ (lump_at bs hl h0)]
    rfl

theorem kind_pos {x k f : Nat} (h : kind x = some (k, f)) : 0 < k := (format_pos (x := x) h).1

/-- **C241**, in part: a KTX texture without keys, or with that of the orientation, loads, from a file and from memory, as all its levels, the first as the image and the others as its mipmaps, whatever the format of its pixels and whether
its rows have to be filled up, with its first row at the top or the bottom as the key says; provided no level has a height below half a pixel unless its rows need not be filled up.  What is missing are textures with other keys, other
levels (`C241_violated_rows`), and textures that say that the mipmaps are to be made (`C241_violated_levels`). -/
theorem C241_picture_partial (junk : Nat → UInt8) (other : Other) (fuel : Nat) (hfu : 3 ≤ fuel) (cur : Img) (bs : List UInt8) (hl : bs.length < 2147483648) (w h k f n b : Nat) (down : Bool) (H : Header bs w h k f) (K : Keyed bs b down) (hm : leAt bs 56 4 = n)
    (hn : 0 < n) (S : Stored bs b w h k n) (hv : ∀ i, i < n → 0 < h / 2 ^ i ∨ side w i * k % 4 = 0) :
    Loads junk other fuel cur bs (fun ok ms => ok = true ∧ ms.length = n ∧ ∀ i m, ms[i]? = some m → ShowsAs down m (side w i) (side h i) k f (fun x y c => bs[place b w h k i + 4 + y * pitch (side w i) k + (x * k + c)]?)) := by
  have hk := kind_pos H.format
  have w0 := H.w0
  have h0 := H.h0
  have t2 := (S 0 hn).2
  have hp : place b w h k 1 = b + 4 + side h 0 * pitch (side w 0) k := rfl
  have sw : side w 0 = w := by unfold side; rw [Nat.pow_zero, Nat.div_one]; omega
  have sh : side h 0 = h := by unfold side; rw [Nat.pow_zero, Nat.div_one]; omega
  rw [hp, sw, sh] at t2
  have hfit : w * h * k < 4294967296 := by
    have := Nat.mul_le_mul_left h (show w * k ≤ pitch w k by unfold pitch; omega)
    rw [Nat.mul_comm w h, Nat.mul_assoc]
    omega
  have core : ∀ {σ : Type} {o : Ops σ} {At : σ → List UInt8 → Nat → Prop} (L : Laws2 o At) (oth : List (List UInt8) → Nat → σ → C (Bool × List Img × σ)) (s : σ), At s bs 0 →
      Holds (iLoadKtxInternal o junk oth fuel cur s) (fun r => (r.1 = true ∧ r.2.1.length = n ∧ ∀ i m, r.2.1[i]? = some m → ShowsAs down m (side w i) (side h i) k f (fun x y c => bs[place b w h k i + 4 + y * pitch (side w i) k + (x * k + c)]?)) ∧ ∃ q, At r.2.2 bs q) := by
    intro σ o At L oth s hA
    obtain ⟨s1, A1, e⟩ := load_keys L junk oth fuel cur H hfit hk hA
    have hkeys : ∃ s2, iKtxKeyValueData o junk fuel (leAt bs 60 4) s1 = .ok (some (if down then IL_ORIGIN_UPPER_LEFT else IL_ORIGIN_LOWER_LEFT), s2) ∧ At s2 bs b := by
      rcases K with ⟨k1, rfl, rfl⟩ | ⟨k1, k2, rfl⟩
      · refine ⟨s1, ?_, A1⟩
        rw [k1]
        rfl
      · rw [k1]
        refine data_ok L junk fuel A1 (by decide) (by omega) ?_
        rw [k2]
        obtain ⟨f', rfl⟩ : ∃ f', fuel = f' + 3 := ⟨fuel - 3, by omega⟩
        exact keys_orientation down f'
    obtain ⟨s2, ek, A2⟩ := hkeys
    rw [e, hm, ek, bind_ok]
    have R := levels_spec L junk (f := f) (g := if down then IL_ORIGIN_UPPER_LEFT else IL_ORIGIN_LOWER_LEFT) hk S hv n 0 s2 hn (by omega) A2
    rw [Nat.pow_zero, Nat.div_one, Nat.div_one] at R
    refine R.bind (fun t ht => ?_)
    obtain ⟨c, ms, s3⟩ := t
    obtain ⟨rfl, q2, q3, q4⟩ := ht
    simp only [] at q2 q3 q4 ⊢
    rw [if_pos trivial]
    exact Holds.pure ⟨⟨rfl, q2, fun i m hi => by have := q3 i m hi; rw [Nat.zero_add] at this; exact this⟩, q4⟩
  have h64 := H.all
  exact both (by omega) hl (core fileLaws2 other.file) (core lumpLaws2 other.lump)

/-- **C241 violated**: of a texture of one row with a mipmap whose row has to be filled up, the mipmap is never read: it is whatever was in the memory of the image. -/
theorem C241_violated_rows (junk : Nat → UInt8) (other : Other) (fuel : Nat) (cur : Img) (bs : List UInt8) (hl : bs.length < 2147483648) (w k f : Nat) (H : Header bs w 1 k f) (hkv : leAt bs 60 4 = 0) (hm : leAt bs 56 4 = 2) (S : Stored bs 64 w 1 k 2)
    (hr : side w 1 * k % 4 ≠ 0) : Loads junk other fuel cur bs (fun ok ms => ok = true ∧ ∃ m m', ms = [m, m'] ∧ m'.width = side w 1 ∧ m'.height = 1 ∧ m'.data.length = side w 1 * k ∧ ∀ i, i < side w 1 * k → m'.data[i]? = some (junk i)) := by
  have hk := kind_pos H.format
  have w0 := H.w0
  have h64 := H.all
  have hs1 : side 1 1 = 1 := by decide
  have hs0 : side 1 0 = 1 := by decide
  have sw : side w 0 = w := by unfold side; rw [Nat.pow_zero, Nat.div_one]; omega
  obtain ⟨a1, a2⟩ := S 0 (by decide)
  obtain ⟨b1, b2⟩ := S 1 (by decide)
  have hp1 : place 64 w 1 k 1 = 64 + 4 + 1 * pitch w k := by show 64 + 4 + side 1 0 * pitch (side w 0) k = _; rw [hs0, sw]
  have hp2 : place 64 w 1 k 2 = place 64 w 1 k 1 + 4 + 1 * pitch (side w 1) k := by show _ + 4 + side 1 1 * pitch (side w 1) k = _; rw [hs1]
  have hb0 : bytes w 1 k 0 = 1 * pitch w k := by unfold bytes; rw [hs0, sw]
  have hb1 : bytes w 1 k 1 = 1 * pitch (side w 1) k := by unfold bytes; rw [hs1]
  change leAt bs 64 4 = _ at a1
  change place 64 w 1 k 1 ≤ _ at a2
  change place 64 w 1 k 2 ≤ _ at b2
  rw [hb0] at a1
  rw [hb1] at b1
  rw [hp2] at b2
  have pw : w * k ≤ pitch w k := by unfold pitch; omega
  have ps : pitch (side w 1) k = side w 1 * k + (3 - (side w 1 * k + 3) % 4) := by unfold pitch; omega
  have hfit : w * 1 * k < 4294967296 := by rw [Nat.mul_one]; omega
  have hfit' : side w 1 * 1 * k < 4294967296 := by rw [Nat.mul_one]; omega
  have core : ∀ {σ : Type} {o : Ops σ} {At : σ → List UInt8 → Nat → Prop} (L : Laws2 o At) (oth : List (List UInt8) → Nat → σ → C (Bool × List Img × σ)) (s : σ), At s bs 0 →
      Holds (iLoadKtxInternal o junk oth fuel cur s) (fun r => (r.1 = true ∧ ∃ m m', r.2.1 = [m, m'] ∧ m'.width = side w 1 ∧ m'.height = 1 ∧ m'.data.length = side w 1 * k ∧ ∀ i, i < side w 1 * k → m'.data[i]? = some (junk i)) ∧ ∃ q, At r.2.2 bs q) := by
    intro σ o At L oth s hA
    obtain ⟨s1, A1, e⟩ := load_keys L junk oth fuel cur H hfit hk hA
    obtain ⟨m1, m2, -, m4, m5, -, -, m8, m9⟩ := tex_fields junk (side w 1) 1 k f (by unfold side; omega) (by decide) hk hfit'
    have mb : (tex junk (side w 1) 1 k f).bps = side w 1 * k := by rw [m8.1, m1, m4, m5, Nat.mul_one]
    rw [Nat.mul_one] at m9
    rw [e, hkv, hm]
    unfold iKtxKeyValueData
    rw [if_pos rfl]
    show Holds (levels o junk k f IL_ORIGIN_UPPER_LEFT 2 w 1 (tex junk w 1 k f) s1 >>= _) _
    obtain ⟨⟨c, m, s2⟩, e1, r1, -, r2, A2⟩ := level_spec L junk (f := f) (v := 1) (g := IL_ORIGIN_UPPER_LEFT) (.inl rfl) w0 (by decide) hk a1 (by rw [hp1] at a2; exact a2) A1
    simp only [] at r1 r2 A2
    subst r1
    rw [← hp1] at A2
    obtain ⟨hd, s3, n1, A3, v1⟩ := number L junk A2 (by omega)
    have e2 : level o junk 0 IL_ORIGIN_UPPER_LEFT (tex junk (side w 1) 1 k f) s2 = .ok (0, { tex junk (side w 1) 1 k f with origin := IL_ORIGIN_UPPER_LEFT }, s3) := by
      unfold level
      rw [n1, bind_ok]
      simp only []
      rw [if_neg (by rw [mb, m2, m9, v1, b1, ps, u32_of_lt (by omega)]; omega), if_neg (by rw [mb]; exact hr)]
      rfl
    rw [levels, e1, bind_ok]
    simp only []
    rw [if_neg (by decide), levels, tex_half, show tex junk (max 1 (w / 2)) (max 1 (1 / 2)) k f = tex junk (side w 1) 1 k f from rfl, e2]
    refine Holds.pure ⟨⟨rfl, m, _, rfl, m1, m2, ?_, fun i hi => ?_⟩, _, A3⟩
    · show (tex junk (side w 1) 1 k f).data.length = _
      rw [tex_len, m9]
    · exact alloc_get junk _ i (by rw [← m9] at hi; exact hi)
  exact both (by omega) hl (core fileLaws2 other.file) (core lumpLaws2 other.lump)

/-- **C241 violated**: a texture that says that there are no levels, which by the format means that it has one and the others are to be made from it, loads with success, but as what was in the memory of the image, whatever it stores. -/
theorem C241_violated_levels (junk : Nat → UInt8) (other : Other) (fuel : Nat) (cur : Img) (bs : List UInt8) (hl : bs.length < 2147483648) (w h k f : Nat) (H : Header bs w h k f) (hkv : leAt bs 60 4 = 0) (hm : leAt bs 56 4 = 0)
    (hfit : w * h * k < 2 ^ 32) : Loads junk other fuel cur bs (fun ok ms => ok = true ∧ ∃ m, ms = [m] ∧ m.width = w ∧ m.height = h ∧ m.data.length = w * h * k ∧ ∀ i, i < w * h * k → m.data[i]? = some (junk i)) := by
  have hk := kind_pos H.format
  have core : ∀ {σ : Type} {o : Ops σ} {At : σ → List UInt8 → Nat → Prop} (L : Laws2 o At) (oth : List (List UInt8) → Nat → σ → C (Bool × List Img × σ)) (s : σ), At s bs 0 →
      Holds (iLoadKtxInternal o junk oth fuel cur s) (fun r => (r.1 = true ∧ ∃ m, r.2.1 = [m] ∧ m.width = w ∧ m.height = h ∧ m.data.length = w * h * k ∧ ∀ i, i < w * h * k → m.data[i]? = some (junk i)) ∧ ∃ q, At r.2.2 bs q) := by
    intro σ o At L oth s hA
    obtain ⟨s1, A1, e⟩ := load_keys L junk oth fuel cur H hfit hk hA
    obtain ⟨m1, m2, -, -, -, -, -, -, m9⟩ := tex_fields junk w h k f H.w0 H.h0 hk hfit
    rw [e, hkv, hm]
    unfold iKtxKeyValueData
    rw [if_pos rfl]
    refine Holds.pure ⟨⟨rfl, tex junk w h k f, rfl, m1, m2, by rw [tex_len, m9], fun i hi => ?_⟩, _, A1⟩
    exact alloc_get junk _ i (by rw [← m9] at hi; exact hi)
  have h64 := H.all
  exact both (by omega) hl (core fileLaws2 other.file) (core lumpLaws2 other.lump)

/-- The loader of what is not modelled is safe for these bytes: it ends without a fault, every image it makes has the block its size says, and it does not change the bytes. -/
def Other.Safe (other : Other) (bs : List UInt8) : Prop :=
  (∀ h g s, (∃ q, FileAt s bs q) → Holds (other.file h g s) (fun r => (∀ m ∈ r.2.1, m.data.length = m.size) ∧ ∃ q, FileAt r.2.2 bs q)) ∧
  (∀ h g s, (∃ q, LumpAt s bs q) → Holds (other.lump h g s) (fun r => (∀ m ∈ r.2.1, m.data.length = m.size) ∧ ∃ q, LumpAt r.2.2 bs q))

/-- **C242**, in part: whatever the other bytes are, a texture without keys loads without a fault, with any number of levels, and every image has a block of its size.  What is missing are headers that are cut off, sizes whose bytes do
not fit in 32 bits, and keys, for which it is not so (`C242_violated_hang`, `C242_violated_read`). -/
theorem C242_safe_partial (junk : Nat → UInt8) (other : Other) (fuel : Nat) (cur : Img) (bs : List UInt8) (hl : bs.length < 2147483648) (h64 : 64 ≤ bs.length) (hkv : leAt bs 60 4 = 0) (hfit : max 1 (leAt bs 36 4) * max 1 (leAt bs 40 4) * 4 < 2 ^ 32)
    (hcur : cur.data.length = cur.size) (hoth : other.Safe bs) : Loads junk other fuel cur bs (fun _ ms => ∀ m ∈ ms, m.data.length = m.size) :=
  both (by omega) hl (fun _ hA => load_any fileLaws2 junk other.file fuel cur h64 hkv hfit hcur hoth.1 hA) (fun _ hA => load_any lumpLaws2 junk other.lump fuel cur h64 hkv hfit hcur hoth.2 hA)

theorem keys_fail (junk : Nat → UInt8) (other : Other) (fuel : Nat) (cur : Img) (bs : List UInt8) (hl : bs.length < 2147483648) (w h k f : Nat) (H : Header bs w h k f) (hfit : w * h * k < 2 ^ 32) (h0 : 0 < leAt bs 60 4) (hin : 64 + leAt bs 60 4 ≤ bs.length) {e : Fault}
    (hk : keys (at_ bs 64 (leAt bs 60 4)) fuel 0 IL_ORIGIN_UPPER_LEFT = .error e) : Fails junk other fuel cur bs e := by
  have hk0 := kind_pos H.format
  have h64 := H.all
  refine fails (by omega) hl (fun s hA => ?_) (fun s hA => ?_)
  · obtain ⟨s1, A1, e1⟩ := load_keys fileLaws2 junk other.file fuel cur H hfit hk0 hA
    rw [e1, data_spec fileLaws2 junk fuel A1 h0 hin hk]; rfl
  · obtain ⟨s1, A1, e1⟩ := load_keys lumpLaws2 junk other.lump fuel cur H hfit hk0 hA
    rw [e1, data_spec lumpLaws2 junk fuel A1 h0 hin hk]; rfl

/-- **C242 violated**: a texture whose first key has no bytes is never loaded to the end, however many turns the loader may take. -/
theorem C242_violated_hang (junk : Nat → UInt8) (other : Other) (fuel : Nat) (cur : Img) (bs : List UInt8) (hl : bs.length < 2147483648) (w h k f : Nat) (H : Header bs w h k f) (hfit : w * h * k < 2 ^ 32) (h4 : 4 ≤ leAt bs 60 4)
    (hin : 64 + leAt bs 60 4 ≤ bs.length) (hz : leAt bs 64 4 = 0) : Fails junk other fuel cur bs .hang := by
  refine keys_fail junk other fuel cur bs hl w h k f H hfit (by omega) hin (keys_hang (by rw [at_length]; omega) ?_ fuel _)
  have : at_ (at_ bs 64 (leAt bs 60 4)) 0 4 = at_ bs 64 4 := by
    unfold at_
    rw [List.drop_zero, List.take_take, Nat.min_eq_left (by exact h4)]
  unfold leAt
  rw [show at_ (at_ bs 64 (le (at_ bs 60 4))) 0 4 = at_ bs 64 4 from this]
  exact hz

/-- **C242 violated**: with one, two or three bytes of keys the loader reads beyond them. -/
theorem C242_violated_read (junk : Nat → UInt8) (other : Other) (fuel : Nat) (hf : 0 < fuel) (cur : Img) (bs : List UInt8) (hl : bs.length < 2147483648) (w h k f : Nat) (H : Header bs w h k f) (hfit : w * h * k < 2 ^ 32) (h0 : 0 < leAt bs 60 4)
    (h4 : leAt bs 60 4 < 4) (hin : 64 + leAt bs 60 4 ≤ bs.length) : Fails junk other fuel cur bs .oobRead := by
  obtain ⟨n, rfl⟩ : ∃ n, fuel = n + 1 := ⟨fuel - 1, by omega⟩
  exact keys_fail junk other _ cur bs hl w h k f H hfit h0 hin (keys_short (by rw [at_length]; omega) (by rw [at_length]; omega) n _)

/-! ### Concrete textures -/

/-- The first 64 bytes: the format, the size, the levels and the bytes of keys. -/
def start64 (f w h levels keys : UInt8) : List UInt8 :=
  [0xAB, 0x4B, 0x54, 0x58, 0x20, 0x31, 0x31, 0xBB, 0x0D, 0x0A, 0x1A, 0x0A, 1, 2, 3, 4, 1, 0x14, 0, 0, 1, 0, 0, 0, f, 0x19, 0, 0, f, 0x19, 0, 0, f, 0x19, 0, 0, w, 0, 0, 0, h, 0, 0, 0, 0, 0, 0, 0, 0, 0, 0, 0, 1, 0, 0, 0, levels, 0, 0, 0, keys, 0, 0, 0]

/-- One column and two rows of three colours, each row filled up to four bytes. -/
def two : List UInt8 := start64 7 1 2 1 0 ++ [8, 0, 0, 0, 1, 2, 3, 0, 4, 5, 6, 0]

theorem two_header : Header two 1 2 3 IL_RGB := ⟨by decide, by decide, by decide, by decide, by decide, by decide, by decide, by decide, by decide, by decide, by decide, by decide⟩

example (junk : Nat → UInt8) (other : Other) (cur : Img) : Loads junk other 3 cur two (fun ok ms => ok = true ∧ ms.length = 1 ∧ ∀ i m, ms[i]? = some m →
      ShowsAs true m (side 1 i) (side 2 i) 3 IL_RGB (fun x y c => two[place 64 1 2 3 i + 4 + y * pitch (side 1 i) 3 + (x * 3 + c)]?)) :=
  C241_picture_partial junk other 3 (by decide) cur two (by decide) 1 2 3 IL_RGB 1 64 true two_header (.inl (by decide)) (by decide) (by decide) (by unfold Stored; decide) (by decide)

/-- The same with its first row at the bottom. -/
def upside : List UInt8 := start64 7 1 2 1 28 ++ (orientation false ++ [8, 0, 0, 0, 1, 2, 3, 0, 4, 5, 6, 0])

example (junk : Nat → UInt8) (other : Other) (cur : Img) : Loads junk other 3 cur upside (fun ok ms => ok = true ∧ ms.length = 1 ∧ ∀ i m, ms[i]? = some m →
      ShowsAs false m (side 1 i) (side 2 i) 3 IL_RGB (fun x y c => upside[place 92 1 2 3 i + 4 + y * pitch (side 1 i) 3 + (x * 3 + c)]?)) :=
  C241_picture_partial junk other 3 (by decide) cur upside (by decide) 1 2 3 IL_RGB 1 92 false ⟨by decide, by decide, by decide, by decide, by decide, by decide, by decide, by decide, by decide, by decide, by decide, by decide⟩ (.inr (by decide)) (by decide)
    (by decide) (by unfold Stored; decide) (by decide)

/-- The second row begins after the byte that fills up the first. -/
example : two[place 64 1 2 3 0 + 4 + 1 * pitch 1 3 + (0 * 3 + 0)]? = some 4 := by decide

/-- Two columns and one row of four components, which need not be filled up, and a mipmap of one pixel. -/
def wide : List UInt8 := start64 8 2 1 2 0 ++ [8, 0, 0, 0, 1, 2, 3, 4, 5, 6, 7, 8, 4, 0, 0, 0, 9, 10, 11, 12]

example (junk : Nat → UInt8) (other : Other) (cur : Img) : Loads junk other 3 cur wide (fun ok ms => ok = true ∧ ms.length = 2 ∧ ∀ i m, ms[i]? = some m →
      ShowsAs true m (side 2 i) (side 1 i) 4 IL_RGBA (fun x y c => wide[place 64 2 1 4 i + 4 + y * pitch (side 2 i) 4 + (x * 4 + c)]?)) :=
  C241_picture_partial junk other 3 (by decide) cur wide (by decide) 2 1 4 IL_RGBA 2 64 true ⟨by decide, by decide, by decide, by decide, by decide, by decide, by decide, by decide, by decide, by decide, by decide, by decide⟩ (.inl (by decide)) (by decide) (by decide) (by unfold Stored; decide) (by decide)

/-- The mipmap is the last four bytes. -/
example : side 2 1 = 1 ∧ side 1 1 = 1 ∧ wide[place 64 2 1 4 1 + 4 + 0 * pitch 1 4 + (0 * 4 + 0)]? = some 9 := by decide

/-- The same of three components. -/
def flat : List UInt8 := start64 7 2 1 2 0 ++ [8, 0, 0, 0, 1, 2, 3, 4, 5, 6, 0, 0, 4, 0, 0, 0, 9, 10, 11, 0]

example (junk : Nat → UInt8) (other : Other) (fuel : Nat) (cur : Img) :
    Loads junk other fuel cur flat (fun ok ms => ok = true ∧ ∃ m m', ms = [m, m'] ∧ m'.width = side 2 1 ∧ m'.height = 1 ∧ m'.data.length = side 2 1 * 3 ∧ ∀ i, i < side 2 1 * 3 → m'.data[i]? = some (junk i)) :=
  C241_violated_rows junk other fuel cur flat (by decide) 2 3 IL_RGB ⟨by decide, by decide, by decide, by decide, by decide, by decide, by decide, by decide, by decide, by decide, by decide, by decide⟩ (by decide) (by decide) (by unfold Stored; decide) (by decide)

example (junk : Nat → UInt8) (other : Other) (fuel : Nat) (cur : Img) :
    Loads junk other fuel cur (start64 7 1 2 0 0 ++ [8, 0, 0, 0, 1, 2, 3, 0, 4, 5, 6, 0]) (fun ok ms => ok = true ∧ ∃ m, ms = [m] ∧ m.width = 1 ∧ m.height = 2 ∧ m.data.length = 1 * 2 * 3 ∧ ∀ i, i < 1 * 2 * 3 → m.data[i]? = some (junk i)) :=
  C241_violated_levels junk other fuel cur _ (by decide) 1 2 3 IL_RGB ⟨by decide, by decide, by decide, by decide, by decide, by decide, by decide, by decide, by decide, by decide, by decide, by decide⟩ (by decide) (by decide) (by decide)

/-- What is not modelled is refused. -/
def refuse (cur : Img) : Other := ⟨fun _ _ s => pure (false, [cur], s), fun _ _ s => pure (false, [cur], s)⟩

/-- Three levels, of which the third is cut off. -/
example (junk : Nat → UInt8) (fuel : Nat) (cur : Img) (hcur : cur.data.length = cur.size) :
    Loads junk (refuse cur) fuel cur (start64 8 4 2 3 0 ++ ([32, 0, 0, 0] ++ List.replicate 32 5 ++ [8, 0, 0, 0] ++ List.replicate 8 6 ++ [4, 0, 0, 0, 1])) (fun _ ms => ∀ m ∈ ms, m.data.length = m.size) :=
  C242_safe_partial junk (refuse cur) fuel cur _ (by decide) (by decide) (by decide) (by decide) hcur
    ⟨fun _ _ _ h => Holds.pure ⟨fun m hm => by rw [List.mem_singleton.1 hm]; exact hcur, h⟩, fun _ _ _ h => Holds.pure ⟨fun m hm => by rw [List.mem_singleton.1 hm]; exact hcur, h⟩⟩

example (junk : Nat → UInt8) (other : Other) (fuel : Nat) (cur : Img) : Fails junk other fuel cur (start64 7 1 2 1 8 ++ [0, 0, 0, 0, 0, 0, 0, 0, 8, 0, 0, 0, 1, 2, 3, 0, 4, 5, 6, 0]) .hang :=
  C242_violated_hang junk other fuel cur _ (by decide) 1 2 3 IL_RGB ⟨by decide, by decide, by decide, by decide, by decide, by decide, by decide, by decide, by decide, by decide, by decide, by decide⟩ (by decide) (by decide) (by decide) (by decide)

example (junk : Nat → UInt8) (other : Other) (cur : Img) : Fails junk other 9 cur (start64 7 1 2 1 3 ++ [7, 7, 7, 8, 0, 0, 0]) .oobRead :=
  C242_violated_read junk other 9 (by decide) cur _ (by decide) 1 2 3 IL_RGB ⟨by decide, by decide, by decide, by decide, by decide, by decide, by decide, by decide, by decide, by decide, by decide, by decide⟩ (by decide) (by decide) (by decide) (by decide)

end DevIL.Ktx
