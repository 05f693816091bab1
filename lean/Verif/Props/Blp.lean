import Verif.Lemmas.BlpB
import Verif.Props.Games
/-! BLP2 textures: C238 (with a palette), C239 (with one bit of alpha), C240 (whatever the bytes are). -/
set_option autoImplicit false
namespace DevIL.Blp
open DevIL.Games DevIL.Detect DevIL.Image DevIL.DetectSpec DevIL.BlpSpec
open DevIL.GamesSpec (Shows)

/-- The loader of what is not modelled, for files and for memory. -/
structure Other where
  file : List (List UInt8) → Cache.S → C (Bool × List Loaded × Cache.S)
  lump : List (List UInt8) → Lump.R → C (Bool × List Loaded × Lump.R)

/-- Loading from an open file and from memory. -/
def Loads (junk : Nat → UInt8) (other : Other) (cur : Loaded) (bs : List UInt8) (P : Bool → List Loaded → Prop) : Prop :=
  Both (iLoadBlpInternal fileOps junk other.file cur) (iLoadBlpInternal lumpOps junk other.lump cur) bs P

section
variable {σ : Type} {o : Ops σ} {At : σ → List UInt8 → Nat → Prop}

theorem level_fit {bs : List UInt8} {bits w h n : Nat} (T : Texture bs bits w h n) (i : Nat) : 0 < side w i ∧ 0 < side h i ∧ side w i * side h i * 4 < 2147483648 := by
  refine ⟨side_pos T.w0 i, side_pos T.h0 i, ?_⟩
  have h1 := Nat.mul_le_mul_right 4 (Nat.mul_le_mul (side_le T.w0 i) (side_le T.h0 i))
  have h2 := T.fit
  have h31 : (2 : Nat) ^ 31 = 2147483648 := by decide
  omega

theorem check_ok {bs : List UInt8} {bits w h n : Nat} (T : Texture bs bits w h n) (hb : bits = 0 ∨ bits = 1) {hd : List (List UInt8)} (h0 : fld hd 0 = at_ bs 0 4) (h1 : fle hd 1 = leAt bs 4 4) (h2 : fle hd 2 = leAt bs 8 1) (h3 : fle hd 3 = leAt bs 9 1)
    (h4 : fle hd 4 = leAt bs 10 1) (h6 : fle hd 6 = leAt bs 12 4) (h7 : fle hd 7 = leAt bs 16 4) : iCheckBlp2 hd = true := by
  have w0 := T.w0
  have h0' := T.h0
  unfold iCheckBlp2
  rw [h0, h1, h2, h3, h4, h6, h7, T.sig, T.kind, T.raw, T.alpha, T.width, T.height, if_neg (by decide), if_neg (by decide), if_neg (by decide), if_neg (by rcases hb with rfl | rfl <;> decide),
    if_neg (by rcases T.alphaType with h | h | h | h <;> rw [h] <;> decide), if_neg (by simp; omega)]

/-- A texture, up to its palette. -/
theorem load_eq (L : Laws2 o At) (junk : Nat → UInt8) (other : List (List UInt8) → σ → C (Bool × List Loaded × σ)) (cur : Loaded) {bs : List UInt8} {bits w h n : Nat} (T : Texture bs bits w h n) (hb : bits = 0 ∨ bits = 1) {s : σ} (hA : At s bs 0) :
    ∃ hd s', At s' bs 1172 ∧ fle hd 5 = leAt bs 11 1 ∧ fle hd 6 = w ∧ fle hd 7 = h ∧ (∀ i, i < 16 → off hd i = place bs i) ∧ (∀ i, i < 16 → len hd i = BlpSpec.length bs i) ∧
      iLoadBlpInternal o junk other cur s = (if bits = 0 then do
        let (ok, ms, s) ← levels (mk junk 1 IL_COLOUR_INDEX) (level0 o) hd s'
        pure (ok, ms.map (fun m => (m, some ⟨at_ bs 148 1024, 1024, IL_PAL_BGRA32⟩)), s)
      else do
        let (ok, ms, s) ← levels (mk junk 4 IL_BGRA) (level1 o junk (at_ bs 148 1024)) hd s'
        pure (ok, ms.map (fun m => (m, none)), s)) := by
  have hp := T.pal
  obtain ⟨hd, s1, e1, A1, h0, h1, h2, h3, h4, h5, h6, h7, ho, hn⟩ := head_fields L junk hA (by omega)
  obtain ⟨⟨k, p, s2⟩, e2, k1, k2, A2⟩ := into_spec L (alloc junk 1024) 1 1024 A1 (by decide) (by decide) (by rw [alloc_length])
  simp only [] at k1 k2 A2
  have hl : (at_ bs 148 (1 * 1024)).length = 1024 := by rw [at_length]; omega
  rw [hl] at k1 k2 A2
  rw [List.drop_of_length_le (by rw [alloc_length]), List.append_nil, Nat.one_mul] at k2
  subst k2
  rw [Nat.div_one] at k1
  subst k1
  refine ⟨hd, s2, A2, h5, by rw [h6, T.width], by rw [h7, T.height], ho, hn, ?_⟩
  unfold iLoadBlpInternal
  rw [e1, bind_ok]
  simp only []
  rw [if_neg (by rw [check_ok T hb h0 h1 h2 h3 h4 h6 h7]; decide), if_neg (by rw [h1, T.kind]; exact fun h => h rfl), if_neg (by rw [h2, T.raw]; exact fun h => h rfl), h3, T.alpha]
  rcases hb with rfl | rfl
  · rw [if_pos rfl, if_pos rfl, e2, bind_ok]
    simp only []
    rw [if_neg (fun h => h rfl)]
  · rw [if_neg (by decide), if_pos rfl, if_neg (by decide), e2, bind_ok]
    simp only []
    rw [if_neg (fun h => h rfl)]
end

/-- **C238.** A BLP2 texture with a palette and no alpha loads, from a file and from memory, as all its levels: the first as the image and the others as its mipmaps, each half as wide and high as the one before but at least one pixel,
with the numbers of the colours the file has for that level, the same palette, and the first row at the top. -/
theorem C238_palette (junk : Nat → UInt8) (other : Other) (cur : Loaded) (bs : List UInt8) (hl : bs.length < 2147483648) (w h n : Nat) (T : Texture bs 0 w h n) (S : Stored bs n (fun i => side w i * side h i)) :
    Loads junk other cur bs (fun ok ms => ok = true ∧ ms.length = n ∧ ∀ i m, ms[i]? = some m →
      Shows m.1 (side w i) (side h i) 1 IL_COLOUR_INDEX (fun x y _ => bs[place bs i + (y * side w i + x)]?) ∧ GamesSpec.HasPal m.2 (at_ bs 148 1024) IL_PAL_BGRA32) := by
  have hp := T.pal
  have hpl : (at_ bs 148 1024).length = 1024 := by rw [at_length]; omega
  have core : ∀ {σ : Type} {o : Ops σ} {At : σ → List UInt8 → Nat → Prop} (L : Laws2 o At) (oth : List (List UInt8) → σ → C (Bool × List Loaded × σ)) (s : σ), At s bs 0 →
      Holds (iLoadBlpInternal o junk oth cur s) (fun r => (r.1 = true ∧ r.2.1.length = n ∧ ∀ i m, r.2.1[i]? = some m →
      Shows m.1 (side w i) (side h i) 1 IL_COLOUR_INDEX (fun x y _ => bs[place bs i + (y * side w i + x)]?) ∧ GamesSpec.HasPal m.2 (at_ bs 148 1024) IL_PAL_BGRA32) ∧ ∃ q, At r.2.2 bs q) := by
    intro σ o At L oth s hA
    obtain ⟨hd, s1, A1, h5, h6, h7, ho, hn, e⟩ := load_eq L junk oth cur T (.inl rfl) hA
    rw [e, if_pos rfl]
    refine (levels_spec T hd h5 h6 h7 ho hn (mk junk 1 IL_COLOUR_INDEX) (mk_half junk 1 IL_COLOUR_INDEX) (level0 o) (fun i m => Shows m (side w i) (side h i) 1 IL_COLOUR_INDEX (fun x y _ => bs[place bs i + (y * side w i + x)]?))
      (fun i m hS => ⟨hS.width, hS.height⟩) (fun i hi s hA => ?_) ⟨_, A1⟩).bind (fun r hr => ?_)
    · obtain ⟨s1, s2⟩ := S i hi
      simp only [] at s1 s2
      obtain ⟨f1, f2, f3⟩ := level_fit T i
      rw [s1]
      exact level0_spec L junk f1 f2 f3 s2 hA
    · obtain ⟨ok, ms, s2⟩ := r
      obtain ⟨rfl, q2, q3, q4⟩ := hr
      simp only [] at q2 q3 q4 ⊢
      refine Holds.pure ⟨⟨rfl, by show (ms.map _).length = n; rw [List.length_map, q2], fun i m hi => ?_⟩, q4⟩
      rw [List.getElem?_map] at hi
      cases hm : ms[i]? with
      | none => rw [hm] at hi; cases hi
      | some m' =>
        rw [hm] at hi
        cases hi
        exact ⟨q3 i m' hm, by unfold GamesSpec.HasPal; rw [hpl]⟩
  exact both (by omega) hl (core fileLaws2 other.file) (core lumpLaws2 other.lump)

/-- **C239**, in part: a BLP2 texture with a palette and one bit of alpha loads as all its levels, in the colours of the palette and with the alpha of the file, provided the pixels of every level fill their bytes of alpha or are
fewer than eight (as in every texture whose sides are powers of two).  What is missing, since the loader refuses it (`C239_violated_refused`), are levels of other sizes. -/
theorem C239_alpha_partial (junk : Nat → UInt8) (other : Other) (cur : Loaded) (bs : List UInt8) (hl : bs.length < 2147483648) (w h n : Nat) (T : Texture bs 1 w h n)
    (S : Stored bs n (fun i => side w i * side h i + alphaBytes (side w i * side h i))) (whole : ∀ i, i < n → side w i * side h i % 8 = 0 ∨ side w i * side h i < 8) :
    Loads junk other cur bs (fun ok ms => ok = true ∧ ms.length = n ∧ ∀ i m, ms[i]? = some m →
      Shows m.1 (side w i) (side h i) 4 IL_BGRA (fun x y c => pixel bs (side w i) (side h i) (place bs i) x y c) ∧ m.2 = none) := by
  have hp := T.pal
  have core : ∀ {σ : Type} {o : Ops σ} {At : σ → List UInt8 → Nat → Prop} (L : Laws2 o At) (oth : List (List UInt8) → σ → C (Bool × List Loaded × σ)) (s : σ), At s bs 0 →
      Holds (iLoadBlpInternal o junk oth cur s) (fun r => (r.1 = true ∧ r.2.1.length = n ∧ ∀ i m, r.2.1[i]? = some m →
      Shows m.1 (side w i) (side h i) 4 IL_BGRA (fun x y c => pixel bs (side w i) (side h i) (place bs i) x y c) ∧ m.2 = none) ∧ ∃ q, At r.2.2 bs q) := by
    intro σ o At L oth s hA
    obtain ⟨hd, s1, A1, h5, h6, h7, ho, hn, e⟩ := load_eq L junk oth cur T (.inr rfl) hA
    rw [e, if_neg (by decide)]
    refine (levels_spec T hd h5 h6 h7 ho hn (mk junk 4 IL_BGRA) (mk_half junk 4 IL_BGRA) (level1 o junk (at_ bs 148 1024)) (fun i m => Shows m (side w i) (side h i) 4 IL_BGRA (fun x y c => pixel bs (side w i) (side h i) (place bs i) x y c))
      (fun i m hS => ⟨hS.width, hS.height⟩) (fun i hi s hA => ?_) ⟨_, A1⟩).bind (fun r hr => ?_)
    · obtain ⟨s1, s2⟩ := S i hi
      simp only [] at s1 s2
      obtain ⟨f1, f2, f3⟩ := level_fit T i
      have hwh := Nat.mul_pos f1 f2
      have ha : alphaBytes (side w i * side h i) = max 1 (side w i * side h i / 8) := by
        unfold alphaBytes
        rcases whole i hi with h | h <;> omega
      rw [ha] at s1 s2
      rw [s1]
      refine (level1_spec L junk f1 f2 f3 s2 hp hA).mono (fun r hr => ⟨hr.1, ?_, hr.2.2⟩)
      obtain ⟨g1, g2, g3, g4, g5, g6, g7, g8, g9, g10⟩ := hr.2.1
      have same : ∀ x y c, x < side w i → y < side h i → seen bs (side w i) (side h i) (place bs i) x y c = pixel bs (side w i) (side h i) (place bs i) x y c := by
        intro x y c hx hy
        unfold seen pixel
        by_cases h3 : c < 3
        · rw [if_pos h3, if_pos h3]
        · rw [if_neg h3, if_neg h3]
          have hin : (side h i - 1 - y) * side w i + x < side w i * side h i := by
            have := Nat.mul_le_mul_right (side w i) (show side h i - 1 - y + 1 ≤ side h i by omega)
            rw [Nat.add_mul, Nat.mul_comm (side h i)] at this
            omega
          generalize (side h i - 1 - y) * side w i + x = j at hin
          rw [if_pos (by rcases whole i hi with h | h <;> omega)]
          cases bs[place bs i + side w i * side h i + j / 8]? <;> rfl
      exact ⟨g1, g2, g3, g4, g5, g6, g7, g8, g9, fun x y c hx hy hc => by rw [← same x y c hx hy]; exact g10 x y c hx hy hc⟩
    · obtain ⟨ok, ms, s2⟩ := r
      obtain ⟨rfl, q2, q3, q4⟩ := hr
      simp only [] at q2 q3 q4 ⊢
      refine Holds.pure ⟨⟨rfl, by show (ms.map _).length = n; rw [List.length_map, q2], fun i m hi => ?_⟩, q4⟩
      rw [List.getElem?_map] at hi
      cases hm : ms[i]? with
      | none => rw [hm] at hi; cases hi
      | some m' =>
        rw [hm] at hi
        cases hi
        exact ⟨q3 i m' hm, rfl⟩
  exact both (by omega) hl (core fileLaws2 other.file) (core lumpLaws2 other.lump)

/-- **C239 violated**: every such texture of at least eight pixels whose number is no multiple of eight is refused, because the loader rounds the bytes of alpha down. -/
theorem C239_violated_refused (junk : Nat → UInt8) (other : Other) (cur : Loaded) (bs : List UInt8) (hl : bs.length < 2147483648) (w h n : Nat) (T : Texture bs 1 w h n) (S : Stored bs n (fun i => side w i * side h i + alphaBytes (side w i * side h i)))
    (h8 : 8 ≤ w * h) (hm : w * h % 8 ≠ 0) : Loads junk other cur bs (fun ok _ => ok = false) := by
  have hp := T.pal
  have core : ∀ {σ : Type} {o : Ops σ} {At : σ → List UInt8 → Nat → Prop} (L : Laws2 o At) (oth : List (List UInt8) → σ → C (Bool × List Loaded × σ)) (s : σ), At s bs 0 →
      Holds (iLoadBlpInternal o junk oth cur s) (fun r => r.1 = false ∧ ∃ q, At r.2.2 bs q) := by
    intro σ o At L oth s hA
    obtain ⟨hd, s1, A1, h5, h6, h7, ho, hn, e⟩ := load_eq L junk oth cur T (.inr rfl) hA
    obtain ⟨f1, f2, f3⟩ := level_fit T 0
    obtain ⟨t1, -⟩ := S 0 T.n1
    simp only [] at t1
    change 0 < w at f1
    change 0 < h at f2
    change w * h * 4 < _ at f3
    change _ = w * h + alphaBytes (w * h) at t1
    obtain ⟨m1, m2, m3, m4, m5⟩ := mk_fields junk w h 4 IL_BGRA f1 f2 (by decide) (by omega)
    rw [e, if_neg (by decide)]
    have e1 : level1 o junk (at_ bs 148 1024) (off hd 0) (len hd 0) (mk junk 4 IL_BGRA w h) s1 = .ok (false, mk junk 4 IL_BGRA w h, s1) := by
      unfold level1
      simp only []
      rw [if_pos]
      · rfl
      · rw [hn 0 (by decide), t1, m1, m2, m3, u32_of_lt (n := w * h) (by omega), if_neg (by omega), u32_of_lt (n := w * h * 4 / 4 + _) (by omega)]
        unfold alphaBytes
        omega
    unfold levels
    rw [h6, h7, e1, bind_ok]
    exact Holds.pure ⟨rfl, _, A1⟩
  exact both (by omega) hl (core fileLaws2 other.file) (core lumpLaws2 other.lump)

/-- The loader of what is not modelled is safe for these bytes: it ends without a fault, every image it makes has the block its size says, and it does not change the bytes. -/
def Other.Safe (other : Other) (bs : List UInt8) : Prop :=
  (∀ h s, (∃ q, FileAt s bs q) → Holds (other.file h s) (fun r => (∀ m ∈ r.2.1, m.1.data.length = m.1.size) ∧ ∃ q, FileAt r.2.2 bs q)) ∧
  (∀ h s, (∃ q, LumpAt s bs q) → Holds (other.lump h s) (fun r => (∀ m ∈ r.2.1, m.1.data.length = m.1.size) ∧ ∃ q, LumpAt r.2.2 bs q))

/-- **C240**, in part: whatever the other bytes are, loading ends without a fault, and every image has a block of its size.  What is missing are headers that are cut off, sizes whose bytes do not fit in 32 bits, and places of 2^31 or
more, for which it is not so from memory (`C240_violated_place`). -/
theorem C240_safe_partial (junk : Nat → UInt8) (other : Other) (cur : Loaded) (bs : List UInt8) (hl : bs.length < 2147483648) (h148 : 148 ≤ bs.length) (hfit : leAt bs 12 4 * leAt bs 16 4 * 4 < 2 ^ 32)
    (ho : ∀ i, i < 16 → place bs i < 2 ^ 31) (hcur : cur.1.data.length = cur.1.size) (hoth : other.Safe bs) : Loads junk other cur bs (fun _ ms => ∀ m ∈ ms, m.1.data.length = m.1.size) :=
  both (by omega) hl (fun _ hA => load_any fileLaws2 junk other.file cur h148 hfit ho hcur hoth.1 hA) (fun _ hA => load_any lumpLaws2 junk other.lump cur h148 hfit ho hcur hoth.2 hA)

/-- **C240 violated**: a texture without alpha whose first level has a place of 2^31 or more makes the loader read outside the memory it was given. -/
theorem C240_violated_place (junk : Nat → UInt8) (other : Other) (cur : Loaded) (bs : List UInt8) (hl : bs.length < 2147483648) (w h n : Nat) (T : Texture bs 0 w h n) (hlen : BlpSpec.length bs 0 = w * h) (hp : 2 ^ 31 ≤ place bs 0) :
    ilLoadL (iLoadBlpInternal lumpOps junk other.lump cur) bs bs.length = .error .oobRead := by
  have hpal := T.pal
  have A := lump_at bs hl (by omega)
  obtain ⟨f1, f2, f3⟩ := level_fit T 0
  change 0 < w at f1
  change 0 < h at f2
  change w * h * 4 < _ at f3
  have hwh := Nat.mul_pos f1 f2
  obtain ⟨m1, m2, m3, m4, -⟩ := mk_fields junk w h 1 IL_COLOUR_INDEX f1 f2 (by decide) (by omega)
  obtain ⟨hd, s1, A1, h5, h6, h7, hoo, hn, e⟩ := load_eq lumpLaws2 junk other.lump cur T (.inl rfl) A
  obtain ⟨l', e1, e2⟩ := read_bad A1 hp (leAt_lt bs 20 4) (n := w * h * 1) (by omega) (by omega) (mk junk 1 IL_COLOUR_INDEX w h).data
  have e3 : level0 lumpOps (off hd 0) (len hd 0) (mk junk 1 IL_COLOUR_INDEX w h) s1 = .error .oobRead := by
    unfold level0
    rw [hoo 0 (by decide), hn 0 (by decide), m3, if_neg (by rw [hlen, Nat.mul_one]; exact fun h => h rfl), e1, bind_ok]
    simp only []
    rw [e2]
    rfl
  unfold ilLoadL
  rw [e, if_pos rfl]
  unfold levels
  rw [h6, h7, e3]
  rfl

/-! ### Concrete textures -/

/-- The first 148 bytes: the bits of alpha, whether there are mipmaps, the size, and the places and lengths of three levels. -/
def start148 (bits mips w h p0 p1 p2 l0 l1 l2 : UInt8) : List UInt8 :=
  [66, 76, 80, 50, 1, 0, 0, 0, 1, bits, 0, mips, w, 0, 0, 0, h, 0, 0, 0, p0, 4, 0, 0, p1, 4, 0, 0, p2, 4, 0, 0] ++ List.replicate 52 0 ++ [l0, 0, 0, 0, l1, 0, 0, 0, l2, 0, 0, 0] ++ List.replicate 52 0

/-- Four columns and two rows, then two and one, then a pixel. -/
def plain : List UInt8 := start148 0 1 4 2 148 156 158 8 2 1 ++ (List.replicate 1024 7 ++ [1, 2, 3, 4, 5, 6, 7, 8, 9, 10, 11])

theorem plain_length : plain.length = 1183 := by simp only [plain, start148, List.length_append, List.length_replicate, List.length_cons, List.length_nil]

theorem plain_texture : Texture plain 0 4 2 3 where
  sig := by decide
  kind := by decide
  raw := by decide
  alpha := by decide
  alphaType := by decide
  width := by decide
  height := by decide
  w0 := by decide
  h0 := by decide
  fit := by decide
  n1 := by decide
  n16 := by decide
  more := fun i hi => match i, hi with
    | 0, _ => by decide
    | 1, _ => by decide
    | k + 2, h => absurd h (by omega)
  last := by decide
  pal := by rw [plain_length]; decide

example (junk : Nat → UInt8) (other : Other) (cur : Loaded) : Loads junk other cur plain (fun ok ms => ok = true ∧ ms.length = 3 ∧ ∀ i m, ms[i]? = some m →
      Shows m.1 (side 4 i) (side 2 i) 1 IL_COLOUR_INDEX (fun x y _ => plain[place plain i + (y * side 4 i + x)]?) ∧ GamesSpec.HasPal m.2 (at_ plain 148 1024) IL_PAL_BGRA32) :=
  C238_palette junk other cur plain (by rw [plain_length]; decide) 4 2 3 plain_texture (fun i hi => by
    rw [plain_length]
    match i, hi with
    | 0, _ => decide
    | 1, _ => decide
    | 2, _ => decide)

/-- The pixel of the third level is the last byte. -/
example : side 4 2 = 1 ∧ side 2 2 = 1 ∧ place plain 2 = 1182 := by decide

/-- The same with one bit of alpha. -/
def masked : List UInt8 := start148 1 1 4 2 148 157 160 9 3 2 ++ (List.replicate 1024 7 ++ [1, 2, 3, 4, 5, 6, 7, 8, 0xA5, 9, 10, 1, 11, 1])

theorem masked_length : masked.length = 1186 := by simp only [masked, start148, List.length_append, List.length_replicate, List.length_cons, List.length_nil]

example (junk : Nat → UInt8) (other : Other) (cur : Loaded) : Loads junk other cur masked (fun ok ms => ok = true ∧ ms.length = 3 ∧ ∀ i m, ms[i]? = some m →
      Shows m.1 (side 4 i) (side 2 i) 4 IL_BGRA (fun x y c => pixel masked (side 4 i) (side 2 i) (place masked i) x y c) ∧ m.2 = none) :=
  C239_alpha_partial junk other cur masked (by rw [masked_length]; decide) 4 2 3
    ⟨by decide, by decide, by decide, by decide, by decide, by decide, by decide, by decide, by decide, by decide, by decide, by decide, fun i hi => match i, hi with
      | 0, _ => by decide
      | 1, _ => by decide
      | k + 2, h => absurd h (by omega), by decide, by rw [masked_length]; decide⟩ (fun i hi => by
    rw [masked_length]
    match i, hi with
    | 0, _ => decide
    | 1, _ => decide
    | 2, _ => decide) (fun i hi => match i, hi with
    | 0, _ => by decide
    | 1, _ => by decide
    | 2, _ => by decide)

/-- Three columns and three rows, with nine bits of alpha. -/
def nine : List UInt8 := start148 1 0 3 3 148 0 0 11 0 0 ++ (List.replicate 1024 7 ++ [1, 2, 3, 4, 5, 6, 7, 8, 9, 255, 1])

theorem nine_length : nine.length = 1183 := by simp only [nine, start148, List.length_append, List.length_replicate, List.length_cons, List.length_nil]

example (junk : Nat → UInt8) (other : Other) (cur : Loaded) : Loads junk other cur nine (fun ok _ => ok = false) :=
  C239_violated_refused junk other cur nine (by rw [nine_length]; decide) 3 3 1
    ⟨by decide, by decide, by decide, by decide, by decide, by decide, by decide, by decide, by decide, by decide, by decide, by decide, fun i hi => absurd hi (by omega), by decide, by rw [nine_length]; decide⟩ (fun i hi => by
    rw [nine_length]
    match i, hi with
    | 0, _ => decide) (by decide) (by decide)

/-- The other formats are refused. -/
def refuse (cur : Loaded) : Other := ⟨fun _ s => pure (false, [cur], s), fun _ s => pure (false, [cur], s)⟩

/-- A texture whose second level is cut off. -/
example (junk : Nat → UInt8) (cur : Loaded) (hcur : cur.1.data.length = cur.1.size) : Loads junk (refuse cur) cur (plain.take 1181) (fun _ ms => ∀ m ∈ ms, m.1.data.length = m.1.size) :=
  C240_safe_partial junk (refuse cur) cur _ (by rw [List.length_take, plain_length]; decide) (by rw [List.length_take, plain_length]; decide) (by decide) (by decide) hcur
    ⟨fun _ _ h => Holds.pure ⟨fun m hm => by rw [List.mem_singleton.1 hm]; exact hcur, h⟩, fun _ _ h => Holds.pure ⟨fun m hm => by rw [List.mem_singleton.1 hm]; exact hcur, h⟩⟩

/-- One level of two pixels, at 2^31 + 5. -/
def far : List UInt8 := [66, 76, 80, 50, 1, 0, 0, 0, 1, 0, 0, 0, 2, 0, 0, 0, 1, 0, 0, 0, 5, 0, 0, 128] ++ List.replicate 60 0 ++ [2, 0, 0, 0] ++ List.replicate 60 0 ++ List.replicate 1030 7

theorem far_length : far.length = 1178 := by simp only [far, List.length_append, List.length_replicate, List.length_cons, List.length_nil]

example (junk : Nat → UInt8) (other : Other) (cur : Loaded) : ilLoadL (iLoadBlpInternal lumpOps junk other.lump cur) far far.length = .error .oobRead :=
  C240_violated_place junk other cur far (by rw [far_length]; decide) 2 1 1
    ⟨by decide, by decide, by decide, by decide, by decide, by decide, by decide, by decide, by decide, by decide, by decide, by decide, fun i hi => absurd hi (by omega), by decide, by rw [far_length]; decide⟩ (by decide) (by decide)

end DevIL.Blp
