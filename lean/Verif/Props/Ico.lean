import Verif.Lemmas.IcoB
/-! Windows icons: C232 (every icon of the file), C233 (safety). -/
set_option autoImplicit false
namespace DevIL.Ico
open DevIL.Games DevIL.Detect DevIL.Image DevIL.DetectSpec DevIL.IcoSpec
open DevIL.GamesSpec (Shows)
open DevIL.Psd (EofLaw fileEof lumpEof)

/-- Loading from an open file and from memory. -/
def Loads (junk : Nat → UInt8) (fuel : Nat) (cur : Img) (bs : List UInt8) (P : Bool → List Img → Prop) : Prop :=
  Both (iLoadIconInternal fileOps junk fuel cur) (iLoadIconInternal lumpOps junk fuel cur) bs P

/-- Loading from an open file and from memory runs into this fault. -/
def Fails (junk : Nat → UInt8) (fuel : Nat) (cur : Img) (bs : List UInt8) (e : Fault) : Prop :=
  ilLoadF (iLoadIconInternal fileOps junk fuel cur) (opened bs 0) = .error e ∧ ilLoadL (iLoadIconInternal lumpOps junk fuel cur) bs bs.length = .error e

section
variable {σ : Type} {o : Ops σ} {At : σ → List UInt8 → Nat → Prop}

theorem load_head (L : Laws2 o At) (E : EofLaw o At) (junk : Nat → UInt8) (fuel : Nat) (cur : Img) {bs : List UInt8} {n : Nat} {s : σ} (hA : At s bs 0) (hl : 6 < bs.length) (hn : leAt bs 4 2 = n) (hf : n < 32768) :
    ∃ s', At s' bs 6 ∧ iLoadIconInternal o junk fuel cur s = (do
      let (ps, s) ← offsets o junk n s'
      match ps with
      | none => pure (false, [cur], s)
      | some ps => do
        let (is, s) ← readAll o junk ps s
        match is with
        | none => pure (false, [cur], s)
        | some is => do
          let ms ← convertAll junk fuel is
          pure (true, if ms = [] then [cur] else ms, s)) := by
  obtain ⟨⟨h, s1⟩, e, -, p1, v1⟩ := head_spec L.toLaws junk bs [u16, u16, u16] s 0 hA (by decide)
  have p1 : At s1 bs 6 := p1 (by show 0 + 6 ≤ _; omega)
  have m2 : fle h 2 = n := by unfold fle; rw [v1 2 u16 rfl (by show 0 + 4 + 2 ≤ _; omega)]; exact hn
  obtain ⟨e1, e2⟩ := E p1 (by omega) (by omega)
  rw [decide_eq_false (by omega)] at e1
  refine ⟨(o.eof s1).2, e2, ?_⟩
  unfold iLoadIconInternal
  rw [e, bind_ok]
  simp only []
  have h16 : toInt16 n = (n : Int) := by unfold toInt16; rw [if_pos hf]
  rw [e1, if_neg (by decide), m2, h16, if_neg (by omega), Int.toNat_natCast]
  rfl

theorem offsets_spec (L : Laws2 o At) (E : EofLaw o At) (junk : Nat → UInt8) {bs : List UInt8} : ∀ (n k : Nat) (s : σ), At s bs (6 + 16 * k) → 6 + 16 * (k + n) < bs.length →
    ∃ s', offsets o junk n s = .ok (some ((List.range' k n).map (place bs)), s') ∧ At s' bs (6 + 16 * (k + n)) := by
  intro n
  induction n with
  | zero => intro k s hA _; exact ⟨s, rfl, hA⟩
  | succ n ih =>
    intro k s hA hr
    obtain ⟨⟨h, s1⟩, e, -, p1, v1⟩ := head_spec L.toLaws junk bs [.getc, .getc, .getc, .getc, u16, u16, u32f, u32f] s (6 + 16 * k) hA (by decide)
    have p1 : At s1 bs (6 + 16 * k + 16) := p1 (by show 6 + 16 * k + 16 ≤ _; omega)
    have m7 : fle h 7 = place bs k := by unfold fle; rw [v1 7 u32f rfl (by show 6 + 16 * k + 12 + 4 ≤ _; omega)]; rfl
    obtain ⟨e1, e2⟩ := E p1 (by omega) (by omega)
    rw [decide_eq_false (by omega)] at e1
    obtain ⟨s', e', A'⟩ := ih (k + 1) (o.eof s1).2 (by rw [show 6 + 16 * (k + 1) = 6 + 16 * k + 16 by omega]; exact e2) (by omega)
    refine ⟨s', ?_, by rw [show k + (n + 1) = k + 1 + n by omega]; exact A'⟩
    unfold offsets
    rw [e, bind_ok]
    simp only []
    rw [e1, if_neg (by decide), e', bind_ok, m7]
    rfl

theorem readAll_spec (L : Laws2 o At) (E : EofLaw o At) (junk : Nat → UInt8) {bs : List UInt8} {w h b : Nat → Nat} : ∀ (is : List Nat) (s : σ) (q : Nat), At s bs q →
    (∀ i ∈ is, Head bs (place bs i) (w i) (h i) (b i)) → Holds (readAll o junk (is.map (place bs)) s) (fun r => (∃ q, At r.2 bs q) ∧
      ((∀ i ∈ is, ends (place bs i) (w i) (h i) (b i) ≤ bs.length) → r.1 = some (is.map (fun i => iconAt bs (place bs i) (w i) (h i) (b i)))) ∧
      ((∃ i ∈ is, bs.length < ends (place bs i) (w i) (h i) (b i)) → r.1 = none)) := by
  intro is
  induction is with
  | nil => intro s q hA _; exact ⟨_, rfl, ⟨_, hA⟩, fun _ => rfl, fun ⟨i, hi, _⟩ => absurd hi (by simp)⟩
  | cons i is ih =>
    intro s q hA hH
    rw [List.map_cons]
    unfold readAll
    refine (icon_spec L E junk hA (hH i (by simp))).bind (fun r hr => ?_)
    obtain ⟨ic, s1⟩ := r
    obtain ⟨⟨q1, A1⟩, g1, g2⟩ := hr
    simp only [] at A1 g1 g2 ⊢
    by_cases hc : ends (place bs i) (w i) (h i) (b i) ≤ bs.length
    · obtain rfl := g1 hc
      simp only []
      refine (ih s1 q1 A1 (fun j hj => hH j (by simp [hj]))).bind (fun r hr => ?_)
      obtain ⟨l, s2⟩ := r
      obtain ⟨A2, k1, k2⟩ := hr
      simp only [] at A2 k1 k2 ⊢
      by_cases hall : ∀ j ∈ is, ends (place bs j) (w j) (h j) (b j) ≤ bs.length
      · obtain rfl := k1 hall
        refine Holds.pure ⟨A2, fun _ => rfl, fun ⟨j, hj, hlt⟩ => ?_⟩
        exfalso
        rcases List.mem_cons.1 hj with rfl | hj
        · omega
        · have := hall j hj; omega
      · have hex : ∃ j ∈ is, bs.length < ends (place bs j) (w j) (h j) (b j) := by
          by_contra hno
          exact hall (fun j hj => Nat.le_of_not_lt (fun hlt => hno ⟨j, hj, hlt⟩))
        obtain rfl := k2 hex
        exact Holds.pure ⟨A2, fun ha => absurd (fun j hj => ha j (List.mem_cons_of_mem _ hj)) hall, fun _ => rfl⟩
    · obtain rfl := g2 (by omega)
      exact Holds.pure ⟨⟨q1, A1⟩, fun ha => absurd (ha i (by simp)) hc, fun _ => rfl⟩

theorem convertAll_spec (junk : Nat → UInt8) {bs : List UInt8} {w h b : Nat → Nat} {fuel : Nat} : ∀ (is : List Nat), (∀ i ∈ is, Head bs (place bs i) (w i) (h i) (b i)) →
    (∀ i ∈ is, ends (place bs i) (w i) (h i) (b i) ≤ bs.length) → (∀ i ∈ is, w i * h i < fuel) →
    ∃ ms, convertAll junk fuel (is.map (fun i => iconAt bs (place bs i) (w i) (h i) (b i))) = .ok ms ∧ ms.length = is.length ∧
      ∀ (k i : Nat), is[k]? = some i → ∃ m, ms[k]? = some m ∧ ShowsUp m (w i) (h i) 4 IL_BGRA (pixel bs (place bs i) (w i) (h i) (b i)) := by
  intro is
  induction is with
  | nil => intro _ _ _; exact ⟨[], rfl, rfl, fun k i hk => absurd hk (by simp)⟩
  | cons i is ih =>
    intro hH hE hF
    obtain ⟨ms, e, l, g⟩ := ih (fun j hj => hH j (List.mem_cons_of_mem _ hj)) (fun j hj => hE j (List.mem_cons_of_mem _ hj)) (fun j hj => hF j (List.mem_cons_of_mem _ hj))
    have H := hH i (by simp)
    have he := hE i (by simp)
    have hends : ends (place bs i) (w i) (h i) (b i) = place bs i + 40 + 4 * colours (b i) + rowBytes (w i) (b i) * h i + rowBytes (w i) 1 * h i := rfl
    have hcol : b i ≤ 8 → colours (b i) = 2 ^ b i := fun h8 => by unfold colours; rw [if_pos h8]
    obtain ⟨m, em, hm⟩ := convert_spec junk (i := iconAt bs (place bs i) (w i) (h i) (b i)) (b := b i) (w := w i) (h := h i) (fuel := fuel) rfl rfl rfl H.kind H.w0 H.h0 H.small (hF i (by simp))
      (by show (at_ bs (pixels _ _) _).length = _; rw [at_length]; unfold pixels; omega)
      (by show (at_ bs (maskAt _ _ _ _) _).length = _; rw [at_length]; unfold maskAt pixels; omega)
      (fun h8 => by show (at_ bs _ _).length = _; rw [at_length, hcol h8] ; rw [hcol h8] at hends; omega)
    refine ⟨m :: ms, ?_, by rw [List.length_cons, List.length_cons, l], fun k j hk => ?_⟩
    · rw [List.map_cons]
      unfold convertAll
      rw [em, bind_ok, e, bind_ok]
      rfl
    · match k with
      | 0 =>
        obtain rfl : i = j := by simpa using hk
        refine ⟨m, rfl, hm.1, ?_⟩
        obtain ⟨h1, h2, h3, h4, h5, h6, h7, h8, h9, h10⟩ := hm.2
        refine ⟨h1, h2, h3, h4, h5, h6, h7, h8, h9, fun x y c hx hy hc => ?_⟩
        rw [← icon_px (i := iconAt bs (place bs i) (w i) (h i) (b i)) H.kind rfl rfl (fun h8 => by show at_ bs _ _ = _; rw [hcol h8]) hx hy hc]
        exact h10 x y c hx hy hc
      | k + 1 => exact g k j hk

end

/-- **C232.** A file with a directory of icons, each a bitmap of 1, 4, 8, 24 or 32 bits with a full palette, loads as that many images in the order of the directory, and every pixel of every image has the colour and the
alpha the file gives it: the mask decides what is transparent, except with 32 bits. -/
theorem C232_icons (junk : Nat → UInt8) (fuel : Nat) (cur : Img) (bs : List UInt8) (n : Nat) (w h b : Nat → Nat) (hl : bs.length < 2147483648) (D : Dir bs n)
    (hH : ∀ i, i < n → Head bs (place bs i) (w i) (h i) (b i)) (hE : ∀ i, i < n → ends (place bs i) (w i) (h i) (b i) ≤ bs.length) (hF : ∀ i, i < n → w i * h i < fuel) :
    Loads junk fuel cur bs (fun ok ms => ok = true ∧ ms.length = n ∧
      ∀ i, i < n → ∃ m, ms[i]? = some m ∧ ShowsUp m (w i) (h i) 4 IL_BGRA (pixel bs (place bs i) (w i) (h i) (b i))) := by
  have hmem : ∀ {P : Nat → Prop}, (∀ i, i < n → P i) → ∀ i ∈ List.range' 0 n, P i := fun hP i hi => hP i (by have := List.mem_range'_1.1 hi; omega)
  have core : ∀ {σ : Type} {o : Ops σ} {At : σ → List UInt8 → Nat → Prop} (L : Laws2 o At) (E : EofLaw o At) (s : σ), At s bs 0 →
      Holds (iLoadIconInternal o junk fuel cur s) (fun r => (r.1 = true ∧ r.2.1.length = n ∧
        ∀ i, i < n → ∃ m, r.2.1[i]? = some m ∧ ShowsUp m (w i) (h i) 4 IL_BGRA (pixel bs (place bs i) (w i) (h i) (b i))) ∧ ∃ q, At r.2.2 bs q) := by
    intro σ o At L E s hA
    have hroom := D.room
    obtain ⟨s1, A1, e1⟩ := load_head L E junk fuel cur hA (by omega) D.count D.few
    obtain ⟨s2, e2, A2⟩ := offsets_spec L E junk n 0 s1 A1 (by omega)
    rw [e1, e2, bind_ok]
    simp only []
    refine (readAll_spec L E junk (List.range' 0 n) s2 _ A2 (hmem hH)).bind (fun r hr => ?_)
    obtain ⟨is, s3⟩ := r
    obtain ⟨A3, g1, -⟩ := hr
    simp only [] at A3 g1 ⊢
    obtain rfl := g1 (hmem hE)
    obtain ⟨ms, em, lm, gm⟩ := convertAll_spec junk (List.range' 0 n) (hmem hH) (hmem hE) (hmem hF)
    rw [List.length_range'] at lm
    have hne : ms ≠ [] := fun h => by
      have := D.some
      rw [h] at lm
      simp at lm
      omega
    simp only []
    rw [em, bind_ok, if_neg hne]
    refine Holds.pure ⟨⟨rfl, lm, fun i hi => gm i i ?_⟩, A3⟩
    rw [List.getElem?_range' hi]
    simp
  exact both (by have := D.room; omega) hl (core fileLaws2 fileEof) (core lumpLaws2 lumpEof)

/-- **C233, part.** If the file ends before one of those icons does, loading fails, and the bound image is as it was. -/
theorem C233_safe_partial (junk : Nat → UInt8) (fuel : Nat) (cur : Img) (bs : List UInt8) (n : Nat) (w h b : Nat → Nat) (hl : bs.length < 2147483648) (D : Dir bs n)
    (hH : ∀ i, i < n → Head bs (place bs i) (w i) (h i) (b i)) (hE : ∃ i, i < n ∧ bs.length < ends (place bs i) (w i) (h i) (b i)) :
    Loads junk fuel cur bs (fun ok ms => ok = false ∧ ms = [cur]) := by
  have core : ∀ {σ : Type} {o : Ops σ} {At : σ → List UInt8 → Nat → Prop} (L : Laws2 o At) (E : EofLaw o At) (s : σ), At s bs 0 →
      Holds (iLoadIconInternal o junk fuel cur s) (fun r => (r.1 = false ∧ r.2.1 = [cur]) ∧ ∃ q, At r.2.2 bs q) := by
    intro σ o At L E s hA
    have hroom := D.room
    obtain ⟨s1, A1, e1⟩ := load_head L E junk fuel cur hA (by omega) D.count D.few
    obtain ⟨s2, e2, A2⟩ := offsets_spec L E junk n 0 s1 A1 (by omega)
    rw [e1, e2, bind_ok]
    simp only []
    refine (readAll_spec L E junk (List.range' 0 n) s2 _ A2 (fun i hi => hH i (by have := List.mem_range'_1.1 hi; omega))).bind (fun r hr => ?_)
    obtain ⟨is, s3⟩ := r
    obtain ⟨A3, -, g2⟩ := hr
    simp only [] at A3 g2 ⊢
    obtain ⟨i, hi, hlt⟩ := hE
    obtain rfl := g2 ⟨i, by rw [List.mem_range'_1]; omega, hlt⟩
    exact Holds.pure ⟨⟨rfl, rfl⟩, A3⟩
  exact both (by have := D.room; omega) hl (core fileLaws2 fileEof) (core lumpLaws2 lumpEof)

/-- **C233 violated**: a file whose directory is empty is loaded with success, though no image comes of it. -/
theorem C233_violated_empty (junk : Nat → UInt8) (fuel : Nat) (cur : Img) (bs : List UInt8) (hl : bs.length < 2147483648) (h6 : 6 < bs.length) (hn : leAt bs 4 2 = 0) :
    Loads junk fuel cur bs (fun ok ms => ok = true ∧ ms = [cur]) := by
  have core : ∀ {σ : Type} {o : Ops σ} {At : σ → List UInt8 → Nat → Prop} (L : Laws2 o At) (E : EofLaw o At) (s : σ), At s bs 0 →
      Holds (iLoadIconInternal o junk fuel cur s) (fun r => (r.1 = true ∧ r.2.1 = [cur]) ∧ ∃ q, At r.2.2 bs q) := by
    intro σ o At L E s hA
    obtain ⟨s1, A1, e1⟩ := load_head L E junk fuel cur hA h6 hn (by decide)
    rw [e1]
    exact ⟨_, rfl, ⟨rfl, rfl⟩, _, A1⟩
  exact both (by omega) hl (core fileLaws2 fileEof) (core lumpLaws2 lumpEof)

/-- What becomes of a file with one icon, whatever its header says. -/
theorem one_load {σ : Type} {o : Ops σ} {At : σ → List UInt8 → Nat → Prop} (L : Laws2 o At) (E : EofLaw o At) (junk : Nat → UInt8) (fuel : Nat) (cur : Img) {bs : List UInt8} {w h b v used : Nat} (D : Dir bs 1)
    (hp : place bs 0 = 22) (hsz : leAt bs 22 4 = 40) (hw : leAt bs 26 4 = w) (hh : leAt bs 30 4 = 2 * h) (hb : leAt bs 36 2 = b) (hu : leAt bs 54 4 = used) (hwb : w < 256) (hhb : h < 256) (hbb : b ≤ 32) (hub : used < 256)
    (hpal : ∀ s, At s bs 62 → Holds (palette o junk (b : Int) (used : Int) s) (fun r => (∃ q, At r.2 bs q) ∧ (62 + 4 * v ≤ bs.length → r.1 = some (at_ bs 62 (4 * v)) ∧ At r.2 bs (62 + 4 * v)) ∧
      (bs.length < 62 + 4 * v → r.1 = none)))
    (h62 : 62 < bs.length) (hend : 62 + 4 * v + rowBytes w b * h + rowBytes w 1 * h ≤ bs.length) (hs : rowBytes w b * h < 2147483648) {s : σ} (hA : At s bs 0) :
    ∃ s', (∃ q, At s' bs q) ∧ iLoadIconInternal o junk fuel cur s = (do
      let ms ← convertAll junk fuel [⟨(w : Int), ((2 * h : Nat) : Int), (b : Int), at_ bs 62 (4 * v), at_ bs (62 + 4 * v) (rowBytes w b * h), at_ bs (62 + 4 * v + rowBytes w b * h) (rowBytes w 1 * h)⟩]
      pure (true, if ms = [] then [cur] else ms, s')) := by
  have hroom := D.room
  have hwb2 : w * b ≤ 256 * 32 := Nat.mul_le_mul (by omega) hbb
  have hlen := L.len hA
  obtain ⟨s1, A1, e1⟩ := load_head L E junk fuel cur hA (by omega) D.count D.few
  obtain ⟨s2, e2, A2⟩ := offsets_spec L E junk 1 0 s1 A1 (by omega)
  obtain ⟨⟨ic, s3⟩, e3, A3, g3, -⟩ := icon_head L E junk A2 hsz (by omega) (P := fun r => (∃ q, At r.2 bs q) ∧
      (62 + 4 * v + rowBytes w b * h + rowBytes w 1 * h ≤ bs.length → r.1 = some ⟨(w : Int), ((2 * h : Nat) : Int), (b : Int), at_ bs 62 (4 * v), at_ bs (62 + 4 * v) (rowBytes w b * h),
        at_ bs (62 + 4 * v + rowBytes w b * h) (rowBytes w 1 * h)⟩) ∧ (bs.length < 62 + 4 * v + rowBytes w b * h + rowBytes w 1 * h → r.1 = none)) (fun s' A' => by
    show Holds (readBody o junk (Lump.toInt (leAt bs 26 4)) (Lump.toInt (leAt bs 30 4)) (toInt16 (leAt bs 36 2)) (Lump.toInt (leAt bs 54 4)) s') _
    rw [hw, hh, hb, hu, toInt_nat (n := w) (by omega), toInt_nat (n := 2 * h) (by omega), toInt_nat (n := used) (by omega), show toInt16 b = (b : Int) by unfold toInt16; rw [if_pos (by omega)]]
    exact body_gen (p := 22) L junk (hpal s' A') (by omega) hs (by omega) (by omega) (by omega))
  simp only [] at A3 g3
  obtain rfl := g3 hend
  refine ⟨s3, A3, ?_⟩
  have ep : (List.range' 0 1).map (place bs) = [22] := by rw [← hp]; rfl
  rw [e1, e2, bind_ok, ep]
  simp only []
  unfold readAll
  rw [e3, bind_ok]
  rfl

theorem fails {junk : Nat → UInt8} {fuel : Nat} {cur : Img} {bs : List UInt8} {e : Fault} (h0 : 0 < bs.length) (hl : bs.length < 2147483648)
    (hF : ∀ s, FileAt s bs 0 → iLoadIconInternal fileOps junk fuel cur s = .error e) (hL : ∀ s, LumpAt s bs 0 → iLoadIconInternal lumpOps junk fuel cur s = .error e) : Fails junk fuel cur bs e := by
  refine ⟨?_, ?_⟩
  · unfold ilLoadF
    simp only []
    rw [hF _ (input_at (opened bs 0) rfl hl)]
    rfl
  · unfold ilLoadL
    simp only []
    rw [hL _ (lump_at bs hl h0)]
    rfl

/-! ### Concrete files -/

/-- A directory of one icon behind it. -/
def dir1 : List UInt8 := [0, 0, 1, 0, 1, 0] ++ [2, 1, 0, 0, 1, 0, 4, 0, 0, 0, 0, 0, 22, 0, 0, 0]

/-- A bitmap header. -/
def hdr (w h2 bits used : UInt8) : List UInt8 := [40, 0, 0, 0, w, 0, 0, 0, h2, 0, 0, 0, 1, 0, bits, 0, 0, 0, 0, 0, 0, 0, 0, 0, 0, 0, 0, 0, 0, 0, 0, 0, used, 0, 0, 0, 0, 0, 0, 0]

/-- An icon of two pixels of 4 bits whose palette has one colour; its first pixel has colour 15. -/
def shortPal : List UInt8 := dir1 ++ hdr 2 2 4 1 ++ [1, 2, 3, 0] ++ [0xF0, 0, 0, 0] ++ [0, 0, 0, 0]

set_option maxRecDepth 8000 in
theorem shortPal_convert (junk : Nat → UInt8) (fuel : Nat) : convertAll junk (fuel + 1) [⟨2, 2, 4, [1, 2, 3, 0], [0xF0, 0, 0, 0], [0, 0, 0, 0]⟩] = .error .oobRead := by
  have hs : (tex junk 2 1 4 IL_BGRA).size = 8 := rfl
  have hstep : ∀ d : List UInt8, stepPal ⟨2, 2, 4, [1, 2, 3, 0], [0xF0, 0, 0, 0], [0, 0, 0, 0]⟩ 4 2 (padding 2 4) (padding 2 1) ⟨d, 0, 0, 128, 0, 0⟩ = .error .oobRead := fun _ => rfl
  unfold convertAll convert
  rw [if_neg (by decide)]
  show ((run (tex junk 2 1 4 IL_BGRA).size (stepPal ⟨2, 2, 4, [1, 2, 3, 0], [0xF0, 0, 0, 0], [0, 0, 0, 0]⟩ 4 2 (padding 2 4) (padding 2 1)) (fuel + 1) ⟨(tex junk 2 1 4 IL_BGRA).data, 0, 0, 128, 0, 0⟩ >>= _) >>= _) = _
  rw [hs, run, if_neg (by show ¬ 8 ≤ 0; omega), hstep]
  rfl

set_option maxRecDepth 8000 in
/-- **C233 violated**: an icon with fewer colours than its pixels use is read beyond its palette. -/
theorem C233_violated_palette (junk : Nat → UInt8) (fuel : Nat) (cur : Img) : Fails junk (fuel + 1) cur shortPal .oobRead := by
  have core : ∀ {σ : Type} {o : Ops σ} {At : σ → List UInt8 → Nat → Prop} (L : Laws2 o At) (E : EofLaw o At) (s : σ), At s shortPal 0 → iLoadIconInternal o junk (fuel + 1) cur s = .error .oobRead := by
    intro σ o At L E s hA
    obtain ⟨s', -, e⟩ := one_load (w := 2) (h := 1) (b := 4) (v := 1) (used := 1) L E junk (fuel + 1) cur ⟨by decide, by decide, by decide, by decide⟩ (by decide) (by decide) (by decide) (by decide) (by decide) (by decide)
      (by decide) (by decide) (by decide) (by decide) (fun s1 A1 => low_spec L junk A1 (by decide) 1 1 (by decide) (by decide) (by decide) (by decide)) (by decide) (by decide) (by decide) hA
    have c := shortPal_convert junk fuel
    have d1 : at_ shortPal 62 (4 * 1) = [1, 2, 3, 0] := by decide
    have d2 : at_ shortPal (62 + 4 * 1) (rowBytes 2 4 * 1) = [0xF0, 0, 0, 0] := by decide
    have d3 : at_ shortPal (62 + 4 * 1 + rowBytes 2 4 * 1) (rowBytes 2 1 * 1) = [0, 0, 0, 0] := by decide
    rw [d1, d2, d3] at e
    have c : convertAll junk (fuel + 1) [⟨((2 : Nat) : Int), ((2 * 1 : Nat) : Int), ((4 : Nat) : Int), [1, 2, 3, 0], [0xF0, 0, 0, 0], [0, 0, 0, 0]⟩] = .error .oobRead := c
    rw [e, c]
    rfl
  exact fails (by decide) (by decide) (core fileLaws2 fileEof) (core lumpLaws2 lumpEof)

/-- An icon of 1 bit that has no columns. -/
def noColumns : List UInt8 := dir1 ++ hdr 0 2 1 0 ++ [1, 2, 3, 0, 4, 5, 6, 0] ++ [0]

theorem run_hangs (i : Icon) : ∀ (f : Nat) (s : St), s.j = 0 → s.x = 0 → run 4 (stepPal i 1 0 (padding 0 1) (padding 0 1)) f s = .error .hang := by
  intro f
  induction f with
  | zero => intro s _ _; rfl
  | succ f ih =>
    intro s hj hx
    unfold run
    rw [if_neg (by omega)]
    have e : ∃ s', stepPal i 1 0 (padding 0 1) (padding 0 1) s = .ok s' ∧ s'.j = 0 ∧ s'.x = 0 := by
      unfold stepPal
      have hl : ∀ k, loopN k (fun t s => if ((1 : Nat) ≠ 1 ∧ t = 0) ∨ s.x < 0 then do
          let v ← rd i.data s.k
          putPal i ((v.toNat >>> (8 - 1 - t * 1)) &&& (2 ^ 1 - 1)) s
        else pure s) s = .ok s := by
        intro k
        induction k with
        | zero => rfl
        | succ k ihk => rw [loopN_succ, ihk, bind_ok, if_neg (by omega)]; rfl
      rw [hl, bind_ok]
      refine ⟨_, rfl, ?_, ?_⟩
      · unfold endPixel
        rw [if_pos (.inr hx), if_pos hx]
        exact hj
      · unfold endPixel
        rw [if_pos (.inr hx), if_pos hx]
    obtain ⟨s', e, h1, h2⟩ := e
    rw [e, bind_ok]
    exact ih s' h1 h2

set_option maxRecDepth 8000 in
/-- **C233 violated**: an icon without columns is never loaded: the loop over its pixels does not end. -/
theorem C233_violated_hang (junk : Nat → UInt8) (fuel : Nat) (cur : Img) : Fails junk fuel cur noColumns .hang := by
  have hc : convert junk fuel ⟨0, 2, 1, [1, 2, 3, 0, 4, 5, 6, 0], [], []⟩ = .error .hang := by
    have := run_hangs ⟨0, 2, 1, [1, 2, 3, 0, 4, 5, 6, 0], [], []⟩ fuel ⟨(tex junk 0 1 4 IL_BGRA).data, 0, 0, 128, 0, 0⟩ rfl rfl
    unfold convert
    rw [if_neg (by decide)]
    show (run 4 (stepPal _ 1 0 (padding 0 1) (padding 0 1)) fuel ⟨(tex junk 0 1 4 IL_BGRA).data, 0, 0, 128, 0, 0⟩ >>= _) = _
    rw [this]
    rfl
  have ha : convertAll junk fuel [⟨0, 2, 1, [1, 2, 3, 0, 4, 5, 6, 0], [], []⟩] = .error .hang := by
    unfold convertAll
    rw [hc]
    rfl
  have core : ∀ {σ : Type} {o : Ops σ} {At : σ → List UInt8 → Nat → Prop} (L : Laws2 o At) (E : EofLaw o At) (s : σ), At s noColumns 0 → iLoadIconInternal o junk fuel cur s = .error .hang := by
    intro σ o At L E s hA
    obtain ⟨s', -, e⟩ := one_load (w := 0) (h := 1) (b := 1) (v := 2) (used := 0) L E junk fuel cur ⟨by decide, by decide, by decide, by decide⟩ (by decide) (by decide) (by decide) (by decide) (by decide) (by decide)
      (by decide) (by decide) (by decide) (by decide) (fun s1 A1 => low_spec L junk A1 (by decide) 2 0 (by decide) (by decide) (by decide) (by decide)) (by decide) (by decide) (by decide) hA
    have d1 : at_ noColumns 62 (4 * 2) = [1, 2, 3, 0, 4, 5, 6, 0] := by decide
    have d2 : at_ noColumns (62 + 4 * 2) (rowBytes 0 1 * 1) = [] := by decide
    have d3 : at_ noColumns (62 + 4 * 2 + rowBytes 0 1 * 1) (rowBytes 0 1 * 1) = [] := by decide
    rw [d1, d3, d2] at e
    have c : convertAll junk fuel [⟨((0 : Nat) : Int), ((2 * 1 : Nat) : Int), ((1 : Nat) : Int), [1, 2, 3, 0, 4, 5, 6, 0], [], []⟩] = .error .hang := ha
    rw [e, c]
    rfl
  exact fails (by decide) (by decide) (core fileLaws2 fileEof) (core lumpLaws2 lumpEof)

/-- An icon of two pixels of 16 bits. -/
def bits16 : List UInt8 := dir1 ++ hdr 2 2 16 0 ++ [1, 2, 3, 4] ++ [0, 0, 0, 0]

set_option maxRecDepth 8000 in
/-- **C233 violated**: an icon of 16 bits is loaded with success, though no image comes of it. -/
theorem C233_violated_passed (junk : Nat → UInt8) (fuel : Nat) (cur : Img) : Loads junk fuel cur bits16 (fun ok ms => ok = true ∧ ms = [cur]) := by
  have core : ∀ {σ : Type} {o : Ops σ} {At : σ → List UInt8 → Nat → Prop} (L : Laws2 o At) (E : EofLaw o At) (s : σ), At s bits16 0 →
      Holds (iLoadIconInternal o junk fuel cur s) (fun r => (r.1 = true ∧ r.2.1 = [cur]) ∧ ∃ q, At r.2.2 bits16 q) := by
    intro σ o At L E s hA
    obtain ⟨s', A', e⟩ := one_load (w := 2) (h := 1) (b := 16) (v := 0) (used := 0) L E junk fuel cur ⟨by decide, by decide, by decide, by decide⟩ (by decide) (by decide) (by decide) (by decide) (by decide) (by decide)
      (by decide) (by decide) (by decide) (by decide) (fun s1 A1 => ⟨(some [], s1), rfl, ⟨_, A1⟩, fun _ => ⟨rfl, A1⟩, fun h => absurd h (by decide)⟩) (by decide) (by decide) (by decide) hA
    rw [e]
    unfold convertAll convert
    rw [if_pos (by decide)]
    exact ⟨_, rfl, ⟨rfl, rfl⟩, A'⟩
  exact both (by decide) (by decide) (core fileLaws2 fileEof) (core lumpLaws2 lumpEof)

/-- Two icons: one of 3 by 1 pixels of 1 bit, the middle one masked, and one of one pixel of 24 bits. -/
def two : List UInt8 := [0, 0, 1, 0, 2, 0] ++ [3, 1, 0, 0, 1, 0, 1, 0, 0, 0, 0, 0, 38, 0, 0, 0] ++ [1, 1, 0, 0, 1, 0, 24, 0, 0, 0, 0, 0, 94, 0, 0, 0] ++
  hdr 3 2 1 0 ++ [1, 2, 3, 0, 4, 5, 6, 0] ++ [0xA0, 0, 0, 0] ++ [0x40, 0, 0, 0] ++ hdr 1 2 24 0 ++ [7, 8, 9, 0] ++ [0, 0, 0, 0]

set_option maxRecDepth 8000 in
example (junk : Nat → UInt8) (cur : Img) : Loads junk 9 cur two (fun ok ms => ok = true ∧ ms.length = 2 ∧ ∀ i, i < 2 →
    ∃ m, ms[i]? = some m ∧ ShowsUp m (if i = 0 then 3 else 1) 1 4 IL_BGRA (pixel two (place two i) (if i = 0 then 3 else 1) 1 (if i = 0 then 1 else 24))) :=
  C232_icons junk 9 cur two 2 (fun i => if i = 0 then 3 else 1) (fun _ => 1) (fun i => if i = 0 then 1 else 24) (by decide) ⟨by decide, by decide, by decide, by decide⟩
    (fun i hi => match i, hi with
      | 0, _ => ⟨by decide, by decide, by decide, by decide, by decide, by decide, by decide, by decide, by decide, by decide⟩
      | 1, _ => ⟨by decide, by decide, by decide, by decide, by decide, by decide, by decide, by decide, by decide, by decide⟩)
    (fun i hi => match i, hi with
      | 0, _ => by decide
      | 1, _ => by decide)
    (fun i hi => match i, hi with
      | 0, _ => by decide
      | 1, _ => by decide)

set_option maxRecDepth 8000 in
/-- The middle pixel has the first colour and is transparent; its neighbours have the second. -/
example : (List.range 4).map (pixel two 38 3 1 1 1 0) = [some 1, some 2, some 3, some 0] ∧ (List.range 4).map (pixel two 38 3 1 1 2 0) = [some 4, some 5, some 6, some 255] ∧
    (List.range 4).map (pixel two 94 1 1 24 0 0) = [some 7, some 8, some 9, some 255] := by decide

set_option maxRecDepth 8000 in
/-- Without its last byte it does not load. -/
example (junk : Nat → UInt8) (cur : Img) : Loads junk 9 cur two.dropLast (fun ok ms => ok = false ∧ ms = [cur]) :=
  C233_safe_partial junk 9 cur two.dropLast 2 (fun i => if i = 0 then 3 else 1) (fun _ => 1) (fun i => if i = 0 then 1 else 24) (by decide) ⟨by decide, by decide, by decide, by decide⟩
    (fun i hi => match i, hi with
      | 0, _ => ⟨by decide, by decide, by decide, by decide, by decide, by decide, by decide, by decide, by decide, by decide⟩
      | 1, _ => ⟨by decide, by decide, by decide, by decide, by decide, by decide, by decide, by decide, by decide, by decide⟩)
    ⟨1, by decide, by decide⟩

example (junk : Nat → UInt8) (cur : Img) : Loads junk 9 cur [0, 0, 1, 0, 0, 0, 0] (fun ok ms => ok = true ∧ ms = [cur]) := C233_violated_empty junk 9 cur _ (by decide) (by decide) (by decide)

end DevIL.Ico
