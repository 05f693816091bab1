import Verif.Lemmas.DetectK
/-! Lemmas for the chains of tests of `ilDetermineTypeF` and `ilDetermineTypeL`. -/
set_option autoImplicit false
namespace DevIL.Detect

open DevIL.Lump (SEEK_SET SEEK_CUR SEEK_END)
open DevIL.DetectSpec

theorem input_at (s : Cache.S) (hp : s.pos = 0) (hl : s.data.length < 2147483648) : FileAt (Cache.iSetInputFile s s.data s.pos) s.data 0 :=
  ⟨rfl, hp, hp, hl⟩

theorem ends_F {v : Cache.S → C (Bool × Cache.S)} {s : Cache.S} (hp : s.pos = 0) (hl : s.data.length < 2147483648) {P : Bool → Prop}
    (h : Holds (v (Cache.iSetInputFile s s.data s.pos)) (fun r => P r.1 ∧ ∃ q, FileAt r.2 s.data q)) :
    Holds (ilIsValidF v s) (fun r => P r.1 ∧ r.2.data = s.data ∧ r.2.pos = 0) := by
  have h1 := fileLaws.tell (input_at s hp hl)
  have h1 : Cache.iTellRFile (Cache.iSetInputFile s s.data s.pos) = 0 := h1
  unfold ilIsValidF
  simp only [h1]
  refine h.bind (fun r hr => Holds.pure ⟨hr.1, ?_⟩)
  obtain ⟨q, hd, hst, -, -⟩ := hr.2
  have e : (Cache.iSeekRFile r.2 (Lump.toInt 0) SEEK_SET).2 = { r.2 with pos := 0 } := by
    rw [show Lump.toInt 0 = 0 from rfl, seek_set _ _ hst, if_neg (by omega)]
    rfl
  show (Cache.iSeekRFile r.2 (Lump.toInt 0) SEEK_SET).2.data = _ ∧ (Cache.iSeekRFile r.2 (Lump.toInt 0) SEEK_SET).2.pos = 0
  rw [e]
  exact ⟨hd, rfl⟩

theorem fileEof {s : Cache.S} {all : List UInt8} (h : FileAt s all 0) : ∃ q, FileAt (fileOps.eof s).2 all q := by
  obtain ⟨rfl, hst, hp, hl⟩ := h
  show ∃ q, FileAt (Cache.iEofFile s).2 _ q
  unfold Cache.iEofFile Cache.iTellRFile
  rw [seek_end, hp]
  simp only []
  rw [seek_set _ _ (by exact hst)]
  exact ⟨_, rfl, hst, rfl, hl⟩

theorem tryF_ends (junk : Nat → UInt8) (dec : Dec) (ts : List Nat) : ∀ (s : Cache.S), s.pos = 0 → s.data.length < 2147483648 →
    Holds (tryF junk dec ts s) (fun r => (r.1 ∈ ts ∨ r.1 = IL_TYPE_UNKNOWN) ∧ r.2.data = s.data ∧ r.2.pos = 0) := by
  induction ts with
  | nil => intro s hp hl; exact Holds.pure ⟨Or.inr rfl, rfl, hp⟩
  | cons t ts ih =>
    intro s hp hl
    refine (ends_F (P := fun _ => True) hp hl ((validator_ends fileLaws fileEof junk dec t (input_at s hp hl)).mono (fun r hr => ⟨trivial, hr⟩))).bind
      (fun r hr => ?_)
    obtain ⟨-, hd, hp'⟩ := hr
    show Holds (if r.1 = true then _ else _) _
    split
    · exact Holds.pure ⟨Or.inl List.mem_cons_self, hd, hp'⟩
    · refine (ih r.2 hp' (by rw [hd]; exact hl)).mono (fun u hu => ⟨?_, by rw [hu.2.1, hd], hu.2.2⟩)
      rcases hu.1 with h | h
      · exact Or.inl (List.mem_cons_of_mem _ h)
      · exact Or.inr h

/-- What one test says of a file at its beginning. -/
theorem isValidF_spec (junk : Nat → UInt8) (dec : Dec) (f : Fmt) (s : Cache.S) (hp : s.pos = 0) (hl : s.data.length < 2147483648)
    (h54 : 54 ≤ s.data.length) (hn : f.sig s.data = true → f.need ≤ s.data.length) :
    Holds (ilIsValidF (validator fileOps junk dec f.code) s) (fun r => r.1 = f.is dec s.data ∧ r.2.data = s.data ∧ r.2.pos = 0) :=
  ends_F (P := fun b => b = f.is dec s.data) hp hl (validator_spec fileLaws junk dec f (input_at s hp hl) h54 hn)

theorem tryF_step (junk : Nat → UInt8) (dec : Dec) (f : Fmt) (ts : List Nat) (s : Cache.S) (hp : s.pos = 0) (hl : s.data.length < 2147483648)
    (h54 : 54 ≤ s.data.length) (hn : f.sig s.data = true → f.need ≤ s.data.length) : ∃ s', s'.data = s.data ∧ s'.pos = 0 ∧
      tryF junk dec (f.code :: ts) s = (if f.is dec s.data then pure (f.code, s') else tryF junk dec ts s') := by
  obtain ⟨r, e, hr, hd, hp'⟩ := isValidF_spec junk dec f s hp hl h54 hn
  refine ⟨r.2, hd, hp', ?_⟩
  show (ilIsValidF _ s >>= _) = _
  rw [e, bind_ok, ← hr]

/-- The test for KTX says no. -/
theorem tryF_ktx (junk : Nat → UInt8) (dec : Dec) (ts : List Nat) (s : Cache.S) (hp : s.pos = 0) (hl : s.data.length < 2147483648) :
    ∃ s', s'.data = s.data ∧ s'.pos = 0 ∧ tryF junk dec (IL_KTX :: ts) s = tryF junk dec ts s' := by
  obtain ⟨r, e, hr, hd, hp'⟩ := ends_F (v := validator fileOps junk dec IL_KTX) (P := fun b => b = false) hp hl
    (Holds.pure ⟨rfl, 0, input_at s hp hl⟩)
  refine ⟨r.2, hd, hp', ?_⟩
  show (ilIsValidF _ s >>= _) = _
  rw [e, bind_ok]
  show (if r.1 = true then _ else _) = _
  rw [hr]
  rfl

/-- The codes of the formats, with KTX after one of them. -/
theorem tryF_list (junk : Nat → UInt8) (dec : Dec) {bs : List UInt8} (hl : bs.length < 2147483648) (h54 : 54 ≤ bs.length) (tail : List Nat) (fs : List Fmt) :
    ∀ s : Cache.S, s.data = bs → s.pos = 0 → (∀ f ∈ fs, f.sig bs = true → f.need ≤ bs.length) →
    ∃ s', s'.data = bs ∧ s'.pos = 0 ∧ tryF junk dec (fs.map Fmt.code ++ tail) s =
      match fs.find? (fun f => f.is dec bs) with
      | some f => pure (f.code, s')
      | none => tryF junk dec tail s' := by
  induction fs with
  | nil => intro s hd hp _; exact ⟨s, hd, hp, rfl⟩
  | cons f fs ih =>
    rintro s rfl hp hn
    obtain ⟨s', hd, hp', e⟩ := tryF_step junk dec f (fs.map Fmt.code ++ tail) s hp hl h54 (hn f List.mem_cons_self)
    rw [List.map_cons, List.cons_append, e, List.find?_cons]
    cases hf : f.is dec s.data with
    | true => exact ⟨s', hd, hp', rfl⟩
    | false =>
      obtain ⟨s'', hd', hp'', e'⟩ := ih s' hd hp' (fun g hg => hn g (List.mem_cons_of_mem _ hg))
      exact ⟨s'', hd', hp'', by rw [if_neg (by decide)]; exact e'⟩

/-- The formats before KTX in the order of `ilDetermineTypeF`. -/
def before : List Fmt := [.jpg, .dds, .png, .bmp, .blp, .exr, .gif, .hdr, .icns, .ilbm, .iwi, .jp2]
/-- The formats after KTX. -/
def after : List Fmt := [.lif, .mdl, .mp3, .pcx, .pic, .pnm, .psd, .psp, .sgi, .scitex, .sun, .tif, .tpl, .vtf, .xpm, .tga]

theorem orderF_eq : orderF = before.map Fmt.code ++ (IL_KTX :: (after.map Fmt.code ++ [])) := rfl

theorem tryF_all (junk : Nat → UInt8) (dec : Dec) (s : Cache.S) (hp : s.pos = 0) (hl : s.data.length < 2147483648) (hc : Complete s.data) :
    Holds (ilDetermineTypeF junk dec s) (fun r => r.1 = typeOf dec order s.data ∧ r.2.data = s.data ∧ r.2.pos = 0) := by
  unfold ilDetermineTypeF typeOf
  rw [orderF_eq, show order = before ++ after from rfl, List.find?_append]
  obtain ⟨s1, hd1, hp1, e1⟩ := tryF_list junk dec hl hc.1 (IL_KTX :: (after.map Fmt.code ++ [])) before s rfl hp (fun f _ => hc.2 f)
  rw [e1]
  cases h : before.find? (fun f => f.is dec s.data) with
  | some f => exact ⟨_, rfl, rfl, hd1, hp1⟩
  | none =>
    simp only [Option.none_or]
    obtain ⟨s2, hd2, hp2, e2⟩ := tryF_ktx junk dec (after.map Fmt.code ++ []) s1 hp1 (by rw [hd1]; exact hl)
    obtain ⟨s3, hd3, hp3, e3⟩ := tryF_list junk dec hl hc.1 [] after s2 (hd2.trans hd1) hp2 (fun f _ => hc.2 f)
    rw [e2, e3]
    cases after.find? (fun f => f.is dec s.data) with
    | some f => exact ⟨_, rfl, rfl, hd3, hp3⟩
    | none => exact ⟨_, rfl, rfl, hd3, hp3⟩

/-- The first format whose test can succeed decides. -/
theorem tryF_first (junk : Nat → UInt8) (dec : Dec) (f : Fmt) (pre post : List Fmt) (ho : order = pre ++ f :: post) (s : Cache.S) (hp : s.pos = 0)
    (hl : s.data.length < 2147483648) (h54 : 54 ≤ s.data.length) (hn : f.need ≤ s.data.length) (hf : f.is dec s.data = true)
    (hpre : ∀ g ∈ pre, g.sig s.data = false) : Holds (ilDetermineTypeF junk dec s) (fun r => r.1 = f.code ∧ r.2.data = s.data ∧ r.2.pos = 0) := by
  have hno : ∀ g ∈ pre, ∀ bs', bs' = s.data → (g.sig bs' = true → g.need ≤ bs'.length) := by
    rintro g hg _ rfl h
    rw [hpre g hg] at h
    cases h
  have hnone : ∀ l : List Fmt, (∀ g ∈ l, g ∈ pre) → l.find? (fun f => f.is dec s.data) = none := by
    intro l hsub
    rw [List.find?_eq_none]
    intro g hg
    unfold Fmt.is
    rw [hpre g (hsub g hg)]
    exact Bool.false_ne_true
  have hsome : ∀ l r : List Fmt, (∀ g ∈ l, g ∈ pre) → (l ++ f :: r).find? (fun f => f.is dec s.data) = some f := by
    intro l r hsub
    rw [List.find?_append, hnone l hsub, Option.none_or, List.find?_cons, hf]
  unfold ilDetermineTypeF
  rw [orderF_eq]
  rw [show order = before ++ after from rfl] at ho
  rcases List.append_eq_append_iff.mp ho with ⟨t, hpre', haft⟩ | ⟨t, hbef, hpost⟩
  · -- after KTX
    have hb : ∀ g ∈ before, g ∈ pre := fun g hg => by rw [hpre']; exact List.mem_append_left _ hg
    have ht : ∀ g ∈ t, g ∈ pre := fun g hg => by rw [hpre']; exact List.mem_append_right _ hg
    obtain ⟨s1, hd1, hp1, e1⟩ := tryF_list junk dec hl h54 (IL_KTX :: (after.map Fmt.code ++ [])) before s rfl hp
      (fun g hg => hno g (hb g hg) _ rfl)
    rw [e1, hnone before hb]
    simp only
    obtain ⟨s2, hd2, hp2, e2⟩ := tryF_ktx junk dec (after.map Fmt.code ++ []) s1 hp1 (by rw [hd1]; exact hl)
    obtain ⟨s3, hd3, hp3, e3⟩ := tryF_list junk dec hl h54 ((post.map Fmt.code) ++ []) (t ++ [f]) s2 (hd2.trans hd1) hp2
      (fun g hg => by
        rcases List.mem_append.mp hg with h | h
        · exact hno g (ht g h) _ rfl
        · rw [List.mem_singleton.mp h]; exact fun _ => hn)
    rw [e2, show after.map Fmt.code ++ [] = (t ++ [f]).map Fmt.code ++ (post.map Fmt.code ++ []) by rw [haft]; simp, e3, hsome t [] ht]
    exact ⟨_, rfl, rfl, hd3, hp3⟩
  · cases t with
    | nil =>
      -- the first after KTX
      rw [List.append_nil] at hbef
      rw [List.nil_append] at hpost
      have hb : ∀ g ∈ before, g ∈ pre := fun g hg => by rw [← hbef]; exact hg
      obtain ⟨s1, hd1, hp1, e1⟩ := tryF_list junk dec hl h54 (IL_KTX :: (after.map Fmt.code ++ [])) before s rfl hp
        (fun g hg => hno g (hb g hg) _ rfl)
      rw [e1, hnone before hb]
      simp only
      obtain ⟨s2, hd2, hp2, e2⟩ := tryF_ktx junk dec (after.map Fmt.code ++ []) s1 hp1 (by rw [hd1]; exact hl)
      obtain ⟨s3, hd3, hp3, e3⟩ := tryF_list junk dec hl h54 ((post.map Fmt.code) ++ []) [f] s2 (hd2.trans hd1) hp2
        (fun g hg => by rw [List.mem_singleton.mp hg]; exact fun _ => hn)
      rw [e2, show after.map Fmt.code ++ [] = [f].map Fmt.code ++ (post.map Fmt.code ++ []) by rw [← hpost]; simp, e3,
        show [f].find? (fun f => f.is dec s.data) = some f from hsome [] [] (by simp)]
      exact ⟨_, rfl, rfl, hd3, hp3⟩
    | cons g t =>
      rw [List.cons_append, List.cons.injEq] at hpost
      obtain ⟨rfl, -⟩ := hpost
      obtain ⟨s1, hd1, hp1, e1⟩ := tryF_list junk dec hl h54 (t.map Fmt.code ++ (IL_KTX :: (after.map Fmt.code ++ []))) (pre ++ [f]) s rfl hp
        (fun g hg => by
          rcases List.mem_append.mp hg with h | h
          · exact hno g h _ rfl
          · rw [List.mem_singleton.mp h]; exact fun _ => hn)
      rw [show before.map Fmt.code ++ (IL_KTX :: (after.map Fmt.code ++ []))
        = (pre ++ [f]).map Fmt.code ++ (t.map Fmt.code ++ (IL_KTX :: (after.map Fmt.code ++ []))) by rw [hbef]; simp, e1, hsome pre [] (fun _ h => h)]
      exact ⟨_, rfl, rfl, hd1, hp1⟩

/-! ### Lumps -/

theorem lump_at (bs : List UInt8) (hl : bs.length < 2147483648) (h0 : 0 < bs.length) : LumpAt (Lump.open_ bs bs.length) bs 0 :=
  ⟨⟨rfl, Nat.zero_le _, by show bs.length < 4294967295; omega, h0⟩, rfl, rfl, hl⟩

/-- The formats in the order of `ilDetermineTypeL`. -/
def orderM : List Fmt := [.jpg, .dds, .png, .bmp, .blp, .exr, .gif, .hdr, .icns, .iwi, .ilbm, .jp2] ++ [.lif, .mdl, .mp3, .pcx, .pic, .pnm, .psd,
  .psp, .scitex, .sgi, .sun, .tif, .tpl, .vtf, .xpm, .tga]

theorem tryL_list (junk : Nat → UInt8) (dec : Dec) {bs : List UInt8} (hl : bs.length < 2147483648) (hc : Complete bs) (tail : List Nat) (fs : List Fmt) :
    tryL junk dec bs bs.length (fs.map Fmt.code ++ tail) =
      match fs.find? (fun f => f.is dec bs) with
      | some f => pure f.code
      | none => tryL junk dec bs bs.length tail := by
  have h54 := hc.1
  induction fs with
  | nil => rfl
  | cons f fs ih =>
    obtain ⟨r, e, hr, -⟩ := validator_spec lumpLaws junk dec f (lump_at bs hl (by omega)) hc.1 (hc.2 f)
    rw [List.map_cons, List.cons_append, List.find?_cons]
    show (validator lumpOps junk dec f.code (Lump.open_ bs bs.length) >>= _) = _
    rw [e, bind_ok]
    show (if r.1 = true then _ else tryL junk dec bs bs.length (fs.map Fmt.code ++ tail)) = _
    rw [hr, ih]
    cases f.is dec bs <;> rfl

theorem tryL_all (junk : Nat → UInt8) (dec : Dec) (bs : List UInt8) (hl : bs.length < 2147483648) (hc : Complete bs) :
    ilDetermineTypeL junk dec bs bs.length = .ok (typeOf dec orderM bs) := by
  unfold ilDetermineTypeL typeOf orderM
  rw [show orderL = [Fmt.jpg, .dds, .png, .bmp, .blp, .exr, .gif, .hdr, .icns, .iwi, .ilbm, .jp2].map Fmt.code ++ (IL_KTX :: ([Fmt.lif, .mdl, .mp3, .pcx, .pic,
    .pnm, .psd, .psp, .scitex, .sgi, .sun, .tif, .tpl, .vtf, .xpm, .tga].map Fmt.code ++ [])) from rfl, tryL_list junk dec hl hc, List.find?_append]
  cases h : [Fmt.jpg, .dds, .png, .bmp, .blp, .exr, .gif, .hdr, .icns, .iwi, .ilbm, .jp2].find? (fun f => f.is dec bs) with
  | some f => rfl
  | none =>
    simp only [Option.none_or]
    have ek : ∀ ts, tryL junk dec bs bs.length (IL_KTX :: ts) = tryL junk dec bs bs.length ts := fun _ => rfl
    rw [ek, tryL_list junk dec hl hc]
    cases [Fmt.lif, .mdl, .mp3, .pcx, .pic, .pnm, .psd, .psp, .scitex, .sgi, .sun, .tif, .tpl, .vtf, .xpm, .tga].find? (fun f => f.is dec bs) with
    | some f => rfl
    | none => rfl

theorem find_swap {α : Type} (p : α → Bool) (a b : List α) (x y : α) (h : ¬(p x = true ∧ p y = true)) :
    (a ++ x :: y :: b).find? p = (a ++ y :: x :: b).find? p := by
  rw [List.find?_append, List.find?_append]
  congr 1
  simp only [List.find?_cons]
  cases hx : p x <;> cases hy : p y <;> simp_all

theorem order_same (dec : Dec) (bs : List UInt8) (h : ¬(Fmt.is dec .sgi bs = true ∧ Fmt.is dec .scitex bs = true)) :
    typeOf dec orderM bs = typeOf dec order bs := by
  unfold typeOf
  have h1 : ¬(Fmt.is dec .iwi bs = true ∧ Fmt.is dec .ilbm bs = true) := by
    unfold Fmt.is Fmt.sig has
    simp only [List.length_cons, List.length_nil, Nat.zero_add, Nat.reduceAdd]
    generalize at_ bs 0 4 = z
    grind
  have e1 := find_swap (fun f => Fmt.is dec f bs) [.jpg, .dds, .png, .bmp, .blp, .exr, .gif, .hdr, .icns] [.jp2, .lif, .mdl, .mp3, .pcx, .pic, .pnm, .psd,
    .psp, .scitex, .sgi, .sun, .tif, .tpl, .vtf, .xpm, .tga] .iwi .ilbm h1
  have e2 := find_swap (fun f => Fmt.is dec f bs) [.jpg, .dds, .png, .bmp, .blp, .exr, .gif, .hdr, .icns, .ilbm, .iwi, .jp2, .lif, .mdl, .mp3, .pcx, .pic, .pnm, .psd,
    .psp] [.sun, .tif, .tpl, .vtf, .xpm, .tga] .scitex .sgi (fun h' => h ⟨h'.2, h'.1⟩)
  have e : orderM.find? (fun f => Fmt.is dec f bs) = order.find? (fun f => Fmt.is dec f bs) := e1.trans e2
  rw [e]

end DevIL.Detect
