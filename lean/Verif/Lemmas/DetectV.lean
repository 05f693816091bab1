import Verif.Lemmas.Detect
/-! What each `iIsValid…` says. -/
set_option autoImplicit false
set_option linter.unusedSimpArgs false
namespace DevIL.Detect

open DevIL.Lump (SEEK_SET SEEK_CUR SEEK_END)
open DevIL.DetectSpec

variable {σ : Type} {o : Ops σ} {At : σ → List UInt8 → Nat → Prop}

/-- A test gives this answer and leaves the input intact. -/
def Says (At : σ → List UInt8 → Nat → Prop) (bs : List UInt8) (c : C (Bool × σ)) (b : Bool) : Prop :=
  Holds c (fun r => r.1 = b ∧ ∃ q, At r.2 bs q)

/-- The fields of a header read from the beginning of `bs`. -/
def Fields (bs : List UInt8) (fs : List Fld) (h : List (List UInt8)) : Prop :=
  ∀ i f, fs[i]? = some f → start fs i + f.width ≤ bs.length → fld h i = f.bytes bs (start fs i)

theorem headed_spec (L : Laws o At) (junk : Nat → UInt8) (fs : List Fld) (back : Nat) (check : List (List UInt8) → C Bool) {s : σ}
    {bs : List UInt8} {want : Bool} (hs : At s bs 0) (hok : ∀ f ∈ fs, f.Ok)
    (hc : ∀ h, Fields bs fs h → Holds (check h) (fun b => b = want)) : Says At bs (headed o junk fs back check s) want := by
  refine (head_spec L junk bs fs s 0 hs hok).bind (fun r hr => ?_)
  obtain ⟨q, hq⟩ := hr.1
  refine (L.seekCur _ hq).bind (fun t ht => ?_)
  refine (hc r.1 (fun i f hi hw => ?_)).bind (fun b hb => Holds.pure ⟨hb, ht.1⟩)
  have := hr.2.2 i f hi (by omega)
  rw [Nat.zero_add] at this
  exact this

theorem dds_check (dec : Dec) {bs : List UInt8} {h : List (List UInt8)} (hl : 54 ≤ bs.length) (hn : Fmt.sig .dds bs = true → Fmt.need .dds ≤ bs.length)
    (H : Fields bs [arr 4, u32f, u32f, u32f, u32f, u32f, u32f, u32f, u32f, .rd 40 1, u32f, u32f, u32f, u32f, u32f, u32f, u32f, u32f,
    u32f, u32f, u32f, u32f, u32f] h) : iCheckDds h = Fmt.is dec .dds bs := by
  have h0 : fld h 0 = at_ bs 0 4 := H 0 _ rfl (by show 0 + 4 ≤ _; omega)
  unfold iCheckDds Fmt.is
  by_cases hs : Fmt.sig .dds bs = true
  · have hn : 80 ≤ bs.length := hn hs
    have h1 : fld h 1 = at_ bs 4 4 := H 1 _ rfl (by show 4 + 4 ≤ _; omega)
    have h3 : fld h 3 = at_ bs 12 4 := H 3 _ rfl (by show 12 + 4 ≤ _; omega)
    have h4 : fld h 4 = at_ bs 16 4 := H 4 _ rfl (by show 16 + 4 ≤ _; omega)
    have h10 : fld h 10 = at_ bs 76 4 := H 10 _ rfl (by show 76 + 4 ≤ _; omega)
    have e : (le (at_ bs 4 4) == 0x20534444) = (at_ bs 4 4 == [0x44, 0x44, 0x53, 0x20]) := le_beq (by rw [at_length]; simp; omega) (by decide)
    have hs' : at_ bs 0 4 = [0x44, 0x44, 0x53, 0x20] := by simpa [Fmt.sig, has] using hs
    simp only [Fmt.header, fle, h0, h1, h3, h4, h10, leAt, has, List.length_cons, List.length_nil, hs, Nat.zero_add, Nat.reduceAdd, ← e, hs']
    generalize le (at_ bs 4 4) = a
    generalize le (at_ bs 76 4) = b
    generalize le (at_ bs 12 4) = c
    generalize le (at_ bs 16 4) = d
    grind
  · have : (at_ bs 0 4 == [0x44, 0x44, 0x53, 0x20]) = false := by simpa [Fmt.sig, has] using hs
    simp [hs, h0, bne, this]

theorem any_zero {b : List UInt8} (h : b.length = 6) : b.any (fun b => b != 0) = !(b == [0, 0, 0, 0, 0, 0]) := by
  match b, h with
  | [a, b, c, d, e, f], _ =>
    rw [Bool.eq_iff_iff]
    simp

theorem blp_spec (L : Laws o At) (junk : Nat → UInt8) (dec : Dec) {s : σ} {bs : List UInt8} (hs : At s bs 0) (hl : 54 ≤ bs.length) :
    Says At bs (iIsValidBlp2 o junk s) (Fmt.is dec .blp bs) := by
  refine headed_spec L junk _ _ _ hs (by decide) (fun h H => Holds.pure ?_)
  have h0 : fld h 0 = at_ bs 0 4 := H 0 _ rfl (by show 0 + 4 ≤ _; omega)
  have l0 : fle h 0 = leAt bs 0 4 := congrArg le h0
  have m0 : fbe h 0 = beAt bs 0 4 := congrArg be h0
  have h1 : fld h 1 = at_ bs 4 4 := H 1 _ rfl (by show 4 + 4 ≤ _; omega)
  have l1 : fle h 1 = leAt bs 4 4 := congrArg le h1
  have m1 : fbe h 1 = beAt bs 4 4 := congrArg be h1
  have h2 : fld h 2 = at_ bs 8 1 := H 2 _ rfl (by show 8 + 1 ≤ _; omega)
  have l2 : fle h 2 = leAt bs 8 1 := congrArg le h2
  have m2 : fbe h 2 = beAt bs 8 1 := congrArg be h2
  have h3 : fld h 3 = at_ bs 9 1 := H 3 _ rfl (by show 9 + 1 ≤ _; omega)
  have l3 : fle h 3 = leAt bs 9 1 := congrArg le h3
  have m3 : fbe h 3 = beAt bs 9 1 := congrArg be h3
  have h4 : fld h 4 = at_ bs 10 1 := H 4 _ rfl (by show 10 + 1 ≤ _; omega)
  have l4 : fle h 4 = leAt bs 10 1 := congrArg le h4
  have m4 : fbe h 4 = beAt bs 10 1 := congrArg be h4
  have h6 : fld h 6 = at_ bs 12 4 := H 6 _ rfl (by show 12 + 4 ≤ _; omega)
  have l6 : fle h 6 = leAt bs 12 4 := congrArg le h6
  have m6 : fbe h 6 = beAt bs 12 4 := congrArg be h6
  have h7 : fld h 7 = at_ bs 16 4 := H 7 _ rfl (by show 16 + 4 ≤ _; omega)
  have l7 : fle h 7 = leAt bs 16 4 := congrArg le h7
  have m7 : fbe h 7 = beAt bs 16 4 := congrArg be h7
  simp only [iCheckBlp2, has, spells, same, Fmt.is, Fmt.sig, Fmt.header, List.length_cons, List.length_nil, Nat.zero_add, Nat.reduceAdd, h0, l0, m0, h1, l1, m1, h2, l2, m2, h3, l3, m3, h4, l4, m4, h6, l6, m6, h7, l7, m7]
  try generalize beAt bs 0 4 = b0
  try generalize leAt bs 0 4 = a0
  try generalize beAt bs 4 4 = b1
  try generalize leAt bs 4 4 = a1
  try generalize beAt bs 8 1 = b2
  try generalize leAt bs 8 1 = a2
  try generalize beAt bs 9 1 = b3
  try generalize leAt bs 9 1 = a3
  try generalize beAt bs 10 1 = b4
  try generalize leAt bs 10 1 = a4
  try generalize beAt bs 12 4 = b6
  try generalize leAt bs 12 4 = a6
  try generalize beAt bs 16 4 = b7
  try generalize leAt bs 16 4 = a7
  try generalize at_ bs 0 4 = z0
  try generalize at_ bs 4 4 = z1
  try generalize at_ bs 8 1 = z2
  try generalize at_ bs 9 1 = z3
  try generalize at_ bs 10 1 = z4
  try generalize at_ bs 12 4 = z6
  try generalize at_ bs 16 4 = z7
  clear H h0 l0 m0 h1 l1 m1 h2 l2 m2 h3 l3 m3 h4 l4 m4 h6 l6 m6 h7 l7 m7
  rw [Bool.eq_iff_iff]
  by_cases hz : z0 = [0x42, 0x4C, 0x50, 0x32]
  · simp [hz]
    omega
  · simp [hz]

theorem exr_spec (L : Laws o At) (junk : Nat → UInt8) (dec : Dec) {s : σ} {bs : List UInt8} (hs : At s bs 0) (hl : 54 ≤ bs.length) :
    Says At bs (iIsValidExr o junk s) (Fmt.is dec .exr bs) := by
  refine headed_spec L junk _ _ _ hs (by decide) (fun h H => Holds.pure ?_)
  have h0 : fld h 0 = at_ bs 0 4 := H 0 _ rfl (by show 0 + 4 ≤ _; omega)
  have l0 : fle h 0 = leAt bs 0 4 := congrArg le h0
  have m0 : fbe h 0 = beAt bs 0 4 := congrArg be h0
  have h1 : fld h 1 = at_ bs 4 4 := H 1 _ rfl (by show 4 + 4 ≤ _; omega)
  have l1 : fle h 1 = leAt bs 4 4 := congrArg le h1
  have m1 : fbe h 1 = beAt bs 4 4 := congrArg be h1
  have e0 : (leAt bs 0 4 == 0x01312F76) = (at_ bs 0 4 == [0x76, 0x2F, 0x31, 0x01]) := le_beq (by rw [at_length]; simp; omega) (by decide)
  simp only [has, spells, same, Fmt.is, Fmt.sig, Fmt.header, List.length_cons, List.length_nil, Nat.zero_add, Nat.reduceAdd, h0, l0, m0, h1, l1, m1]
  simp only [← e0]
  try generalize beAt bs 0 4 = b0
  try generalize leAt bs 0 4 = a0
  try generalize beAt bs 4 4 = b1
  try generalize leAt bs 4 4 = a1
  try generalize at_ bs 0 4 = z0
  try generalize at_ bs 4 4 = z1
  clear H h0 l0 m0 h1 l1 m1 e0
  grind

theorem icns_spec (L : Laws o At) (junk : Nat → UInt8) (dec : Dec) {s : σ} {bs : List UInt8} (hs : At s bs 0) (hl : 54 ≤ bs.length) :
    Says At bs (iIsValidIcns o junk s) (Fmt.is dec .icns bs) := by
  refine headed_spec L junk _ _ _ hs (by decide) (fun h H => Holds.pure ?_)
  have h0 : fld h 0 = at_ bs 0 4 := H 0 _ rfl (by show 0 + 4 ≤ _; omega)
  have l0 : fle h 0 = leAt bs 0 4 := congrArg le h0
  have m0 : fbe h 0 = beAt bs 0 4 := congrArg be h0
  simp only [has, spells, same, Fmt.is, Fmt.sig, Fmt.header, List.length_cons, List.length_nil, Nat.zero_add, Nat.reduceAdd, h0, l0, m0]
  try generalize beAt bs 0 4 = b0
  try generalize leAt bs 0 4 = a0
  try generalize at_ bs 0 4 = z0
  clear H h0 l0 m0
  grind

theorem mdl_spec (L : Laws o At) (junk : Nat → UInt8) (dec : Dec) {s : σ} {bs : List UInt8} (hs : At s bs 0) (hl : 54 ≤ bs.length) :
    Says At bs (iIsValidMdl o junk s) (Fmt.is dec .mdl bs) := by
  refine headed_spec L junk _ _ _ hs (by decide) (fun h H => Holds.pure ?_)
  have h0 : fld h 0 = at_ bs 0 4 := H 0 _ rfl (by show 0 + 4 ≤ _; omega)
  have l0 : fle h 0 = leAt bs 0 4 := congrArg le h0
  have m0 : fbe h 0 = beAt bs 0 4 := congrArg be h0
  have h1 : fld h 1 = at_ bs 4 4 := H 1 _ rfl (by show 4 + 4 ≤ _; omega)
  have l1 : fle h 1 = leAt bs 4 4 := congrArg le h1
  have m1 : fbe h 1 = beAt bs 4 4 := congrArg be h1
  have e0 : (leAt bs 0 4 == 0x54534449) = (at_ bs 0 4 == [0x49, 0x44, 0x53, 0x54]) := le_beq (by rw [at_length]; simp; omega) (by decide)
  simp only [has, spells, same, Fmt.is, Fmt.sig, Fmt.header, List.length_cons, List.length_nil, Nat.zero_add, Nat.reduceAdd, h0, l0, m0, h1, l1, m1]
  simp only [← e0]
  try generalize beAt bs 0 4 = b0
  try generalize leAt bs 0 4 = a0
  try generalize beAt bs 4 4 = b1
  try generalize leAt bs 4 4 = a1
  try generalize at_ bs 0 4 = z0
  try generalize at_ bs 4 4 = z1
  clear H h0 l0 m0 h1 l1 m1 e0
  grind

theorem sgi_spec (L : Laws o At) (junk : Nat → UInt8) (dec : Dec) {s : σ} {bs : List UInt8} (hs : At s bs 0) (hl : 54 ≤ bs.length) :
    Says At bs (iIsValidSgi o junk s) (Fmt.is dec .sgi bs) := by
  refine headed_spec L junk _ _ _ hs (by decide) (fun h H => Holds.pure ?_)
  have h0 : fld h 0 = at_ bs 0 2 := H 0 _ rfl (by show 0 + 2 ≤ _; omega)
  have l0 : fle h 0 = leAt bs 0 2 := congrArg le h0
  have m0 : fbe h 0 = beAt bs 0 2 := congrArg be h0
  have h1 : fld h 1 = at_ bs 2 1 := H 1 _ rfl (by show 2 + 1 ≤ _; omega)
  have l1 : fle h 1 = leAt bs 2 1 := congrArg le h1
  have m1 : fbe h 1 = beAt bs 2 1 := congrArg be h1
  have h2 : fld h 2 = at_ bs 3 1 := H 2 _ rfl (by show 3 + 1 ≤ _; omega)
  have l2 : fle h 2 = leAt bs 3 1 := congrArg le h2
  have m2 : fbe h 2 = beAt bs 3 1 := congrArg be h2
  have h3 : fld h 3 = at_ bs 4 2 := H 3 _ rfl (by show 4 + 2 ≤ _; omega)
  have l3 : fle h 3 = leAt bs 4 2 := congrArg le h3
  have m3 : fbe h 3 = beAt bs 4 2 := congrArg be h3
  have h4 : fld h 4 = at_ bs 6 2 := H 4 _ rfl (by show 6 + 2 ≤ _; omega)
  have l4 : fle h 4 = leAt bs 6 2 := congrArg le h4
  have m4 : fbe h 4 = beAt bs 6 2 := congrArg be h4
  have h5 : fld h 5 = at_ bs 8 2 := H 5 _ rfl (by show 8 + 2 ≤ _; omega)
  have l5 : fle h 5 = leAt bs 8 2 := congrArg le h5
  have m5 : fbe h 5 = beAt bs 8 2 := congrArg be h5
  have h6 : fld h 6 = at_ bs 10 2 := H 6 _ rfl (by show 10 + 2 ≤ _; omega)
  have l6 : fle h 6 = leAt bs 10 2 := congrArg le h6
  have m6 : fbe h 6 = beAt bs 10 2 := congrArg be h6
  have e0 : (beAt bs 0 2 == 474) = (at_ bs 0 2 == [0x01, 0xDA]) := be_beq (by rw [at_length]; simp; omega) (by decide)
  simp only [iCheckSgi, has, spells, same, Fmt.is, Fmt.sig, Fmt.header, List.length_cons, List.length_nil, Nat.zero_add, Nat.reduceAdd, h0, l0, m0, h1, l1, m1, h2, l2, m2, h3, l3, m3, h4, l4, m4, h5, l5, m5, h6, l6, m6]
  simp only [← e0]
  try generalize beAt bs 0 2 = b0
  try generalize leAt bs 0 2 = a0
  try generalize beAt bs 2 1 = b1
  try generalize leAt bs 2 1 = a1
  try generalize beAt bs 3 1 = b2
  try generalize leAt bs 3 1 = a2
  try generalize beAt bs 4 2 = b3
  try generalize leAt bs 4 2 = a3
  try generalize beAt bs 6 2 = b4
  try generalize leAt bs 6 2 = a4
  try generalize beAt bs 8 2 = b5
  try generalize leAt bs 8 2 = a5
  try generalize beAt bs 10 2 = b6
  try generalize leAt bs 10 2 = a6
  try generalize at_ bs 0 2 = z0
  try generalize at_ bs 2 1 = z1
  try generalize at_ bs 3 1 = z2
  try generalize at_ bs 4 2 = z3
  try generalize at_ bs 6 2 = z4
  try generalize at_ bs 8 2 = z5
  try generalize at_ bs 10 2 = z6
  clear H h0 l0 m0 h1 l1 m1 h2 l2 m2 h3 l3 m3 h4 l4 m4 h5 l5 m5 h6 l6 m6 e0
  grind

theorem sun_spec (L : Laws o At) (junk : Nat → UInt8) (dec : Dec) {s : σ} {bs : List UInt8} (hs : At s bs 0) (hl : 54 ≤ bs.length) :
    Says At bs (iIsValidSun o junk s) (Fmt.is dec .sun bs) := by
  refine headed_spec L junk _ _ _ hs (by decide) (fun h H => Holds.pure ?_)
  have h0 : fld h 0 = at_ bs 0 4 := H 0 _ rfl (by show 0 + 4 ≤ _; omega)
  have l0 : fle h 0 = leAt bs 0 4 := congrArg le h0
  have m0 : fbe h 0 = beAt bs 0 4 := congrArg be h0
  have h1 : fld h 1 = at_ bs 4 4 := H 1 _ rfl (by show 4 + 4 ≤ _; omega)
  have l1 : fle h 1 = leAt bs 4 4 := congrArg le h1
  have m1 : fbe h 1 = beAt bs 4 4 := congrArg be h1
  have h2 : fld h 2 = at_ bs 8 4 := H 2 _ rfl (by show 8 + 4 ≤ _; omega)
  have l2 : fle h 2 = leAt bs 8 4 := congrArg le h2
  have m2 : fbe h 2 = beAt bs 8 4 := congrArg be h2
  have h3 : fld h 3 = at_ bs 12 4 := H 3 _ rfl (by show 12 + 4 ≤ _; omega)
  have l3 : fle h 3 = leAt bs 12 4 := congrArg le h3
  have m3 : fbe h 3 = beAt bs 12 4 := congrArg be h3
  have h5 : fld h 5 = at_ bs 20 4 := H 5 _ rfl (by show 20 + 4 ≤ _; omega)
  have l5 : fle h 5 = leAt bs 20 4 := congrArg le h5
  have m5 : fbe h 5 = beAt bs 20 4 := congrArg be h5
  have h6 : fld h 6 = at_ bs 24 4 := H 6 _ rfl (by show 24 + 4 ≤ _; omega)
  have l6 : fle h 6 = leAt bs 24 4 := congrArg le h6
  have m6 : fbe h 6 = beAt bs 24 4 := congrArg be h6
  have h7 : fld h 7 = at_ bs 28 4 := H 7 _ rfl (by show 28 + 4 ≤ _; omega)
  have l7 : fle h 7 = leAt bs 28 4 := congrArg le h7
  have m7 : fbe h 7 = beAt bs 28 4 := congrArg be h7
  have e0 : (beAt bs 0 4 == 0x59A66A95) = (at_ bs 0 4 == [0x59, 0xA6, 0x6A, 0x95]) := be_beq (by rw [at_length]; simp; omega) (by decide)
  simp only [iCheckSun, has, spells, same, Fmt.is, Fmt.sig, Fmt.header, List.length_cons, List.length_nil, Nat.zero_add, Nat.reduceAdd, h0, l0, m0, h1, l1, m1, h2, l2, m2, h3, l3, m3, h5, l5, m5, h6, l6, m6, h7, l7, m7]
  simp only [← e0]
  try generalize beAt bs 0 4 = b0
  try generalize leAt bs 0 4 = a0
  try generalize beAt bs 4 4 = b1
  try generalize leAt bs 4 4 = a1
  try generalize beAt bs 8 4 = b2
  try generalize leAt bs 8 4 = a2
  try generalize beAt bs 12 4 = b3
  try generalize leAt bs 12 4 = a3
  try generalize beAt bs 20 4 = b5
  try generalize leAt bs 20 4 = a5
  try generalize beAt bs 24 4 = b6
  try generalize leAt bs 24 4 = a6
  try generalize beAt bs 28 4 = b7
  try generalize leAt bs 28 4 = a7
  try generalize at_ bs 0 4 = z0
  try generalize at_ bs 4 4 = z1
  try generalize at_ bs 8 4 = z2
  try generalize at_ bs 12 4 = z3
  try generalize at_ bs 20 4 = z5
  try generalize at_ bs 24 4 = z6
  try generalize at_ bs 28 4 = z7
  clear H h0 l0 m0 h1 l1 m1 h2 l2 m2 h3 l3 m3 h5 l5 m5 h6 l6 m6 h7 l7 m7 e0
  grind

theorem tpl_spec (L : Laws o At) (junk : Nat → UInt8) (dec : Dec) {s : σ} {bs : List UInt8} (hs : At s bs 0) (hl : 54 ≤ bs.length) :
    Says At bs (iIsValidTpl o junk s) (Fmt.is dec .tpl bs) := by
  refine headed_spec L junk _ _ _ hs (by decide) (fun h H => Holds.pure ?_)
  have h0 : fld h 0 = at_ bs 0 4 := H 0 _ rfl (by show 0 + 4 ≤ _; omega)
  have l0 : fle h 0 = leAt bs 0 4 := congrArg le h0
  have m0 : fbe h 0 = beAt bs 0 4 := congrArg be h0
  have h1 : fld h 1 = at_ bs 4 4 := H 1 _ rfl (by show 4 + 4 ≤ _; omega)
  have l1 : fle h 1 = leAt bs 4 4 := congrArg le h1
  have m1 : fbe h 1 = beAt bs 4 4 := congrArg be h1
  have h2 : fld h 2 = at_ bs 8 4 := H 2 _ rfl (by show 8 + 4 ≤ _; omega)
  have l2 : fle h 2 = leAt bs 8 4 := congrArg le h2
  have m2 : fbe h 2 = beAt bs 8 4 := congrArg be h2
  have e0 : (beAt bs 0 4 == 0x0020AF30) = (at_ bs 0 4 == [0x00, 0x20, 0xAF, 0x30]) := be_beq (by rw [at_length]; simp; omega) (by decide)
  simp only [iCheckTpl, has, spells, same, Fmt.is, Fmt.sig, Fmt.header, List.length_cons, List.length_nil, Nat.zero_add, Nat.reduceAdd, h0, l0, m0, h1, l1, m1, h2, l2, m2]
  simp only [← e0]
  try generalize beAt bs 0 4 = b0
  try generalize leAt bs 0 4 = a0
  try generalize beAt bs 4 4 = b1
  try generalize leAt bs 4 4 = a1
  try generalize beAt bs 8 4 = b2
  try generalize leAt bs 8 4 = a2
  try generalize at_ bs 0 4 = z0
  try generalize at_ bs 4 4 = z1
  try generalize at_ bs 8 4 = z2
  clear H h0 l0 m0 h1 l1 m1 h2 l2 m2 e0
  grind

theorem tga_spec (L : Laws o At) (junk : Nat → UInt8) (dec : Dec) {s : σ} {bs : List UInt8} (hs : At s bs 0) (hl : 54 ≤ bs.length) :
    Says At bs (iIsValidTarga o junk s) (Fmt.is dec .tga bs) := by
  refine headed_spec L junk _ _ _ hs (by decide) (fun h H => Holds.pure ?_)
  have h2 : fld h 2 = at_ bs 2 1 := H 2 _ rfl (by show 2 + 1 ≤ _; omega)
  have l2 : fle h 2 = leAt bs 2 1 := congrArg le h2
  have m2 : fbe h 2 = beAt bs 2 1 := congrArg be h2
  have h8 : fld h 8 = at_ bs 12 2 := H 8 _ rfl (by show 12 + 2 ≤ _; omega)
  have l8 : fle h 8 = leAt bs 12 2 := congrArg le h8
  have m8 : fbe h 8 = beAt bs 12 2 := congrArg be h8
  have h9 : fld h 9 = at_ bs 14 2 := H 9 _ rfl (by show 14 + 2 ≤ _; omega)
  have l9 : fle h 9 = leAt bs 14 2 := congrArg le h9
  have m9 : fbe h 9 = beAt bs 14 2 := congrArg be h9
  have h10 : fld h 10 = at_ bs 16 1 := H 10 _ rfl (by show 16 + 1 ≤ _; omega)
  have l10 : fle h 10 = leAt bs 16 1 := congrArg le h10
  have m10 : fbe h 10 = beAt bs 16 1 := congrArg be h10
  have h11 : fld h 11 = at_ bs 17 1 := H 11 _ rfl (by show 17 + 1 ≤ _; omega)
  have l11 : fle h 11 = leAt bs 17 1 := congrArg le h11
  have m11 : fbe h 11 = beAt bs 17 1 := congrArg be h11
  simp only [iCheckTarga, has, spells, same, Fmt.is, Fmt.sig, Fmt.header, List.length_cons, List.length_nil, Nat.zero_add, Nat.reduceAdd, h2, l2, m2, h8, l8, m8, h9, l9, m9, h10, l10, m10, h11, l11, m11]
  try generalize beAt bs 2 1 = b2
  try generalize leAt bs 2 1 = a2
  try generalize beAt bs 12 2 = b8
  try generalize leAt bs 12 2 = a8
  try generalize beAt bs 14 2 = b9
  try generalize leAt bs 14 2 = a9
  try generalize beAt bs 16 1 = b10
  try generalize leAt bs 16 1 = a10
  try generalize beAt bs 17 1 = b11
  try generalize leAt bs 17 1 = a11
  try generalize at_ bs 2 1 = z2
  try generalize at_ bs 12 2 = z8
  try generalize at_ bs 14 2 = z9
  try generalize at_ bs 16 1 = z10
  try generalize at_ bs 17 1 = z11
  clear H h2 l2 m2 h8 l8 m8 h9 l9 m9 h10 l10 m10 h11 l11 m11
  grind

theorem psd_spec (L : Laws o At) (junk : Nat → UInt8) (dec : Dec) {s : σ} {bs : List UInt8} (hs : At s bs 0) (hl : 54 ≤ bs.length) :
    Says At bs (iIsValidPsd o junk s) (Fmt.is dec .psd bs) := by
  refine headed_spec L junk _ _ _ hs (by decide) (fun h H => Holds.pure ?_)
  have h0 : fld h 0 = at_ bs 0 4 := H 0 _ rfl (by show 0 + 4 ≤ _; omega)
  have l0 : fle h 0 = leAt bs 0 4 := congrArg le h0
  have m0 : fbe h 0 = beAt bs 0 4 := congrArg be h0
  have h1 : fld h 1 = at_ bs 4 2 := H 1 _ rfl (by show 4 + 2 ≤ _; omega)
  have l1 : fle h 1 = leAt bs 4 2 := congrArg le h1
  have m1 : fbe h 1 = beAt bs 4 2 := congrArg be h1
  have h2 : fld h 2 = at_ bs 6 6 := H 2 _ rfl (by show 6 + 6 ≤ _; omega)
  have l2 : fle h 2 = leAt bs 6 6 := congrArg le h2
  have m2 : fbe h 2 = beAt bs 6 6 := congrArg be h2
  have h3 : fld h 3 = at_ bs 12 2 := H 3 _ rfl (by show 12 + 2 ≤ _; omega)
  have l3 : fle h 3 = leAt bs 12 2 := congrArg le h3
  have m3 : fbe h 3 = beAt bs 12 2 := congrArg be h3
  have h4 : fld h 4 = at_ bs 14 4 := H 4 _ rfl (by show 14 + 4 ≤ _; omega)
  have l4 : fle h 4 = leAt bs 14 4 := congrArg le h4
  have m4 : fbe h 4 = beAt bs 14 4 := congrArg be h4
  have h5 : fld h 5 = at_ bs 18 4 := H 5 _ rfl (by show 18 + 4 ≤ _; omega)
  have l5 : fle h 5 = leAt bs 18 4 := congrArg le h5
  have m5 : fbe h 5 = beAt bs 18 4 := congrArg be h5
  have h6 : fld h 6 = at_ bs 22 2 := H 6 _ rfl (by show 22 + 2 ≤ _; omega)
  have l6 : fle h 6 = leAt bs 22 2 := congrArg le h6
  have m6 : fbe h 6 = beAt bs 22 2 := congrArg be h6
  simp only [iCheckPsd, has, spells, same, Fmt.is, Fmt.sig, Fmt.header, List.length_cons, List.length_nil, Nat.zero_add, Nat.reduceAdd, h0, l0, m0, h1, l1, m1, h2, l2, m2, h3, l3, m3, h4, l4, m4, h5, l5, m5, h6, l6, m6]
  try generalize beAt bs 0 4 = b0
  try generalize leAt bs 0 4 = a0
  try generalize beAt bs 4 2 = b1
  try generalize leAt bs 4 2 = a1
  try generalize beAt bs 6 6 = b2
  try generalize leAt bs 6 6 = a2
  try generalize beAt bs 12 2 = b3
  try generalize leAt bs 12 2 = a3
  try generalize beAt bs 14 4 = b4
  try generalize leAt bs 14 4 = a4
  try generalize beAt bs 18 4 = b5
  try generalize leAt bs 18 4 = a5
  try generalize beAt bs 22 2 = b6
  try generalize leAt bs 22 2 = a6
  have hz : (at_ bs 6 6).any (fun b => b != 0) = !(at_ bs 6 6 == [0, 0, 0, 0, 0, 0]) := any_zero (by rw [at_length]; omega)
  rw [hz]
  try generalize at_ bs 0 4 = z0
  try generalize at_ bs 4 2 = z1
  try generalize at_ bs 6 6 = z2
  try generalize at_ bs 12 2 = z3
  try generalize at_ bs 14 4 = z4
  try generalize at_ bs 18 4 = z5
  try generalize at_ bs 22 2 = z6
  clear H h0 l0 m0 h1 l1 m1 h2 l2 m2 h3 l3 m3 h4 l4 m4 h5 l5 m5 h6 l6 m6
  grind

theorem lif_spec (L : Laws o At) (junk : Nat → UInt8) (dec : Dec) {s : σ} {bs : List UInt8} (hs : At s bs 0) (hl : 54 ≤ bs.length) :
    Says At bs (iIsValidLif o junk s) (Fmt.is dec .lif bs) := by
  refine headed_spec L junk _ _ _ hs (by decide) (fun h H => Holds.pure ?_)
  have h0 : fld h 0 = at_ bs 0 8 := H 0 _ rfl (by show 0 + 8 ≤ _; omega)
  have l0 : fle h 0 = leAt bs 0 8 := congrArg le h0
  have m0 : fbe h 0 = beAt bs 0 8 := congrArg be h0
  have h1 : fld h 1 = at_ bs 8 4 := H 1 _ rfl (by show 8 + 4 ≤ _; omega)
  have l1 : fle h 1 = leAt bs 8 4 := congrArg le h1
  have m1 : fbe h 1 = beAt bs 8 4 := congrArg be h1
  have h2 : fld h 2 = at_ bs 12 4 := H 2 _ rfl (by show 12 + 4 ≤ _; omega)
  have l2 : fle h 2 = leAt bs 12 4 := congrArg le h2
  have m2 : fbe h 2 = beAt bs 12 4 := congrArg be h2
  simp only [iCheckLif, has, spells, same, Fmt.is, Fmt.sig, Fmt.header, List.length_cons, List.length_nil, Nat.zero_add, Nat.reduceAdd, h0, l0, m0, h1, l1, m1, h2, l2, m2]
  try generalize beAt bs 0 8 = b0
  try generalize leAt bs 0 8 = a0
  try generalize beAt bs 8 4 = b1
  try generalize leAt bs 8 4 = a1
  try generalize beAt bs 12 4 = b2
  try generalize leAt bs 12 4 = a2
  rw [List.take_of_length_le (by rw [at_length]; omega)]
  try generalize at_ bs 0 8 = z0
  try generalize at_ bs 8 4 = z1
  try generalize at_ bs 12 4 = z2
  clear H h0 l0 m0 h1 l1 m1 h2 l2 m2
  grind

theorem at_split (bs : List UInt8) (p a b : Nat) : at_ bs p (a + b) = at_ bs p a ++ at_ bs (p + a) b := by
  simp only [at_]
  rw [List.take_add, List.drop_drop]

theorem at_take (bs : List UInt8) (p a b : Nat) (h : a ≤ b) : (at_ bs p b).take a = at_ bs p a := by
  simp only [at_]
  rw [List.take_take, Nat.min_eq_left h]

theorem at_drop (bs : List UInt8) (p a b : Nat) : (at_ bs p b).drop a = at_ bs (p + a) (b - a) := by
  simp only [at_]
  rw [List.drop_take, List.drop_drop]

theorem append_beq {a b c d : List UInt8} (h : a.length = c.length) : (a ++ b == c ++ d) = (a == c && b == d) := by
  rw [Bool.eq_iff_iff]
  simp only [beq_iff_eq, Bool.and_eq_true]
  exact ⟨fun e => List.append_inj e h, fun ⟨x, y⟩ => by rw [x, y]⟩

/-- Reading some bytes that are there. -/
theorem read_full (L : Laws o At) {s : σ} {bs : List UInt8} {p : Nat} (size number : Nat) (h : At s bs p) (hs : 0 < size)
    (hlt : size * number < 4294967296) (hfit : p + size * number ≤ bs.length) :
    Holds (o.read s size number) (fun r => r.1 = at_ bs p (size * number) ∧ r.2.1 = number ∧ At r.2.2 bs (p + size * number)) := by
  refine (L.read size number h hs hlt).mono (fun r hr => ?_)
  have hl : r.1.length = size * number := by rw [hr.1, at_length]; omega
  refine ⟨hr.1, ?_, ?_⟩
  · rw [hr.2.1, hl, Nat.mul_div_cancel_left _ hs]
  · have := hr.2.2; rw [hl] at this; exact this

theorem jpg_spec (L : Laws o At) (junk : Nat → UInt8) (dec : Dec) {s : σ} {bs : List UInt8} (hs : At s bs 0) (hl : 54 ≤ bs.length) :
    Says At bs (iIsValidJpeg o junk s) (Fmt.is dec .jpg bs) := by
  refine headed_spec L junk _ _ _ hs (by decide) (fun h H => Holds.pure ?_)
  have h0 : fld h 0 = at_ bs 0 1 := H 0 _ rfl (by show 0 + 1 ≤ _; omega)
  have h1 : fld h 1 = at_ bs 1 1 := H 1 _ rfl (by show 1 + 1 ≤ _; omega)
  have e : has bs 0 [0xFF, 0xD8] = (at_ bs 0 1 == [0xFF] && at_ bs 1 1 == [0xD8]) := by
    show (at_ bs 0 (1 + 1) == [0xFF] ++ [0xD8]) = _
    rw [at_split, append_beq (by rw [at_length]; simp; omega)]
  simp only [Fmt.is, Fmt.sig, Fmt.header, h0, h1, e]
  grind

theorem dds_spec (L : Laws o At) (junk : Nat → UInt8) (dec : Dec) {s : σ} {bs : List UInt8} (hs : At s bs 0) (hl : 54 ≤ bs.length)
    (hn : Fmt.sig .dds bs = true → Fmt.need .dds ≤ bs.length) : Says At bs (iIsValidDds o junk s) (Fmt.is dec .dds bs) :=
  headed_spec L junk _ _ _ hs (by decide) (fun _ H => Holds.pure (dds_check dec hl hn H))

theorem png_spec (L : Laws o At) (junk : Nat → UInt8) (dec : Dec) {s : σ} {bs : List UInt8} (hs : At s bs 0) (hl : 54 ≤ bs.length) :
    Says At bs (iIsValidPng o junk s) (Fmt.is dec .png bs) := by
  refine (read_full L 1 8 hs (by decide) (by decide) (by omega)).bind (fun r hr => ?_)
  refine (L.seekCur _ hr.2.2).bind (fun t ht => Holds.pure ⟨?_, ht.1⟩)
  show (r.1 ++ _ == _) = _
  rw [hr.1, at_length, List.drop_of_length_le (by simp; omega), List.append_nil]
  simp [Fmt.is, Fmt.sig, Fmt.header, has]

theorem gif_spec (L : Laws o At) (dec : Dec) {s : σ} {bs : List UInt8} (hs : At s bs 0) (hl : 54 ≤ bs.length) :
    Says At bs (iIsValidGif o s) (Fmt.is dec .gif bs) := by
  refine (read_full L 1 6 hs (by decide) (by decide) (by omega)).bind (fun r hr => ?_)
  simp only []
  rw [if_neg (by rw [hr.2.1]; decide)]
  refine (L.seekCur _ hr.2.2).bind (fun t ht => ?_)
  have e : ∀ u : List UInt8, u.length = 6 → same r.1 u = spells bs 0 u := fun u hu => by
    unfold same spells
    rw [hr.1, hu, at_take _ _ _ _ (by decide)]
  rw [e _ rfl, e _ rfl]
  simp only [Fmt.is, Fmt.sig, Fmt.header]
  split
  · rename_i h; exact Holds.pure ⟨by simp [h], ht.1⟩
  · rename_i h
    split
    · rename_i h'; exact Holds.pure ⟨by simp [h'], ht.1⟩
    · rename_i h'; exact Holds.pure ⟨by simp [h, h'], ht.1⟩

theorem hdr_spec (L : Laws o At) (dec : Dec) {s : σ} {bs : List UInt8} (hs : At s bs 0) (hl : 54 ≤ bs.length) :
    Says At bs (iIsValidHdr o s) (Fmt.is dec .hdr bs) := by
  refine (read_full L 1 10 hs (by decide) (by decide) (by omega)).bind (fun r hr => ?_)
  refine (L.seekCur _ hr.2.2).bind (fun t ht => ?_)
  simp only []
  rw [if_neg (by rw [hr.2.1]; decide)]
  refine Holds.pure ⟨?_, ht.1⟩
  have e : ∀ u : List UInt8, u.length ≤ 10 → same r.1 u = spells bs 0 u := fun u hu => by
    unfold same spells
    rw [hr.1, at_take _ _ _ _ hu]
  show (same _ _ || same _ _) = _
  rw [e _ (by decide), e _ (by decide)]
  simp [Fmt.is, Fmt.sig, Fmt.header]

theorem ilbm_spec (L : Laws o At) (dec : Dec) {s : σ} {bs : List UInt8} (hs : At s bs 0) (hl : 54 ≤ bs.length) :
    Says At bs (iIsValidIlbm o s) (Fmt.is dec .ilbm bs) := by
  unfold iIsValidIlbm
  rw [L.tell hs]
  refine (read_full L 12 1 hs (by decide) (by decide) (by omega)).bind (fun r hr => ?_)
  refine (L.seekSet hr.2.2).bind (fun t ht => Holds.pure ⟨?_, ht⟩)
  show (if r.2.1 ≠ 0 then _ else _) = _
  rw [if_pos (by rw [hr.2.1]; decide), hr.1]
  rw [at_take _ _ _ _ (by decide), at_drop]
  rfl

theorem iwi_spec (L : Laws o At) (junk : Nat → UInt8) (dec : Dec) {s : σ} {bs : List UInt8} (hs : At s bs 0) (hl : 54 ≤ bs.length) :
    Says At bs (iIsValidIwi o junk s) (Fmt.is dec .iwi bs) := by
  unfold iIsValidIwi
  refine (head_spec L junk bs _ s 0 hs (by decide)).bind (fun r hr => ?_)
  obtain ⟨q, hq⟩ := hr.1
  refine (L.seekCur _ hq).bind (fun t ht => ?_)
  have H := hr.2.2
  have h0 : fld r.1 0 = at_ bs 0 4 := H 0 _ rfl (by show 0 + 4 ≤ _; omega)
  have h1 : fle r.1 1 = leAt bs 4 1 := congrArg le (H 1 _ rfl (by show 4 + 1 ≤ _; omega))
  have h3 : fle r.1 3 = leAt bs 6 2 := congrArg le (H 3 _ rfl (by show 6 + 2 ≤ _; omega))
  have h4 : fle r.1 4 = leAt bs 8 2 := congrArg le (H 4 _ rfl (by show 8 + 2 ≤ _; omega))
  have e0 : (fle r.1 0 == 0x06695749) = (at_ bs 0 4 == [0x49, 0x57, 0x69, 0x06]) := by
    rw [← h0]; exact le_beq (by rw [h0, at_length]; simp; omega) (by decide)
  have e1 : (fle r.1 0 == 0x05695749) = (at_ bs 0 4 == [0x49, 0x57, 0x69, 0x05]) := by
    rw [← h0]; exact le_beq (by rw [h0, at_length]; simp; omega) (by decide)
  have hc : Holds (iCheckIwi r.1) (fun b => b = Fmt.is dec .iwi bs) := by
    unfold iCheckIwi
    simp only [bne, e0, e1, h1, h3, h4, Fmt.is, Fmt.sig, Fmt.header, has, List.length_cons, List.length_nil, Nat.zero_add, Nat.reduceAdd]
    generalize at_ bs 0 4 = z
    split
    · rename_i h
      exact Holds.pure (by grind)
    · rename_i h
      split
      · exact Holds.pure (by grind)
      · rename_i h'
        refine (nextPower2_spec _ (by have := leAt_lt bs 6 2; omega)).bind (fun pw hpw => ?_)
        refine (nextPower2_spec _ (by have := leAt_lt bs 8 2; omega)).bind (fun ph hph => ?_)
        rw [← hpw, ← hph]
        generalize leAt bs 6 2 = w at *
        generalize leAt bs 8 2 = h at *
        generalize leAt bs 4 1 = f at *
        clear hpw hph h1 h3 h4 e0 e1 H hr
        have hz : (z == [0x49, 0x57, 0x69, 0x06] || z == [0x49, 0x57, 0x69, 0x05]) = true := by grind
        rw [hz, Bool.true_and]
        simp at h'
        have c1 : [0x0B, 0x0C, 0x0D].contains f = (f == 0x0B || f == 0x0C || f == 0x0D) := by rw [Bool.eq_iff_iff]; simp [or_assoc]
        have c2 : [1, 2, 3, 4].contains f = (f == 1 || f == 2 || f == 3 || f == 4) := by rw [Bool.eq_iff_iff]; simp [or_assoc]
        rw [c1, c2]
        split
        · rename_i g; refine Holds.pure ?_; clear hz; grind
        · rename_i g
          split
          · rename_i g'; refine Holds.pure ?_; clear hz; grind
          · rename_i g'; refine Holds.pure ?_; clear hz; grind
  exact hc.bind (fun b hb => Holds.pure ⟨hb, ht.1⟩)

theorem jp2_spec (L : Laws o At) (dec : Dec) {s : σ} {bs : List UInt8} (hs : At s bs 0) (hl : 54 ≤ bs.length) :
    Says At bs (iIsValidJp2 o s) (Fmt.is dec .jp2 bs) := by
  refine (L.seekCur 4 hs).bind (fun t ht => ?_)
  refine (read_full L 1 4 (ht.2 4 rfl (by omega)) (by decide) (by decide) (by omega)).bind (fun r hr => ?_)
  simp only []
  rw [if_neg (by rw [hr.2.1]; decide)]
  refine (L.seekCur _ hr.2.2).bind (fun u hu => ?_)
  rw [hr.1]
  simp only [Fmt.is, Fmt.sig, Fmt.header, has, List.length_cons, List.length_nil, Nat.zero_add, Nat.reduceAdd, Nat.reduceMul]
  split
  · rename_i h; exact Holds.pure ⟨by simpa using h, hu.1⟩
  · rename_i h; exact Holds.pure ⟨by simpa using h, hu.1⟩

theorem mp3_spec (L : Laws o At) (junk : Nat → UInt8) (dec : Dec) {s : σ} {bs : List UInt8} (hs : At s bs 0) (hl : 54 ≤ bs.length) :
    Says At bs (iIsValidMp3 o junk s) (Fmt.is dec .mp3 bs) := by
  unfold iIsValidMp3
  refine (read_full L 3 1 hs (by decide) (by decide) (by omega)).bind (fun r hr => ?_)
  simp only []
  rw [if_neg (by rw [hr.2.1]; decide)]
  refine (head_spec L junk bs _ _ _ hr.2.2 (by decide)).bind (fun u hu => ?_)
  obtain ⟨q, hq⟩ := hu.1
  refine (L.seekCur _ hq).bind (fun t ht => ?_)
  have H := hu.2.2
  have h0 : fle u.1 0 = leAt bs 3 1 := congrArg le (H 0 _ rfl (by show 3 + 1 ≤ _; omega))
  have h1 : fle u.1 1 = leAt bs 4 1 := congrArg le (H 1 _ rfl (by show 4 + 1 ≤ _; omega))
  rw [hr.1]
  simp only [h0, h1, Fmt.is, Fmt.sig, Fmt.header, has, List.length_cons, List.length_nil, Nat.zero_add, Nat.reduceAdd, Nat.reduceMul]
  generalize at_ bs 0 3 = z
  generalize leAt bs 3 1 = a
  generalize leAt bs 4 1 = b
  split
  · exact Holds.pure ⟨by grind, ht.1⟩
  · split
    · exact Holds.pure ⟨by grind, ht.1⟩
    · exact Holds.pure ⟨by grind, ht.1⟩

theorem one_has {bs : List UInt8} {p : Nat} (h : p < bs.length) (b : UInt8) {n : Nat} (hn : n = b.toNat) : (leAt bs p 1 == n) = has bs p [b] := by
  unfold leAt has
  exact le_beq (by rw [at_length]; simp; omega) (by rw [hn]; simp [le])

theorem pcx_spec (L : Laws o At) (junk : Nat → UInt8) (dec : Dec) {s : σ} {bs : List UInt8} (hs : At s bs 0) (hl : 54 ≤ bs.length)
    (hn : Fmt.sig .pcx bs = true → Fmt.need .pcx ≤ bs.length) : Says At bs (iIsValidPcx o junk s) (Fmt.is dec .pcx bs) := by
  refine headed_spec L junk _ _ _ hs (by decide) (fun h H => Holds.pure ?_)
  have h0 : fle h 0 = leAt bs 0 1 := congrArg le (H 0 _ rfl (by show 0 + 1 ≤ _; omega))
  have h2 : fle h 2 = leAt bs 2 1 := congrArg le (H 2 _ rfl (by show 2 + 1 ≤ _; omega))
  have e0 : (leAt bs 0 1 == 10) = has bs 0 [10] := one_has (by omega) _ rfl
  have e2 : (leAt bs 2 1 == 1) = has bs 2 [1] := one_has (by omega) _ rfl
  unfold iCheckPcx Fmt.is
  by_cases hg : Fmt.sig .pcx bs = true
  · have hn : 68 ≤ bs.length := hn hg
    have h1 : fle h 1 = leAt bs 1 1 := congrArg le (H 1 _ rfl (by show 1 + 1 ≤ _; omega))
    have h3 : fle h 3 = leAt bs 3 1 := congrArg le (H 3 _ rfl (by show 3 + 1 ≤ _; omega))
    have h4 : fle h 4 = leAt bs 4 2 := congrArg le (H 4 _ rfl (by show 4 + 2 ≤ _; omega))
    have h6 : fle h 6 = leAt bs 8 2 := congrArg le (H 6 _ rfl (by show 8 + 2 ≤ _; omega))
    have h9 : fle h 9 = leAt bs 14 2 := congrArg le (H 9 _ rfl (by show 14 + 2 ≤ _; omega))
    have h13 : fle h 13 = leAt bs 66 2 := congrArg le (H 13 _ rfl (by show 66 + 2 ≤ _; omega))
    have hg' : has bs 0 [10] = true ∧ has bs 2 [1] = true := by simpa [Fmt.sig] using hg
    rw [hg, h0, h1, h2, h3, h4, h6, h9, h13]
    have l4 := leAt_lt bs 4 2
    have l8 := leAt_lt bs 8 2
    have l66 := leAt_lt bs 66 2
    rw [if_neg (by rw [bne, bne, e0, e2, hg'.1, hg'.2]; decide), Bool.true_and]
    simp only [Fmt.header]
    clear h0 h1 h2 h3 h4 h6 h9 h13 e0 e2 hg hg' H
    generalize leAt bs 1 1 = a1
    generalize leAt bs 3 1 = a3
    generalize leAt bs 4 2 = a4 at *
    generalize leAt bs 8 2 = a8 at *
    generalize leAt bs 14 2 = a14
    generalize leAt bs 66 2 = a66 at *
    unfold Lump.ofInt u32
    rw [Bool.eq_iff_iff]
    by_cases hv : ([0, 2, 5].contains a1 || a14 == 3 || a14 == 4) = true
    · rw [hv, if_neg (by simp at hv ⊢; omega)]
      simp only [Bool.true_and, Bool.or_eq_true, decide_eq_true_eq]
      by_cases h3 : 8 ≤ a3
      · rw [if_pos h3]
        split
        · split
          · rename_i h1 h2; simp at h2 ⊢; omega
          · rename_i h1 h2; simp at h2 ⊢; omega
        · split
          · rename_i h1 h2; simp at h2 ⊢; omega
          · rename_i h1 h2; simp at h2 ⊢; omega
      · rw [if_neg h3]
        simp; omega
    · rw [if_pos (by simp at hv ⊢; omega)]
      simp at hv ⊢
      omega
  · have hg' : ¬(has bs 0 [10] = true ∧ has bs 2 [1] = true) := by simpa [Fmt.sig] using hg
    rw [h0, h2, if_pos (by rw [bne, bne, e0, e2]; simp at hg' ⊢; by_cases hx : has bs 0 [10] = true <;> simp_all)]
    simp [hg]

theorem pic_spec (L : Laws o At) (junk : Nat → UInt8) (dec : Dec) {s : σ} {bs : List UInt8} (hs : At s bs 0) (hl : 54 ≤ bs.length)
    (hn : Fmt.sig .pic bs = true → Fmt.need .pic ≤ bs.length) : Says At bs (iIsValidPic o junk s) (Fmt.is dec .pic bs) := by
  refine headed_spec L junk _ _ _ hs (by decide) (fun h H => Holds.pure ?_)
  have h0 : fbe h 0 = beAt bs 0 4 := congrArg be (H 0 _ rfl (by show 0 + 4 ≤ _; omega))
  have e0 : (beAt bs 0 4 == 0x5380F634) = Fmt.sig .pic bs := be_beq (by rw [at_length]; simp; omega) (by decide)
  unfold iCheckPic Fmt.is
  rw [h0, bne, e0]
  by_cases hg : Fmt.sig .pic bs = true
  · have hn : 96 ≤ bs.length := hn hg
    have h3 : fld h 3 = at_ bs 88 4 := H 3 _ rfl (by show 88 + 4 ≤ _; omega)
    have h4 : fbe h 4 = beAt bs 92 2 := congrArg be (H 4 _ rfl (by show 92 + 2 ≤ _; omega))
    have h5 : fbe h 5 = beAt bs 94 2 := congrArg be (H 5 _ rfl (by show 94 + 2 ≤ _; omega))
    rw [hg, h3, h4, h5]
    simp only [Fmt.header, has, List.length_cons, List.length_nil, Nat.zero_add, Nat.reduceAdd]
    grind
  · simp [hg]

theorem pnm_spec (L : Laws o At) (dec : Dec) {s : σ} {bs : List UInt8} (hs : At s bs 0) (hl : 54 ≤ bs.length) :
    Says At bs (iIsValidPnm o s) (Fmt.is dec .pnm bs) := by
  refine (read_full L 1 2 hs (by decide) (by decide) (by omega)).bind (fun r hr => ?_)
  refine (L.seekCur _ hr.2.2).bind (fun t ht => ?_)
  simp only []
  rw [if_neg (by rw [hr.2.1]; decide), hr.1]
  simp only [Nat.reduceMul]
  rw [at_take _ _ _ _ (by decide), at_drop]
  simp only [Fmt.is, Fmt.sig, Fmt.header, has, List.length_cons, List.length_nil, Nat.zero_add, Nat.reduceAdd, Nat.reduceSub]
  have e : [[0x31], [0x32], [0x33], [0x34], [0x35], [0x36], [(0x37 : UInt8)]].contains (at_ bs 1 1)
      = (decide (0x31 ≤ leAt bs 1 1) && decide (leAt bs 1 1 ≤ 0x37)) := by
    unfold leAt
    rw [at_one (by omega)]
    generalize bs[1] = b
    have hb := b.toNat_lt
    simp only [le, List.contains_cons, List.contains_nil, Bool.or_false]
    rw [Bool.eq_iff_iff]
    simp [← UInt8.toNat_inj]
    omega
  split
  · rename_i h; exact Holds.pure ⟨by simp at h ⊢; simp [h], ht.1⟩
  · rename_i h; exact Holds.pure ⟨by rw [e]; simp at h ⊢; simp [h], ht.1⟩

theorem psp_spec (L : Laws o At) (junk : Nat → UInt8) (dec : Dec) {s : σ} {bs : List UInt8} (hs : At s bs 0) (hl : 54 ≤ bs.length) :
    Says At bs (iIsValidPsp o junk s) (Fmt.is dec .psp bs) := by
  unfold iIsValidPsp
  refine (read_full L 1 32 hs (by decide) (by decide) (by omega)).bind (fun r hr => ?_)
  simp only []
  rw [if_neg (by rw [hr.2.1]; decide)]
  refine (head_spec L junk bs _ _ _ hr.2.2 (by decide)).bind (fun u hu => ?_)
  obtain ⟨q, hq⟩ := hu.1
  refine (L.seekCur _ hq).bind (fun t ht => ?_)
  have H := hu.2.2
  have h0 : fle u.1 0 = leAt bs 32 2 := congrArg le (H 0 _ rfl (by show 32 + 2 ≤ _; omega))
  have h1 : fle u.1 1 = leAt bs 34 2 := congrArg le (H 1 _ rfl (by show 34 + 2 ≤ _; omega))
  have e : ∀ u : List UInt8, u.length ≤ 32 → same r.1 u = spells bs 0 u := fun u hu => by
    unfold same spells
    rw [hr.1, at_take _ _ _ _ hu]
  rw [e _ (by decide)]
  simp only [h0, h1, Fmt.is, Fmt.sig, Fmt.header]
  generalize spells bs 0 _ = z
  generalize leAt bs 32 2 = a
  generalize leAt bs 34 2 = b
  split
  · exact Holds.pure ⟨by grind, ht.1⟩
  · split
    · exact Holds.pure ⟨by grind, ht.1⟩
    · split
      · exact Holds.pure ⟨by grind, ht.1⟩
      · exact Holds.pure ⟨by grind, ht.1⟩

theorem tif_spec (L : Laws o At) (junk : Nat → UInt8) (dec : Dec) {s : σ} {bs : List UInt8} (hs : At s bs 0) (hl : 54 ≤ bs.length) :
    Says At bs (ilisValidTiffFunc o junk s) (Fmt.is dec .tif bs) := by
  unfold ilisValidTiffFunc
  refine (head_spec L junk bs _ s 0 hs (by decide)).bind (fun r hr => ?_)
  have h0 : fld r.1 0 = at_ bs 0 2 := hr.2.2 0 _ rfl (by show 0 + 2 ≤ _; omega)
  have hp : At r.2 bs 2 := hr.2.1 (by show 0 + 2 ≤ _; omega)
  have hlen : ∀ p, p + 2 ≤ 54 → (at_ bs p 2).length = 2 := fun p hp => by rw [at_length]; omega
  have e0 : (fle r.1 0 == 0x4949) = (at_ bs 0 2 == [0x49, 0x49]) := by
    rw [← h0]; exact le_beq (by rw [h0]; exact hlen 0 (by decide)) (by decide)
  have e1 : (fle r.1 0 == 0x4D4D) = (at_ bs 0 2 == [0x4D, 0x4D]) := by
    rw [← h0]; exact le_beq (by rw [h0]; exact hlen 0 (by decide)) (by decide)
  have s0 : has bs 0 [0x49, 0x49, 0x2A, 0x00] = (at_ bs 0 2 == [0x49, 0x49] && at_ bs 2 2 == [0x2A, 0x00]) := by
    show (at_ bs 0 (2 + 2) == [0x49, 0x49] ++ [0x2A, 0x00]) = _
    rw [at_split, append_beq (hlen 0 (by decide))]
  have s1 : has bs 0 [0x4D, 0x4D, 0x00, 0x2A] = (at_ bs 0 2 == [0x4D, 0x4D] && at_ bs 2 2 == [0x00, 0x2A]) := by
    show (at_ bs 0 (2 + 2) == [0x4D, 0x4D] ++ [0x00, 0x2A]) = _
    rw [at_split, append_beq (hlen 0 (by decide))]
  simp only [bne, e0, e1, Fmt.is, Fmt.sig, Fmt.header, s0, s1]
  split
  · rename_i h
    exact Holds.pure ⟨by revert h; generalize at_ bs 0 2 = z; grind, hr.1⟩
  · rename_i h
    refine (head_spec L junk bs _ _ _ hp (by decide)).bind (fun u hu => ?_)
    have g0 : fld u.1 0 = at_ bs 2 2 := hu.2.2 0 _ rfl (by show 2 + 2 ≤ _; omega)
    have k0 : (fle u.1 0 == 42) = (at_ bs 2 2 == [0x2A, 0x00]) := by
      rw [← g0]; exact le_beq (by rw [g0]; exact hlen 2 (by decide)) (by decide)
    have k1 : (fbe u.1 0 == 42) = (at_ bs 2 2 == [0x00, 0x2A]) := by
      rw [← g0]; exact be_beq (by rw [g0]; exact hlen 2 (by decide)) (by decide)
    revert h
    generalize at_ bs 0 2 = z
    generalize at_ bs 2 2 = y at *
    intro h
    have key : ((if z == [0x49, 0x49] then fle u.1 0 else fbe u.1 0) == 42)
        = ((z == [0x49, 0x49] && y == [0x2A, 0x00] || z == [0x4D, 0x4D] && y == [0x00, 0x2A]) && true) := by
      by_cases hz : z = [0x49, 0x49]
      · rw [if_pos (by simp [hz]), k0, hz]; simp
      · have hz' : z = [0x4D, 0x4D] := by grind
        rw [if_neg (by simp [hz]), k1, hz']; simp
    show Holds (if (!((if z == [0x49, 0x49] then fle u.1 0 else fbe u.1 0) == 42)) = true then _ else _) _
    rw [key]
    split
    · rename_i g; exact Holds.pure ⟨by grind, hu.1⟩
    · rename_i g; exact Holds.pure ⟨by grind, hu.1⟩

end DevIL.Detect
