import Verif.Spec.IluMisc
import Verif.Props.Stack
/-! C126 to C129: parameters, language, region and images of the utility library. -/
set_option autoImplicit false
namespace DevIL.IluMisc
open DevIL.IluMiscSpec

/-! ### C126 -/

theorem mem_filters (v : Nat) : filters.contains v = true ↔ 0x2601 ≤ v ∧ v ≤ 0x2609 := by
  simp only [filters, List.contains_iff_mem, List.mem_cons, List.not_mem_nil, or_false]
  omega

theorem mem_placements (v : Nat) : placements.contains v = true ↔ 0x0701 ≤ v ∧ v ≤ 0x0705 := by
  simp only [placements, List.contains_iff_mem, List.mem_cons, List.not_mem_nil, or_false]
  omega

theorem param_spec (s : Par) (q w : Nat) :
    (iluImageParameter s q w).filter = (if q = 0x2600 ∧ takes q w = true then w else s.filter) ∧
    (iluImageParameter s q w).placement = (if q = 0x0700 ∧ takes q w = true then w else s.placement) ∧
    (iluImageParameter s q w).errs = (if takes q w = true then s.errs else 0x0501 :: s.errs) := by
  unfold iluImageParameter
  by_cases h1 : q = ILU_FILTER
  · subst h1
    rw [if_pos rfl]
    by_cases hf : filters.contains w = true
    · rw [if_pos hf]; rw [mem_filters] at hf; simp [takes, hf, ILU_FILTER, ILU_PLACEMENT]
    · rw [if_neg hf]; rw [mem_filters] at hf
      have : ¬(9729 ≤ w ∧ w ≤ 9737) := hf
      simp [takes, this, ILU_FILTER, ILU_PLACEMENT]
  · rw [if_neg h1]
    have h1' : q ≠ 0x2600 := h1
    by_cases h2 : q = ILU_PLACEMENT
    · subst h2
      rw [if_pos rfl]
      by_cases hf : placements.contains w = true
      · rw [if_pos hf]; rw [mem_placements] at hf; simp [takes, hf, ILU_FILTER, ILU_PLACEMENT]
      · rw [if_neg hf]; rw [mem_placements] at hf
        have : ¬(1793 ≤ w ∧ w ≤ 1797) := hf
        simp [takes, this, ILU_FILTER, ILU_PLACEMENT]
    · rw [if_neg h2]
      have h2' : q ≠ 0x0700 := h2
      simp [takes, h1', h2']

/-- **C126.** After any history of calls of `iluImageParameter` and `iluGetInteger`, the filter `iluGetInteger` reports and the one in force is the last one
accepted, `ILU_NEAREST` if there was none; the placement in force is the last one accepted, `ILU_CENTER` if there was none; a call with a
parameter or a value that is not documented records `ILU_INVALID_ENUM` and changes nothing else. -/
theorem C126_parameters (ops : List POp) :
    let s := prun par0 ops
    s.filter = lastParam 0x2600 0x2601 ops ∧ iluGetInteger s 0x2600 = ((lastParam 0x2600 0x2601 ops : Int), s) ∧
    s.placement = lastParam 0x0700 0x0705 ops ∧
    (∀ q w, takes q w = false → iluImageParameter s q w = { s with errs := 0x0501 :: s.errs }) ∧
    (∀ q w, takes q w = true → (iluImageParameter s q w).errs = s.errs) := by
  have gen : ∀ (ops : List POp) (s : Par) , (prun s ops).filter = lastParam 0x2600 s.filter ops ∧
      (prun s ops).placement = lastParam 0x0700 s.placement ops := by
    intro ops
    induction ops with
    | nil => intro s; exact ⟨rfl, rfl⟩
    | cons o ops ih =>
      intro s
      cases o with
      | param q w =>
        obtain ⟨h1, h2⟩ := ih (iluImageParameter s q w)
        obtain ⟨p1, p2, _⟩ := param_spec s q w
        refine ⟨?_, ?_⟩
        · show (prun (iluImageParameter s q w) ops).filter = _
          rw [h1, p1]; rfl
        · show (prun (iluImageParameter s q w) ops).placement = _
          rw [h2, p2]; rfl
      | get m =>
        have e : (iluGetInteger s m).2.filter = s.filter ∧ (iluGetInteger s m).2.placement = s.placement := by
          unfold iluGetInteger; repeat' split
          all_goals exact ⟨rfl, rfl⟩
        obtain ⟨h1, h2⟩ := ih (iluGetInteger s m).2
        refine ⟨?_, ?_⟩
        · show (prun (iluGetInteger s m).2 ops).filter = _
          rw [h1, e.1]; rfl
        · show (prun (iluGetInteger s m).2 ops).placement = _
          rw [h2, e.2]; rfl
  obtain ⟨h1, h2⟩ := gen ops par0
  refine ⟨h1, ?_, h2, fun q w hq => ?_, fun q w hq => ?_⟩
  · show iluGetInteger (prun par0 ops) ILU_FILTER = _
    unfold iluGetInteger
    rw [if_neg (by decide), if_pos rfl, h1]; rfl
  · obtain ⟨p1, p2, p3⟩ := param_spec (prun par0 ops) q w
    rw [if_neg (by simp [hq])] at p1 p2
    rw [if_neg (by simp [hq])] at p3
    generalize iluImageParameter (prun par0 ops) q w = t at *
    cases t; simp only at p1 p2 p3; subst p1 p2 p3; rfl
  · obtain ⟨_, _, p3⟩ := param_spec (prun par0 ops) q w
    rw [if_pos hq] at p3; exact p3

example : lastParam 0x2600 0x2601 [.param 0x2600 0x2603, .param 0x0700 0x0702, .param 0x2600 5, .get 0] = 0x2603 := by decide

/-! ### C127 -/

/-- The table entry a language constant selects. -/
def chosen (l : Nat) : Option Lang := iluErrorStrings[l - 0x0800]?

theorem set_lang (s : Txt) (l : Nat) :
    (0x0800 ≤ l ∧ l ≤ 0x0807 → ∃ g, chosen l = some g ∧ iluSetLanguage s l = .ok (true, ⟨some g, some g, some g, s.errs⟩)) ∧
    (¬(0x0800 ≤ l ∧ l ≤ 0x0807) → iluSetLanguage s l = .ok (false, { s with errs := 0x0501 :: s.errs })) := by
  constructor
  · rintro ⟨h1, h2⟩
    have : l = 0x0800 ∨ l = 0x0801 ∨ l = 0x0802 ∨ l = 0x0803 ∨ l = 0x0804 ∨ l = 0x0805 ∨ l = 0x0806 ∨ l = 0x0807 := by omega
    rcases this with rfl | rfl | rfl | rfl | rfl | rfl | rfl | rfl <;> exact ⟨_, rfl, rfl⟩
  · intro h
    unfold iluSetLanguage
    rw [if_neg]
    · rfl
    · simp only [List.contains_iff_mem, List.mem_cons, List.not_mem_nil, or_false]
      omega

theorem lrun_spec (ls : List Nat) : ∀ (s : Txt) (l : Nat) (g : Lang), chosen l = some g → s.errors = some g → s.libErrors = some g →
    s.miscErrors = some g → ∃ t g', lrun s ls = .ok t ∧
      chosen (ls.foldl (fun v l => if 0x0800 ≤ l ∧ l ≤ 0x0807 then l else v) l) = some g' ∧ t.errors = some g' ∧ t.libErrors = some g' ∧
      t.miscErrors = some g' := by
  induction ls with
  | nil => intro s l g h h1 h2 h3; exact ⟨s, g, rfl, h, h1, h2, h3⟩
  | cons k ls ih =>
    intro s l g h h1 h2 h3
    simp only [lrun, List.foldl_cons]
    by_cases hk : 0x0800 ≤ k ∧ k ≤ 0x0807
    · obtain ⟨g2, c, e⟩ := (set_lang s k).1 hk
      rw [e, bind_ok, if_pos hk]
      exact ih _ k g2 c rfl rfl rfl
    · rw [(set_lang s k).2 hk, bind_ok, if_neg hk]
      exact ih _ l g h h1 h2 h3

/-- What `iluErrorString` returns when the three pointers are those of one language. -/
theorem string_spec {t : Txt} {g : Lang} (h1 : t.errors = some g) (h2 : t.libErrors = some g) (h3 : t.miscErrors = some g) (e : Nat) :
    ∃ m, iluErrorString t e = .ok m ∧ langOf m = g := by
  have hm : ∀ i, i < 2 → pick t.miscErrors miscTexts i = .ok (.misc g i) := by
    intro i hi
    rw [h3]; simp only [pick]
    rw [rd_of_some]; simp [miscTexts, hi]
  unfold iluErrorString
  by_cases c1 : e = IL_NO_ERROR
  · rw [if_pos c1, hm 0 (by omega)]; exact ⟨_, rfl, rfl⟩
  rw [if_neg c1]
  by_cases c2 : e = IL_UNKNOWN_ERROR
  · rw [if_pos c2, hm 1 (by omega)]; exact ⟨_, rfl, rfl⟩
  rw [if_neg c2]
  by_cases c3 : e ≥ IL_INVALID_ENUM ∧ e ≤ IL_FILE_READ_ERROR
  · rw [if_pos c3, h1]
    refine ⟨.err g (e - IL_INVALID_ENUM), ?_, rfl⟩
    simp only [pick]
    have : e - IL_INVALID_ENUM < 18 := by have := c3.2; simp only [IL_INVALID_ENUM, IL_FILE_READ_ERROR] at *; omega
    rw [rd_of_some]; simp [errTexts, this]
  rw [if_neg c3]
  by_cases c4 : e ≥ 0x05E1 ∧ e ≤ 0x05E7
  · rw [if_pos c4, h2]
    refine ⟨.lib g (e - 0x05E1), ?_, rfl⟩
    simp only [pick]
    have : e - 0x05E1 < 7 := by omega
    rw [rd_of_some]; simp [libTexts, this]
  rw [if_neg c4, hm 0 (by omega)]
  exact ⟨_, rfl, rfl⟩

/-- **C127 (in part).** After `iluInit` and any calls of `iluSetLanguage`, `iluErrorString` returns a text for every number, reading within its arrays, and
the text is in the language last accepted if that is English, Arabic, Dutch or Italian; a constant that is no language is refused
with `IL_INVALID_ENUM` and nothing else changes.  In English every documented error has its documented text.  Missing: the other four languages
(`C127_violated_order`), calls before `iluInit` (`C127_violated_init`) and errors without a text (`C127_violated_unlisted`). -/
theorem C127_language_partial (ls : List Nat) :
    ∃ s t, iluInit txt0 = .ok s ∧ lrun s ls = .ok t ∧
      (∀ e, ∃ m, iluErrorString t e = .ok m ∧
        ∀ g, (lastLang ls, g) ∈ languages → g ∈ [Lang.english, .arabic, .dutch, .italian] → langOf m = g) ∧
      (∀ l, ¬(0x0800 ≤ l ∧ l ≤ 0x0807) → iluSetLanguage t l = .ok (false, { t with errs := 0x0501 :: t.errs })) ∧
      (∀ l, 0x0800 ≤ l ∧ l ≤ 0x0807 → ∃ t', iluSetLanguage t l = .ok (true, t') ∧ t'.errs = t.errs) ∧
      (lastLang ls = 0x0800 → ∀ p ∈ errors, ∃ m, iluErrorString t p.1 = .ok m ∧ english m = some p.2) := by
  obtain ⟨t, g, e, hc, h1, h2, h3⟩ := lrun_spec ls ⟨some .english, some .english, some .english, []⟩ 0x0800 .english rfl rfl rfl rfl
  refine ⟨_, t, rfl, e, fun n => ?_, fun l hl => (set_lang t l).2 hl, fun l hl => ?_, fun hl p hp => ?_⟩
  · obtain ⟨m, hm, hg⟩ := string_spec h1 h2 h3 n
    refine ⟨m, hm, fun g' hg' hin => ?_⟩
    rw [hg]
    have hc' : chosen (lastLang ls) = some g := hc
    simp only [languages, List.mem_cons, List.not_mem_nil, or_false, Prod.mk.injEq] at hg'
    simp only [List.mem_cons, List.not_mem_nil, or_false] at hin
    rcases hg' with ⟨a, rfl⟩ | ⟨a, rfl⟩ | ⟨a, rfl⟩ | ⟨a, rfl⟩ | ⟨a, rfl⟩ | ⟨a, rfl⟩ | ⟨a, rfl⟩ | ⟨a, rfl⟩ <;> rw [a] at hc'
    all_goals first
      | (cases hc'; rfl)
      | (rcases hin with h | h | h | h <;> cases h)
  · obtain ⟨g2, _, e2⟩ := (set_lang t l).1 hl
    exact ⟨_, e2, rfl⟩
  · have hc' : chosen (lastLang ls) = some g := hc
    rw [hl] at hc'; cases hc'
    obtain ⟨a, b, c, es⟩ := t
    simp only at h1 h2 h3
    subst h1 h2 h3
    have : ∀ p ∈ errors, ∃ m, iluErrorString ⟨some .english, some .english, some .english, []⟩ p.1 = .ok m ∧ english m = some p.2 := by
      simp only [errors, List.forall_mem_cons, List.not_mem_nil, false_imp_iff, implies_true, and_true]
      exact ⟨⟨_, rfl, rfl⟩, ⟨_, rfl, rfl⟩, ⟨_, rfl, rfl⟩, ⟨_, rfl, rfl⟩, ⟨_, rfl, rfl⟩, ⟨_, rfl, rfl⟩, ⟨_, rfl, rfl⟩, ⟨_, rfl, rfl⟩,
        ⟨_, rfl, rfl⟩, ⟨_, rfl, rfl⟩, ⟨_, rfl, rfl⟩, ⟨_, rfl, rfl⟩, ⟨_, rfl, rfl⟩, ⟨_, rfl, rfl⟩, ⟨_, rfl, rfl⟩, ⟨_, rfl, rfl⟩,
        ⟨_, rfl, rfl⟩, ⟨_, rfl, rfl⟩, ⟨_, rfl, rfl⟩, ⟨_, rfl, rfl⟩, ⟨_, rfl, rfl⟩, ⟨_, rfl, rfl⟩, ⟨_, rfl, rfl⟩, ⟨_, rfl, rfl⟩,
        ⟨_, rfl, rfl⟩, ⟨_, rfl, rfl⟩, ⟨_, rfl, rfl⟩⟩
    obtain ⟨m, hm, ht⟩ := this p hp
    exact ⟨m, hm, ht⟩

example : lastLang [0x0805, 5, 0x0807, 0x0900] = 0x0807 ∧ (0x0807, Lang.italian) ∈ languages := by decide

/-- The full claim C127 is false: after `iluSetLanguage(ILU_GERMAN)` the texts are Spanish; Japanese, Spanish and French are also exchanged, because the arrays of
ilu_error.cpp:30-61 list the languages in another order than the constants of ilu.h:79-86. -/
theorem C127_violated_order :
    (∃ t m, lrun txt0 [0x0805] = .ok t ∧ iluErrorString t 0x0502 = .ok m ∧ langOf m = .spanish ∧ (0x0805, Lang.german) ∈ languages) ∧
    (∃ t m, lrun txt0 [0x0803] = .ok t ∧ iluErrorString t 0x0502 = .ok m ∧ langOf m = .french ∧ (0x0803, Lang.japanese) ∈ languages) ∧
    (∃ t m, lrun txt0 [0x0804] = .ok t ∧ iluErrorString t 0x0502 = .ok m ∧ langOf m = .japanese ∧ (0x0804, Lang.spanish) ∈ languages) ∧
    (∃ t m, lrun txt0 [0x0806] = .ok t ∧ iluErrorString t 0x0502 = .ok m ∧ langOf m = .german ∧ (0x0806, Lang.french) ∈ languages) :=
  ⟨⟨_, _, rfl, rfl, rfl, by decide⟩, ⟨_, _, rfl, rfl, rfl, by decide⟩, ⟨_, _, rfl, rfl, rfl, by decide⟩, ⟨_, _, rfl, rfl, rfl, by decide⟩⟩

/-- The full claim C127 is false: before `iluInit` the pointers are NULL and `iluErrorString` reads through them, whatever the number. -/
theorem C127_violated_init (e : Nat) : iluErrorString txt0 e = .error .nullDeref := by
  simp only [iluErrorString, pick, txt0]
  repeat' split
  all_goals rfl

/-- The full claim C127 is false: `ILUT_NOT_SUPPORTED` (0x550), which the toolkit records, has the text "no error". -/
theorem C127_violated_unlisted : ∃ s m, iluInit txt0 = .ok s ∧ iluErrorString s 0x0550 = .ok m ∧ english m = some "no error" :=
  ⟨_, _, rfl, rfl, rfl⟩

/-! ### C128 -/

theorem free_live {F : Type} {h : List (Blk F)} {a : Nat} {b : Blk F} (ha : h[a]? = some b) (hb : b ≠ .freed) :
    ifree h (some a) = .ok (h.set a .freed) := by
  simp only [ifree, ha]

theorem edges_ok {h : Nat} (ps : List (Int × Int)) : ∀ v : Int × Int, (0 ≤ v.2 ∧ v.2 < h) → (∀ p ∈ ps, 0 ≤ p.2 ∧ p.2 < h) → buildEdges h v ps = .ok () := by
  induction ps with
  | nil => intro v _ _; rfl
  | cons p ps ih =>
    intro v hv hp
    have h1 := hp p (by simp)
    rw [buildEdges, if_neg (by omega)]
    exact ih p h1 (fun q hq => hp q (by simp [hq]))

theorem getLastD_mem {α : Type} {l : List α} (h : l ≠ []) (d : α) : l.getLastD d ∈ l := by
  cases l with
  | nil => exact absurd rfl h
  | cons a l =>
    have e : (a :: l).getLastD d = (a :: l).getLast h := by simp [List.getLastD_eq_getLast?, List.getLast?_eq_some_getLast h]
    rw [e]; exact List.getLast_mem _

theorem fill_ok {w h : Nat} {ps : List (Int × Int)} (hne : ps ≠ []) (hy : ∀ p ∈ ps, 0 ≤ p.2)
    (hin : ps.any (fun p => p.1 ≥ w || p.2 ≥ h) = false) : buildEdges h (ps.getLastD (0, 0)) ps = .ok () := by
  have hb : ∀ p ∈ ps, 0 ≤ p.2 ∧ p.2 < h := by
    intro p hp
    have := List.any_eq_false.mp hin p hp
    simp only [ge_iff_le, Bool.or_eq_true, decide_eq_true_eq, not_or, Int.not_le] at this
    exact ⟨hy p hp, this.2⟩
  exact edges_ok ps _ (hb _ (getLastD_mem hne _)) hb

theorem any_iff {w h : Nat} {ps : List (Int × Int)} :
    ps.any (fun p => p.1 ≥ w || p.2 ≥ h) = false ↔ ∀ p ∈ ps, p.1 < w ∧ p.2 < h := by
  rw [List.any_eq_false]
  constructor
  · intro hp p hm
    have := hp p hm
    simp only [ge_iff_le, Bool.or_eq_true, decide_eq_true_eq, not_or, Int.not_le] at this
    exact this
  · intro hp p hm
    have := hp p hm
    simp only [ge_iff_le, Bool.or_eq_true, decide_eq_true_eq, not_or, Int.not_le]
    exact this

/-- The state of a program that only uses `iluRegioniv`. -/
def IsI {F : Type} (s : Reg F) (r : Option (List (Int × Int))) : Prop :=
  s.pf = none ∧ match r with
    | none => s.pi = none ∧ s.num = 0
    | some ps => 3 ≤ ps.length ∧ s.num = ps.length ∧ ∃ a, s.pi = some a ∧ s.heap[a]? = some (.ints ps)

/-- The state of a program that only uses `iluRegionfv`. -/
def IsF {F : Type} (s : Reg F) (r : Option (List (F × F))) : Prop :=
  s.pi = none ∧ match r with
    | none => s.pf = none ∧ s.num = 0
    | some ps => 3 ≤ ps.length ∧ s.num = ps.length ∧ ∃ a, s.pf = some a ∧ s.heap[a]? = some (.floats ps)

theorem iv_clear {F : Type} {s : Reg F} {r : Option (List (Int × Int))} (h : IsI s r) :
    ∃ h', ifree s.heap s.pi = .ok h' ∧ ifree h' s.pf = .ok h' := by
  obtain ⟨hf, hr⟩ := h
  cases r with
  | none => rw [hr.1, hf]; exact ⟨_, rfl, rfl⟩
  | some ps =>
    obtain ⟨_, _, a, ha, hb⟩ := hr
    rw [ha, hf, free_live hb (by simp)]
    exact ⟨_, rfl, rfl⟩

theorem iv_step {F : Type} {s : Reg F} {r : Option (List (Int × Int))} (h : IsI s r) (ps : Option (List (Int × Int))) :
    ∃ t, iluRegioniv s ps = .ok t ∧ IsI t (setTo r ps) := by
  obtain ⟨h', e1, e2⟩ := iv_clear h
  cases ps with
  | none =>
    simp only [iluRegioniv, e1, e2, bind_ok]
    exact ⟨_, rfl, h.1, rfl, rfl⟩
  | some ps =>
    simp only [iluRegioniv, setTo]
    by_cases c1 : ps.length = 0
    · rw [if_pos c1, if_pos c1]
      simp only [e1, e2, bind_ok]
      exact ⟨_, rfl, h.1, rfl, rfl⟩
    rw [if_neg c1, if_neg c1]
    by_cases c2 : ps.length < 3
    · rw [if_pos c2, if_pos c2]
      exact ⟨_, rfl, h⟩
    rw [if_neg c2, if_neg c2]
    simp only [e1, e2, bind_ok]
    exact ⟨_, rfl, h.1, by omega, rfl, h'.length, rfl, by simp⟩

theorem fv_clear {F : Type} {s : Reg F} {r : Option (List (F × F))} (h : IsF s r) :
    ∃ h', ifree s.heap s.pi = .ok s.heap ∧ ifree s.heap s.pf = .ok h' := by
  obtain ⟨hi, hr⟩ := h
  cases r with
  | none => rw [hr.1, hi]; exact ⟨_, rfl, rfl⟩
  | some ps =>
    obtain ⟨_, _, a, ha, hb⟩ := hr
    rw [ha, hi, free_live hb (by simp)]
    exact ⟨_, rfl, rfl⟩

theorem fv_step {F : Type} {s : Reg F} {r : Option (List (F × F))} (h : IsF s r) (ps : Option (List (F × F))) :
    ∃ t, iluRegionfv s ps = .ok t ∧ IsF t (setTo r ps) := by
  obtain ⟨h', e1, e2⟩ := fv_clear h
  cases ps with
  | none =>
    simp only [iluRegionfv, e1, e2, bind_ok]
    exact ⟨_, rfl, h.1, rfl, rfl⟩
  | some ps =>
    simp only [iluRegionfv, setTo]
    by_cases c1 : ps.length = 0
    · rw [if_pos c1, if_pos c1]
      simp only [e1, e2, bind_ok]
      exact ⟨_, rfl, h.1, rfl, rfl⟩
    rw [if_neg c1, if_neg c1]
    by_cases c2 : ps.length < 3
    · rw [if_pos c2, if_pos c2]
      exact ⟨_, rfl, h⟩
    rw [if_neg c2, if_neg c2]
    simp only [e1, e2, bind_ok]
    exact ⟨_, rfl, h.1, by omega, rfl, h'.length, rfl, by simp⟩

theorem use_i {F : Type} (conv : Nat → F → Int) {s : Reg F} {r : Option (List (Int × Int))} (h : IsI s r)
    (hy : ∀ ps, r = some ps → ∀ p ∈ ps, 0 ≤ p.2) (w ht : Nat) : iScanFill conv s w ht = .ok (polygon w ht r, s) := by
  obtain ⟨hf, hr⟩ := h
  unfold iScanFill
  cases r with
  | none => rw [if_pos (Or.inr hr.2)]; rfl
  | some ps =>
    obtain ⟨h3, hn, a, ha, hb⟩ := hr
    rw [if_neg (by rw [ha]; simp only [reduceCtorEq, false_and, false_or]; omega)]
    simp only [hf, ha, readI, hb, bind_ok, polygon]
    have hne : ps ≠ [] := by rintro rfl; simp at h3
    by_cases c : ps.any (fun p => p.1 ≥ w || p.2 ≥ ht) = true
    · rw [if_pos c, if_neg (fun hh => by rw [any_iff.mpr hh] at c; cases c)]; rfl
    · rw [if_neg c]
      rw [Bool.not_eq_true] at c
      rw [if_pos (any_iff.mp c), fill_ok hne (hy ps rfl) c]; rfl

theorem use_f {F : Type} (conv : Nat → F → Int) {s : Reg F} {r : Option (List (F × F))} (h : IsF s r) (w ht : Nat)
    (hy : ∀ ps, r = some ps → ∀ p ∈ ps, 0 ≤ conv ht p.2) :
    iScanFill conv s w ht = .ok (polygon w ht (r.map (List.map fun p => (conv w p.1, conv ht p.2))), s) := by
  obtain ⟨hi, hr⟩ := h
  have hs : { s with pi := none } = s := by obtain ⟨a, b, c, d, e⟩ := s; simp only at hi; subst hi; rfl
  unfold iScanFill
  cases r with
  | none => rw [if_pos (Or.inr hr.2)]; rfl
  | some ps =>
    obtain ⟨h3, hn, a, ha, hb⟩ := hr
    rw [if_neg (by rw [ha]; simp only [reduceCtorEq, and_false, false_or]; omega)]
    simp only [ha, readF, hb, bind_ok, polygon, Option.map_some]
    rw [ha] at hs
    have hs' : ({ heap := s.heap, pi := none, pf := some a, num := s.num, errs := s.errs } : Reg F) = s := hs
    simp only [hs']
    generalize hqs : ps.map (fun p => (conv w p.1, conv ht p.2)) = qs
    have hne : qs ≠ [] := by rintro rfl; rw [List.map_eq_nil_iff] at hqs; subst hqs; simp at h3
    have hyq : ∀ q ∈ qs, 0 ≤ q.2 := by
      intro q hq
      rw [← hqs, List.mem_map] at hq
      obtain ⟨p, hp, rfl⟩ := hq
      exact hy ps rfl p hp
    by_cases c : qs.any (fun p => p.1 ≥ w || p.2 ≥ ht) = true
    · rw [if_pos c, if_neg (fun hh => by rw [any_iff.mpr hh] at c; cases c)]; rfl
    · rw [if_neg c]
      rw [Bool.not_eq_true] at c
      rw [if_pos (any_iff.mp c), fill_ok hne hyq c]; rfl

/-- **C128, whole numbers (in part).** After any history of `iluRegioniv` calls, whose points have no negative second coordinate, and of operations that use the
region, an operation on an image of any size accesses no freed or foreign memory and works in the region last set, if its points are within the image.
Missing: programs that also use `iluRegionfv` (`C128_violated_mixed`, `C128_violated_freed`), negative coordinates (`C128_violated_negative`), and how the mask is made from the
points. -/
theorem C128_region_i_partial {F : Type} (conv : Nat → F → Int) (ops : List (ROp F))
    (hk : ∀ o ∈ ops, ∀ ps, o ≠ .fv ps) (hy : ∀ ps, .iv (some ps) ∈ ops → ∀ p ∈ ps, 0 ≤ p.2) (w h : Nat) :
    ∃ s, rrun conv (reg0 F) ops = .ok s ∧ iScanFill conv s w h = .ok (polygon w h (regionI ops), s) := by
  have gen : ∀ (ops : List (ROp F)) (s : Reg F) (r : Option (List (Int × Int))), IsI s r → (∀ ps, r = some ps → ∀ p ∈ ps, 0 ≤ p.2) →
      (∀ o ∈ ops, ∀ ps, o ≠ .fv ps) → (∀ ps, .iv (some ps) ∈ ops → ∀ p ∈ ps, 0 ≤ p.2) →
      ∃ t, rrun conv s ops = .ok t ∧ IsI t (ops.foldl (fun r o => match o with
        | .iv ps => setTo r ps
        | _ => r) r) ∧ (∀ ps, ops.foldl (fun r o => match o with
        | .iv ps => setTo r ps
        | _ => r) r = some ps → ∀ p ∈ ps, 0 ≤ p.2) := by
    intro ops
    induction ops with
    | nil => intro s r h1 h2 _ _; exact ⟨s, rfl, h1, h2⟩
    | cons o ops ih =>
      intro s r h1 h2 hk hy
      have hk' : ∀ o ∈ ops, ∀ ps, o ≠ .fv ps := fun o' h' => hk o' (by simp [h'])
      have hy' : ∀ ps, .iv (some ps) ∈ ops → ∀ p ∈ ps, 0 ≤ p.2 := fun ps h' => hy ps (by simp [h'])
      simp only [rrun, List.foldl_cons]
      cases o with
      | fv ps => exact absurd rfl (hk _ (by simp) ps)
      | iv ps =>
        obtain ⟨t, e, ht⟩ := iv_step h1 ps
        simp only [rstep, e, bind_ok]
        refine ih t _ ht ?_ hk' hy'
        intro qs hq
        cases ps with
        | none => cases hq
        | some ps =>
          simp only [setTo] at hq
          split at hq
          · cases hq
          · split at hq
            · exact h2 qs hq
            · cases hq; exact hy qs (by simp)
      | use w h =>
        simp only [rstep, use_i conv h1 h2 w h]
        exact ih s r h1 h2 hk' hy'
  obtain ⟨s, e, h1, h2⟩ := gen ops (reg0 F) none ⟨rfl, rfl, rfl⟩ (fun _ h => by cases h) hk hy
  exact ⟨s, e, use_i conv h1 h2 w h⟩

/-- **C128, fractions (in part).** The same for histories of `iluRegionfv` calls; `conv n x` is the whole number that `n * x` is cut to, and is supposed not to be negative
for the second coordinates given. -/
theorem C128_region_f_partial {F : Type} (conv : Nat → F → Int) (ops : List (ROp F))
    (hk : ∀ o ∈ ops, ∀ ps, o ≠ .iv ps) (hy : ∀ ps, .fv (some ps) ∈ ops → ∀ p ∈ ps, ∀ n, 0 ≤ conv n p.2) (w h : Nat) :
    ∃ s, rrun conv (reg0 F) ops = .ok s ∧
      iScanFill conv s w h = .ok (polygon w h ((regionF ops).map (List.map fun p => (conv w p.1, conv h p.2))), s) := by
  have gen : ∀ (ops : List (ROp F)) (s : Reg F) (r : Option (List (F × F))), IsF s r → (∀ ps, r = some ps → ∀ p ∈ ps, ∀ n, 0 ≤ conv n p.2) →
      (∀ o ∈ ops, ∀ ps, o ≠ .iv ps) → (∀ ps, .fv (some ps) ∈ ops → ∀ p ∈ ps, ∀ n, 0 ≤ conv n p.2) →
      ∃ t, rrun conv s ops = .ok t ∧ IsF t (ops.foldl (fun r o => match o with
        | .fv ps => setTo r ps
        | _ => r) r) ∧ (∀ ps, ops.foldl (fun r o => match o with
        | .fv ps => setTo r ps
        | _ => r) r = some ps → ∀ p ∈ ps, ∀ n, 0 ≤ conv n p.2) := by
    intro ops
    induction ops with
    | nil => intro s r h1 h2 _ _; exact ⟨s, rfl, h1, h2⟩
    | cons o ops ih =>
      intro s r h1 h2 hk hy
      have hk' : ∀ o ∈ ops, ∀ ps, o ≠ .iv ps := fun o' h' => hk o' (by simp [h'])
      have hy' : ∀ ps, .fv (some ps) ∈ ops → ∀ p ∈ ps, ∀ n, 0 ≤ conv n p.2 := fun ps h' => hy ps (by simp [h'])
      simp only [rrun, List.foldl_cons]
      cases o with
      | iv ps => exact absurd rfl (hk _ (by simp) ps)
      | fv ps =>
        obtain ⟨t, e, ht⟩ := fv_step h1 ps
        simp only [rstep, e, bind_ok]
        refine ih t _ ht ?_ hk' hy'
        intro qs hq
        cases ps with
        | none => cases hq
        | some ps =>
          simp only [setTo] at hq
          split at hq
          · cases hq
          · split at hq
            · exact h2 qs hq
            · cases hq; exact hy qs (by simp)
      | use w h =>
        simp only [rstep, use_f conv h1 w h (fun ps e p hp => h2 ps e p hp h)]
        exact ih s r h1 h2 hk' hy'
  obtain ⟨s, e, h1, h2⟩ := gen ops (reg0 F) none ⟨rfl, rfl, rfl⟩ (fun _ h => by cases h) hk hy
  exact ⟨s, e, use_f conv h1 w h (fun ps e p hp => h2 ps e p hp h)⟩

/-- A triangle. -/
def exTri : List (Int × Int) := [(0, 0), (3, 0), (1, 2)]

example : polygon 4 4 (regionI (F := Int) [.iv (some exTri), .use 4 4, .iv (some [(0, 0)])]) = some exTri ∧
    polygon 2 4 (regionI (F := Int) [.iv (some exTri)]) = none := by decide

/-- The full claim C128 is false: `iluRegioniv`, then `iluRegionfv` twice frees the first region twice, because `RegionPointsi` is not reset (lines 25-28, 35-36). -/
theorem C128_violated_mixed (conv : Nat → Int → Int) :
    rrun conv (reg0 Int) [.iv (some exTri), .fv (some exTri), .fv (some exTri)] = .error .doubleFree := rfl

/-- The full claim C128 is false: after `iluRegionfv` and then `iluRegioniv` an operation that uses the region reads the freed points of the first. -/
theorem C128_violated_freed (conv : Nat → Int → Int) :
    rrun conv (reg0 Int) [.fv (some exTri), .iv (some exTri), .use 4 4] = .error .useAfterFree := rfl

/-- The full claim C128 is false: a point above the image is not refused, and the array of edges is accessed before its beginning (only the upper bounds are tested, line 247). -/
theorem C128_violated_negative : rrun (fun _ (x : Int) => x) (reg0 Int) [.iv (some [(0, -1), (3, 0), (1, 2)]), .use 4 4] = .error .oobRead := rfl

/-! ### C129 -/

/-- **C129, making and deleting (in part).** After any history that binds no deleted name, `iluGenImage` returns a name that did not exist, exists now and is the bound one, every
other image is untouched, and `iluDeleteImage` of it then makes it cease to exist.  Missing: `iluLoadImage` (`C129_violated_load`). -/
theorem C129_gen_image_partial (ops : List Stack.Op) (tr : List Stack.Spec.Event) (s : Stack.Sys)
    (h : Stack.run Stack.initial ops = .ok (tr, s)) (hd : Stack.Spec.Disciplined tr) :
    ∃ n s', iluGenImage s = .ok (n, s') ∧ n ≠ 0 ∧ Stack.ilIsImage s n = .ok false ∧ Stack.ilIsImage s' n = .ok true ∧ s'.curName = n ∧
      s'.stack[n]? = some s'.cur ∧ (∀ m, m ≠ n → (Stack.ilIsImage s' m = .ok true ↔ Stack.ilIsImage s m = .ok true) ∧ Stack.Same s s' m) ∧
      ∃ s'', iluDeleteImage s' n = .ok s'' ∧ Stack.ilIsImage s'' n = .ok false ∧ s''.curName = 0 := by
  obtain ⟨L, I, T⟩ := Stack.tidy_of_disciplined h hd
  obtain ⟨ns, s1, L1, e1, len, I1, p1, l1, _, _, t1, m1, _, _⟩ := Stack.genLoop_spec 1 s L I
  obtain ⟨T1, t2, _⟩ := t1 T
  match ns, len with
  | [n], _ =>
    have hn := p1 n (by simp)
    obtain ⟨s2, e2, I2, l2, _, _, m2, c2, d2⟩ := Stack.bind_spec I1 n
    have hlive : Stack.SlotLive s2 n := (l2 n).mpr (Or.inl rfl)
    obtain ⟨s3, e3, I3, l3, _, _, _, c3, _⟩ := Stack.delete1_spec I2 n
    have hnot : Stack.ilIsImage s n = .ok false := by
      obtain ⟨h1, h2⟩ := Stack.isImage_eq I n
      rcases h2 with h2 | h2
      · exact absurd (h1.mp h2).2 (t2 n (by simp)).1
      · exact h2
    refine ⟨n, s2, ?_, by omega, hnot, (Stack.isImage_eq I2 n).1.mpr ⟨by omega, hlive⟩, c2, d2, fun m hm => ⟨?_, ?_⟩, s3, ?_, ?_, ?_⟩
    · have eg : Stack.ilGenImages s 1 = .ok ([n], s1) := by
        rw [Stack.ilGenImages, if_neg (by omega), if_neg I.ne_nil]; exact e1
      simp only [iluGenImage, eg, bind_ok]
      show (Stack.ilBindImage s1 n >>= fun s => pure (n, s)) = _
      rw [e2]; rfl
    · rw [(Stack.isImage_eq I2 m).1, (Stack.isImage_eq I m).1, l2, l1]
      simp [hm]
    · exact (m1 m (by simpa using hm)).trans (m2 m)
    · simp only [iluDeleteImage, Stack.ilDeleteImages, if_neg I2.ne_nil, Stack.deleteLoop, e3, bind_ok]
    · obtain ⟨h1, h2⟩ := Stack.isImage_eq I3 n
      rcases h2 with h2 | h2
      · have := (l3 n).mp (h1.mp h2).2
        exact absurd this.2 (by omega)
      · exact h2
    · exact (c3 c2 (by omega) hlive).1

/-- **C129, a file that cannot be loaded (in part).** After any history that binds no deleted name, `iluLoadImage` of such a file returns 0; the same images exist as before,
every one is untouched, and the same one is bound. -/
theorem C129_load_fails_partial (ops : List Stack.Op) (tr : List Stack.Spec.Event) (s : Stack.Sys)
    (h : Stack.run Stack.initial ops = .ok (tr, s)) (hd : Stack.Spec.Disciplined tr) :
    ∃ s', iluLoadImage s none = .ok (0, s') ∧ s'.curName = s.curName ∧ s'.cur = s.cur ∧
      ∀ m, (Stack.ilIsImage s' m = .ok true ↔ Stack.ilIsImage s m = .ok true) ∧ (Stack.ilIsImage s m = .ok true ∨ m = 0 → Stack.Same s s' m) := by
  obtain ⟨L, I, T⟩ := Stack.tidy_of_disciplined h hd
  obtain ⟨ns, s1, L1, e1, len, I1, p1, l1, _, _, t1, m1, c1, d1⟩ := Stack.genLoop_spec 1 s L I
  obtain ⟨T1, t2, _⟩ := t1 T
  match ns, len with
  | [n], _ =>
    have hn := p1 n (by simp)
    have hnl := (t2 n (by simp)).1
    obtain ⟨s3, e3, I3, l3, _, _, m3, c3, c4⟩ := Stack.delete1_spec I1 n
    have hcur : s1.curName ≠ n := by
      rw [d1]
      intro hc
      obtain ⟨_, q, _, _, h1 | h1⟩ := I.cur
      · rw [hc] at h1
        exact hnl ⟨q, h1⟩
      · rw [T.nil] at h1
        cases h1
    obtain ⟨d3, d4⟩ := c4 (.inl hcur)
    refine ⟨s3, ?_, by rw [d3, d1], by rw [d4, c1], fun m => ⟨?_, fun hm => ?_⟩⟩
    · have eg : Stack.ilGenImages s 1 = .ok ([n], s1) := by
        rw [Stack.ilGenImages, if_neg (by omega), if_neg I.ne_nil]; exact e1
      simp only [iluLoadImage, eg, bind_ok]
      rw [rd_of_some (v := n) rfl, bind_ok, if_neg (by omega)]
      simp only [Stack.ilDeleteImages, if_neg I1.ne_nil, Stack.deleteLoop, e3, bind_ok, pure_eq_ok]
    · rw [(Stack.isImage_eq I3 m).1, (Stack.isImage_eq I m).1, l3, l1]
      constructor
      · rintro ⟨h0, h1 | h1, h2⟩
        · simp at h1; omega
        · exact ⟨h0, h1⟩
      · rintro ⟨h0, h1⟩
        refine ⟨h0, .inr h1, .inl (fun e => hnl (e ▸ h1))⟩
    · have hmn : m ≠ n := by
        rcases hm with hm | hm
        · exact fun e => hnl (e ▸ ((Stack.isImage_eq I m).1.mp hm).2)
        · omega
      exact (m1 m (by simpa using hmn)).trans (m3 m (.inl hmn))

example : ∃ tr s, Stack.run Stack.initial [.gen 2, .bind 2, .write 7, .delete [3]] = .ok (tr, s) ∧ Stack.Spec.Disciplined tr := by
  obtain ⟨tr, s, L, e, I, _⟩ := Stack.run_spec [.gen 2, .bind 2, .write 7, .delete [3]] Stack.initial [] Stack.initial_inv
  have : (Stack.run Stack.initial [.gen 2, .bind 2, .write 7, .delete [3]] >>= fun r => pure r.1) =
      .ok [(.gen 2, [2, 3]), (.bind 2, []), (.write 7, []), (.delete [3], [])] := by decide +kernel
  rw [e] at this
  simp only [bind_ok, pure_eq_ok, Except.ok.injEq] at this
  refine ⟨tr, s, e, ?_⟩
  rw [this]
  simp [Stack.Spec.Disciplined, Stack.Spec.NeverRebinds]

/-- The contents of the image with the name `n`. -/
def payloadOf (s : Stack.Sys) (n : Nat) : Option Nat :=
  match s.stack[n]? with
  | some (some p) => match s.heap[p]? with
    | some (.live x) => some x.payload
    | _ => none
  | _ => none

/-- The full claim C129 is false: with image 2 bound and holding 5, `iluLoadImage` of a file whose contents are 9 returns the new name 3, but image 3 does not hold them and
image 2 is overwritten: the new image is never bound (ilu_main.cpp:61-65). -/
theorem C129_violated_load : (do
      let (_, s) ← Stack.run Stack.initial [.gen 1, .bind 2, .write 5]
      let (n, t) ← iluLoadImage s (some 9)
      pure (payloadOf s 2, n, payloadOf t 3, payloadOf t 2)) = .ok (some 5, 3, some 0, some 9) := by
  decide +kernel

end DevIL.IluMisc
