import Verif.Spec.Ilut
import Verif.Lemmas.States
set_option autoImplicit false
namespace DevIL.Ilut
open DevIL.States (toU32 toU8 toI32 toI32_toU32)
open DevIL.IlutSpec

def Inv (s : Sys) : Prop := s.stack.length = stackMax ∧ s.pos < stackMax

theorem inv_start : Inv start := by simp [Inv, start]

/-- The effect on the current attributes of a call other than push and pop. -/
def attrStep (a : Attr) : Op → Attr
  | .init => defaults
  | .able m f => (ableSlot a m f).getD a
  | .setInteger m v => ((setSlot a m v).getD none).getD a
  | .mipFunc n => { a with d3dMipLevels := n }
  | _ => a

theorem set_self {α : Type} {l : List α} {i : Nat} {a : α} (h : l[i]? = some a) : l.set i a = l := by
  apply List.ext_getElem?
  intro j
  rw [List.getElem?_set]
  by_cases e : i = j
  · subst e
    have := (List.getElem?_eq_some_iff.mp h).1
    simp [this, h]
    obtain ⟨_, h'⟩ := List.getElem?_eq_some_iff.mp h
    exact h'.symm
  · simp [e]

theorem rd_cur {s : Sys} (h : Inv s) : ∃ a, s.stack[s.pos]? = some a := by
  have : s.pos < s.stack.length := by rw [h.1]; exact h.2
  exact ⟨_, List.getElem?_eq_getElem this⟩

theorem wr_cur {s : Sys} (h : Inv s) (a : Attr) : wr s.stack s.pos a = .ok (s.stack.set s.pos a) :=
  wr_of_lt (by rw [h.1]; exact h.2)

theorem get_set_cur {s : Sys} (h : Inv s) (a : Attr) : (s.stack.set s.pos a)[s.pos]? = some a := by
  rw [List.getElem?_set]; simp [h.1]; exact h.2

theorem step_flat {s : Sys} {a : Attr} {o : Op} (h : Inv s) (ha : s.stack[s.pos]? = some a) (ho : Flat o) :
    ∃ es, step s o = .ok ⟨s.stack.set s.pos (attrStep a o), s.pos, es⟩ := by
  cases o with
  | init => exact ⟨s.errs, by simp only [step, ilutInit, wr_cur h, bind_ok, pure_eq_ok]; rfl⟩
  | able m f =>
    simp only [step, ilutAble, rd_of_some ha, bind_ok, attrStep]
    cases ableSlot a m f with
    | none => exact ⟨_, by rw [Option.getD_none, set_self ha]; rfl⟩
    | some a' => exact ⟨s.errs, by simp only [wr_cur h, bind_ok]; rfl⟩
  | setInteger m v =>
    simp only [step, ilutSetInteger, rd_of_some ha, bind_ok, attrStep]
    rcases setSlot a m v with _ | _ | a'
    · exact ⟨_, by rw [Option.getD_none, Option.getD_none, set_self ha]; rfl⟩
    · exact ⟨_, by rw [Option.getD_some, Option.getD_none, set_self ha]; rfl⟩
    · exact ⟨s.errs, by simp only [wr_cur h, bind_ok]; rfl⟩
  | mipFunc n => exact ⟨s.errs, by simp only [step, ilutD3D8MipFunc, rd_of_some ha, wr_cur h, bind_ok, pure_eq_ok]; rfl⟩
  | push b => exact ho.elim
  | pop => exact ho.elim
  | isEnabled m =>
    simp only [step, ilutIsEnabled, rd_of_some ha, bind_ok, attrStep]
    cases enabledSlot a m with
    | none => exact ⟨_, by rw [set_self ha]; rfl⟩
    | some a' => exact ⟨s.errs, by rw [set_self ha]; rfl⟩
  | getInteger m =>
    simp only [step, ilutGetInteger, rd_of_some ha, bind_ok, attrStep]
    cases getSlot a m with
    | none => exact ⟨_, by rw [set_self ha]; rfl⟩
    | some a' => exact ⟨s.errs, by rw [set_self ha]; rfl⟩

theorem inv_set {s : Sys} (h : Inv s) (a : Attr) (es : List Nat) : Inv ⟨s.stack.set s.pos a, s.pos, es⟩ :=
  ⟨by rw [List.length_set]; exact h.1, h.2⟩

theorem step_inv {s : Sys} (h : Inv s) (o : Op) : ∃ t, step s o = .ok t ∧ Inv t := by
  obtain ⟨a, ha⟩ := rd_cur h
  by_cases ho : Flat o
  · obtain ⟨es, e⟩ := step_flat h ha ho
    exact ⟨_, e, inv_set h _ _⟩
  · cases o with
    | push b =>
      simp only [step, ilutPushAttrib]
      by_cases hp : s.pos ≥ stackMax - 1
      · rw [if_pos hp]; exact ⟨_, rfl, h.1, by simp only [setErr, stackMax]; omega⟩
      · rw [if_neg hp]
        have hl : s.pos + 1 < s.stack.length := by rw [h.1]; have := h.2; simp only [stackMax] at *; omega
        rw [rd_of_some ha, bind_ok, rd_of_lt hl, bind_ok, wr_of_lt hl, bind_ok]
        refine ⟨_, rfl, by simp only [List.length_set]; exact h.1, by rw [← h.1]; exact hl⟩
    | pop =>
      refine ⟨_, rfl, ?_⟩
      simp only [ilutPopAttrib]
      split
      · exact ⟨h.1, (by decide : 0 < stackMax)⟩
      · exact ⟨h.1, by have := h.2; simp only at *; omega⟩
    | _ => exact (ho trivial).elim

theorem run_inv (ops : List Op) {s : Sys} (h : Inv s) : ∃ t, run s ops = .ok t ∧ Inv t := by
  induction ops generalizing s with
  | nil => exact ⟨s, rfl, h⟩
  | cons o ops ih =>
    obtain ⟨t, ht, hi⟩ := step_inv h o
    obtain ⟨u, hu, hi'⟩ := ih hi
    exact ⟨u, by simp only [run, ht, bind_ok, hu], hi'⟩

theorem run_flat (ops : List Op) {s : Sys} {a : Attr} (h : Inv s) (ha : s.stack[s.pos]? = some a) (hf : ∀ o ∈ ops, Flat o) :
    ∃ es, run s ops = .ok ⟨s.stack.set s.pos (ops.foldl attrStep a), s.pos, es⟩ := by
  induction ops generalizing s a with
  | nil => exact ⟨s.errs, by rw [List.foldl_nil, set_self ha]; rfl⟩
  | cons o ops ih =>
    obtain ⟨es, e⟩ := step_flat h ha (hf o (by simp))
    obtain ⟨es', e'⟩ := ih (inv_set h (attrStep a o) es) (get_set_cur h _) (fun o' h' => hf o' (by simp [h']))
    refine ⟨es', ?_⟩
    simp only [run, e, bind_ok, e', List.foldl_cons, List.set_set]

theorem run_append (s : Sys) (xs ys : List Op) : run s (xs ++ ys) = run s xs >>= fun t => run t ys := by
  induction xs generalizing s with
  | nil => rfl
  | cons o xs ih =>
    simp only [List.cons_append, run]
    cases step s o with
    | error e => rfl
    | ok t => simp only [bind_ok]; exact ih t

/-! ### What `ilutSetInteger` stores -/

attribute [local simp] ILUT_PALETTE_MODE ILUT_OPENGL_CONV ILUT_D3D_MIPLEVELS ILUT_MAXTEX_WIDTH ILUT_MAXTEX_HEIGHT ILUT_MAXTEX_DEPTH
  ILUT_GL_USE_S3TC ILUT_GL_GEN_S3TC ILUT_FORCE_INTEGER_FORMAT ILUT_S3TC_FORMAT ILUT_D3D_POOL ILUT_D3D_ALPHA_KEY_COLOR
  ILUT_GL_AUTODETECT_TEXTURE_TARGET ILUT_VERSION_NUM IL_VERSION_NUM IL_DXT1 IL_DXT5

theorem set_none {a : Attr} {m : Nat} {w : Int} (h : m ∉ integers) : setSlot a m w = none := by
  simp only [integers, List.mem_cons, List.not_mem_nil, or_false, not_or] at h
  simp [setSlot, h]

/-- The attributes after `ilutSetInteger(m, w)`. -/
def Stored (a : Attr) (m : Nat) (w : Int) (b : Attr) : Prop :=
  b = a ∧ accepts m w = false ∨
  m = 0x0705 ∧ (1798 ≤ w ∧ w ≤ 1802) ∧ b = { a with ilutDXTCFormat := toU32 w } ∨
  m = 0x0705 ∧ ¬(1798 ≤ w ∧ w ≤ 1802) ∧ b = { a with maxTexW := w } ∨
  m = 0x0630 ∧ 1 ≤ w ∧ b = { a with maxTexW := w } ∨
  m = 0x0631 ∧ 1 ≤ w ∧ b = { a with maxTexH := w } ∨
  m = 0x0632 ∧ 1 ≤ w ∧ b = { a with maxTexD := w } ∨
  m = 0x0634 ∧ (w = 0 ∨ w = 1) ∧ b = { a with ilutUseS3TC := toU8 w } ∨
  m = 0x0635 ∧ (w = 0 ∨ w = 1) ∧ b = { a with ilutGenS3TC := toU8 w } ∨
  m = 0x0807 ∧ (w = 0 ∨ w = 1) ∧ b = { a with ilutAutodetectTextureTarget := toU8 w } ∨
  m = 0x0620 ∧ 0 ≤ w ∧ b = { a with d3dMipLevels := toU32 w } ∨
  m = 0x0707 ∧ b = { a with d3dAlphaKeyColor := w } ∨
  m = 0x0706 ∧ 0 ≤ w ∧ w ≤ 2 ∧ b = { a with d3dPool := toU32 w }

theorem stored (a : Attr) (m : Nat) (w : Int) : Stored a m w (attrStep a (.setInteger m w)) := by
  simp only [attrStep]
  by_cases hm : m ∈ integers
  · simp only [integers, List.mem_cons, List.not_mem_nil, or_false] at hm
    rcases hm with rfl | rfl | rfl | rfl | rfl | rfl | rfl | rfl | rfl | rfl
    · by_cases c : 1798 ≤ w ∧ w ≤ 1802
      · have e : setSlot a 0x0705 w = some (some { a with ilutDXTCFormat := toU32 w }) := by simp [setSlot, c]
        rw [e]; simp [Stored, c]
      · by_cases d : 1 ≤ w
        · have e : setSlot a 0x0705 w = some (some { a with maxTexW := w }) := by simp [setSlot, c, d]
          rw [e]; simp [Stored, c]
        · have e : setSlot a 0x0705 w = some none := by simp [setSlot, c, d]
          rw [e]; left; exact ⟨rfl, by simp [accepts, c]⟩
    · by_cases d : 1 ≤ w
      · have e : setSlot a 0x0630 w = some (some { a with maxTexW := w }) := by simp [setSlot, d]
        rw [e]; simp [Stored, d]
      · have e : setSlot a 0x0630 w = some none := by simp [setSlot, d]
        rw [e]; left; exact ⟨rfl, by simp [accepts]; omega⟩
    · by_cases d : 1 ≤ w
      · have e : setSlot a 0x0631 w = some (some { a with maxTexH := w }) := by simp [setSlot, d]
        rw [e]; simp [Stored, d]
      · have e : setSlot a 0x0631 w = some none := by simp [setSlot, d]
        rw [e]; left; exact ⟨rfl, by simp [accepts]; omega⟩
    · by_cases d : 1 ≤ w
      · have e : setSlot a 0x0632 w = some (some { a with maxTexD := w }) := by simp [setSlot, d]
        rw [e]; simp [Stored, d]
      · have e : setSlot a 0x0632 w = some none := by simp [setSlot, d]
        rw [e]; left; exact ⟨rfl, by simp [accepts]; omega⟩
    · by_cases d : w = 1 ∨ w = 0
      · have e : setSlot a 0x0634 w = some (some { a with ilutUseS3TC := toU8 w }) := by simp [setSlot, d]
        rw [e]; simp [Stored, d.symm]
      · have e : setSlot a 0x0634 w = some none := by simp [setSlot, d]
        rw [e]; left; exact ⟨rfl, by simp [accepts]; omega⟩
    · by_cases d : w = 1 ∨ w = 0
      · have e : setSlot a 0x0635 w = some (some { a with ilutGenS3TC := toU8 w }) := by simp [setSlot, d]
        rw [e]; simp [Stored, d.symm]
      · have e : setSlot a 0x0635 w = some none := by simp [setSlot, d]
        rw [e]; left; exact ⟨rfl, by simp [accepts]; omega⟩
    · by_cases d : w = 1 ∨ w = 0
      · have e : setSlot a 0x0807 w = some (some { a with ilutAutodetectTextureTarget := toU8 w }) := by simp [setSlot, d]
        rw [e]; simp [Stored, d.symm]
      · have e : setSlot a 0x0807 w = some none := by simp [setSlot, d]
        rw [e]; left; exact ⟨rfl, by simp [accepts]; omega⟩
    · by_cases d : 0 ≤ w
      · have e : setSlot a 0x0620 w = some (some { a with d3dMipLevels := toU32 w }) := by simp [setSlot, d]
        rw [e]; simp [Stored, d]
      · have e : setSlot a 0x0620 w = some none := by simp [setSlot, d]
        rw [e]; left; exact ⟨rfl, by simp [accepts]; omega⟩
    · have e : setSlot a 0x0707 w = some (some { a with d3dAlphaKeyColor := w }) := by simp [setSlot]
      rw [e]; simp [Stored]
    · by_cases d : 0 ≤ w ∧ w ≤ 2
      · have e : setSlot a 0x0706 w = some (some { a with d3dPool := toU32 w }) := by simp [setSlot, d]
        rw [e]; simp [Stored, d]
      · have e : setSlot a 0x0706 w = some none := by simp [setSlot, d]
        rw [e]; left; exact ⟨rfl, by simp [accepts]; omega⟩
  · rw [set_none hm]
    left
    refine ⟨rfl, ?_⟩
    simp only [integers, List.mem_cons, List.not_mem_nil, or_false, not_or] at hm
    simp [accepts, hm]

/-! ### Switches -/

theorem enabled_step {a : Attr} {m v : Nat} {o : Op} (hm : m ∈ switches) (hv : enabledSlot a m = some v) :
    enabledSlot (attrStep a o) m = some ((toldSwitch m o).getD v) := by
  simp only [switches, List.mem_cons, List.not_mem_nil, or_false] at hm
  cases o with
  | init => rcases hm with rfl | rfl | rfl | rfl | rfl | rfl <;> rfl
  | able m' f =>
    simp only [attrStep, toldSwitch]
    by_cases e : m' = m
    · subst e
      rcases hm with rfl | rfl | rfl | rfl | rfl | rfl <;> rfl
    · rw [if_neg e, Option.getD_none, ← hv]
      simp only [ableSlot]
      repeat' split
      all_goals simp only [Option.getD_some, Option.getD_none]
      all_goals rcases hm with rfl | rfl | rfl | rfl | rfl | rfl <;>
        first | rfl | (subst_vars; exact absurd rfl e)
  | setInteger m' w =>
    have hst := stored a m' w
    generalize attrStep a (.setInteger m' w) = b at hst
    simp only [toldSwitch]
    rcases hst with ⟨rfl, h⟩ | ⟨rfl, h, rfl⟩ | ⟨rfl, h, rfl⟩ | ⟨rfl, h, rfl⟩ | ⟨rfl, h, rfl⟩ | ⟨rfl, h, rfl⟩ | ⟨rfl, h, rfl⟩ | ⟨rfl, h, rfl⟩ |
      ⟨rfl, h, rfl⟩ | ⟨rfl, h, rfl⟩ | ⟨rfl, rfl⟩ | ⟨rfl, h, h', rfl⟩
    · rw [if_neg]
      · exact hv
      · rintro ⟨rfl, h1, h2⟩
        simp only [List.mem_cons, List.not_mem_nil, or_false] at h1
        rcases h1 with rfl | rfl | rfl <;> rcases h2 with rfl | rfl <;> exact absurd h (by decide)
    all_goals rcases hm with rfl | rfl | rfl | rfl | rfl | rfl
    all_goals first | exact hv | skip
    all_goals rcases h with rfl | rfl <;> rfl
  | _ => exact hv

theorem enabled_fold (ops : List Op) {a : Attr} {m v : Nat} (hm : m ∈ switches) (hv : enabledSlot a m = some v) :
    enabledSlot (ops.foldl attrStep a) m = some (lastSwitch m v ops) := by
  induction ops generalizing a v with
  | nil => exact hv
  | cons o ops ih => exact ih (enabled_step hm hv)

theorem enabled_some {a : Attr} {m : Nat} (hm : m ∈ switches) : ∃ v, enabledSlot a m = some v := by
  simp only [switches, List.mem_cons, List.not_mem_nil, or_false] at hm
  rcases hm with rfl | rfl | rfl | rfl | rfl | rfl <;> exact ⟨_, rfl⟩

theorem enabled_none {a : Attr} {m f : Nat} (hm : m ∉ switches) : enabledSlot a m = none ∧ ableSlot a m f = none := by
  simp only [switches, List.mem_cons, List.not_mem_nil, or_false, not_or] at hm
  simp [ableSlot, enabledSlot, hm]

/-! ### Integers -/

theorem g0630 (a : Attr) : getSlot a 0x0630 = some a.maxTexW := rfl
theorem g0631 (a : Attr) : getSlot a 0x0631 = some a.maxTexH := rfl
theorem g0632 (a : Attr) : getSlot a 0x0632 = some a.maxTexD := rfl
theorem g0634 (a : Attr) : getSlot a 0x0634 = some (a.ilutUseS3TC : Int) := rfl
theorem g0635 (a : Attr) : getSlot a 0x0635 = some (a.ilutUseS3TC : Int) := rfl
theorem g0705 (a : Attr) : getSlot a 0x0705 = some (toI32 a.ilutDXTCFormat) := rfl
theorem g0807 (a : Attr) : getSlot a 0x0807 = some (a.ilutAutodetectTextureTarget : Int) := rfl
theorem g0620 (a : Attr) : getSlot a 0x0620 = some (toI32 a.d3dMipLevels) := rfl
theorem g0707 (a : Attr) : getSlot a 0x0707 = some a.d3dAlphaKeyColor := rfl
theorem g0706 (a : Attr) : getSlot a 0x0706 = some (toI32 a.d3dPool) := rfl

theorem get_init {a : Attr} {m : Nat} {v : Int} (hm : m ∈ integers) (hg : m ≠ 0x0635) (hv : getSlot a m = some v) :
    getSlot (attrStep a .init) m = some ((toldInt m .init).getD v) := by
  simp only [integers, List.mem_cons, List.not_mem_nil, or_false] at hm
  rcases hm with rfl | rfl | rfl | rfl | rfl | rfl | rfl | rfl | rfl | rfl <;> first | rfl | exact absurd rfl hg

theorem get_able (m' f : Nat) {a : Attr} {m : Nat} {v : Int} (hm : m ∈ integers) (hg : m ≠ 0x0635) (hv : getSlot a m = some v) :
    getSlot (attrStep a (.able m' f)) m = some ((toldInt m (.able m' f)).getD v) := by
  simp only [integers, List.mem_cons, List.not_mem_nil, or_false] at hm
  simp only [attrStep, toldInt]
  by_cases e : m' = m
  · subst e
    rcases hm with rfl | rfl | rfl | rfl | rfl | rfl | rfl | rfl | rfl | rfl <;> first | rfl | exact hv | exact absurd rfl hg
  · rw [if_neg (by simp [e]), Option.getD_none, ← hv]
    simp only [ableSlot]
    repeat' split
    all_goals simp only [Option.getD_some, Option.getD_none]
    all_goals rcases hm with rfl | rfl | rfl | rfl | rfl | rfl | rfl | rfl | rfl | rfl <;>
      first | rfl | (subst_vars; exact absurd rfl e) | exact absurd rfl hg

theorem get_set (m' : Nat) (w : Int) {a : Attr} {m : Nat} {v : Int} (hm : m ∈ integers) (hg : m ≠ 0x0635) (hty : Typed (.setInteger m' w))
    (hs : m' = 0x0705 → 0x0706 ≤ w ∧ w ≤ 0x070A) (hv : getSlot a m = some v) :
    getSlot (attrStep a (.setInteger m' w)) m = some ((toldInt m (.setInteger m' w)).getD v) := by
  simp only [integers, List.mem_cons, List.not_mem_nil, or_false] at hm
  have hst := stored a m' w
  generalize attrStep a (.setInteger m' w) = b at hst
  simp only [toldInt]
  simp only [Typed] at hty
  rcases hst with ⟨rfl, h⟩ | ⟨rfl, h, rfl⟩ | ⟨rfl, h, rfl⟩ | ⟨rfl, h, rfl⟩ | ⟨rfl, h, rfl⟩ | ⟨rfl, h, rfl⟩ | ⟨rfl, h, rfl⟩ | ⟨rfl, h, rfl⟩ |
    ⟨rfl, h, rfl⟩ | ⟨rfl, h, rfl⟩ | ⟨rfl, rfl⟩ | ⟨rfl, h, h', rfl⟩
  · rw [if_neg]
    · exact hv
    · rintro ⟨rfl, h1⟩; rw [h] at h1; cases h1
  case inr.inr.inl => exact absurd (hs rfl) h
  all_goals rcases hm with rfl | rfl | rfl | rfl | rfl | rfl | rfl | rfl | rfl | rfl
  all_goals simp only [g0630, g0631, g0632, g0634, g0635, g0705, g0807, g0620, g0707, g0706] at hv ⊢
  all_goals first | (rw [if_neg (fun h => absurd h.1 (by decide)), Option.getD_none]; exact hv) | exact absurd rfl hg | skip
  · rw [if_pos (by simp [accepts, h])]
    exact congrArg some (toI32_toU32 hty.1 hty.2)
  · rw [if_pos (by simp [accepts, h])]; rfl
  · rw [if_pos (by simp [accepts, h])]; rfl
  · rw [if_pos (by simp [accepts, h])]; rfl
  · rcases h with rfl | rfl <;> rfl
  · rcases h with rfl | rfl <;> rfl
  · rw [if_pos (by simp [accepts, h])]
    exact congrArg some (toI32_toU32 hty.1 hty.2)
  · rw [if_pos (by simp [accepts])]; rfl
  · rw [if_pos (by simp [accepts, h, h'])]
    exact congrArg some (toI32_toU32 hty.1 hty.2)

theorem i32_nat {n : Nat} (h : n < 2147483648) : toI32 n = (n : Int) := by rw [toI32, if_pos h]

theorem get_mip (n : Nat) {a : Attr} {m : Nat} {v : Int} (hm : m ∈ integers) (hty : Typed (.mipFunc n)) (hv : getSlot a m = some v) :
    getSlot (attrStep a (.mipFunc n)) m = some ((toldInt m (.mipFunc n)).getD v) := by
  simp only [integers, List.mem_cons, List.not_mem_nil, or_false] at hm
  simp only [attrStep, toldInt]
  rcases hm with rfl | rfl | rfl | rfl | rfl | rfl | rfl | rfl | rfl | rfl
  all_goals simp only [g0630, g0631, g0632, g0634, g0635, g0705, g0807, g0620, g0707, g0706] at hv ⊢
  all_goals first | (rw [if_neg (by decide), Option.getD_none]; exact hv) | skip
  exact congrArg some (i32_nat hty)

theorem get_step {a : Attr} {m : Nat} {v : Int} {o : Op} (hm : m ∈ integers) (hg : m ≠ 0x0635) (hty : Typed o)
    (hs : ∀ w, o = .setInteger 0x0705 w → 0x0706 ≤ w ∧ w ≤ 0x070A) (hv : getSlot a m = some v) :
    getSlot (attrStep a o) m = some ((toldInt m o).getD v) := by
  cases o with
  | init => exact get_init hm hg hv
  | able m' f => exact get_able m' f hm hg hv
  | setInteger m' w => exact get_set m' w hm hg hty (fun e => hs w (by rw [e])) hv
  | mipFunc n => exact get_mip n hm hty hv
  | _ => exact hv

theorem get_fold (ops : List Op) {a : Attr} {m : Nat} {v : Int} (hm : m ∈ integers) (hg : m ≠ 0x0635) (hty : ∀ o ∈ ops, Typed o)
    (hs : ∀ w, .setInteger 0x0705 w ∈ ops → 0x0706 ≤ w ∧ w ≤ 0x070A) (hv : getSlot a m = some v) :
    getSlot (ops.foldl attrStep a) m = some (lastInt m v ops) := by
  induction ops generalizing a v with
  | nil => exact hv
  | cons o ops ih =>
    exact ih (fun o' h => hty o' (by simp [h])) (fun w h => hs w (by simp [h]))
      (get_step hm hg (hty o (by simp)) (fun w h => hs w (by simp [h])) hv)

theorem get_some {a : Attr} {m : Nat} (hm : m ∈ integers) : ∃ v, getSlot a m = some v := by
  simp only [integers, List.mem_cons, List.not_mem_nil, or_false] at hm
  rcases hm with rfl | rfl | rfl | rfl | rfl | rfl | rfl | rfl | rfl | rfl <;> exact ⟨_, rfl⟩

/-! ### The stack -/

theorem push_ok {s t : Sys} {b : Nat} (h : Inv s) (hp : s.pos < 31) (e : ilutPushAttrib s b = .ok t) :
    t.pos = s.pos + 1 ∧ ∀ j, j ≤ s.pos → t.stack[j]? = s.stack[j]? := by
  obtain ⟨a, ha⟩ := rd_cur h
  have hl : s.pos + 1 < s.stack.length := by rw [h.1]; simp only [stackMax]; omega
  rw [ilutPushAttrib, if_neg (by simp only [stackMax]; omega), rd_of_some ha, bind_ok, rd_of_lt hl, bind_ok, wr_of_lt hl, bind_ok] at e
  cases e
  refine ⟨rfl, fun j hj => ?_⟩
  simp only
  rw [List.getElem?_set]
  simp [show ¬(s.pos + 1 = j) by omega]

theorem nested_frame (base room : Nat) (hroom : base + 1 + room ≤ 31) (ops : List Op) :
    ∀ (d : Nat) (s s' : Sys), Inv s → s.pos = base + 1 + d → Nested room d ops →
      run s ops = .ok s' → s'.pos = base + 1 ∧ ∀ j, j ≤ base → s'.stack[j]? = s.stack[j]? := by
  induction ops with
  | nil =>
    intro d s s' h hp hn e
    cases e
    exact ⟨by simp only [Nested] at hn; omega, fun _ _ => rfl⟩
  | cons o ops ih =>
    intro d s s' h hp hn e
    simp only [run] at e
    obtain ⟨t, hst, ht⟩ := step_inv h o
    rw [hst, bind_ok] at e
    have hloc : Flat o → Nested room d ops → s'.pos = base + 1 ∧ ∀ j, j ≤ base → s'.stack[j]? = s.stack[j]? := by
      intro ho hn'
      obtain ⟨a, ha⟩ := rd_cur h
      obtain ⟨es, h1⟩ := step_flat h ha ho
      rw [hst] at h1; cases h1
      obtain ⟨h3, h5⟩ := ih d _ s' ht hp hn' e
      refine ⟨h3, fun j hj => ?_⟩
      rw [h5 j hj]
      simp only
      rw [List.getElem?_set]
      simp [show ¬(s.pos = j) by omega]
    cases o with
    | push b =>
      obtain ⟨hr, hn⟩ := hn
      obtain ⟨h1, h3⟩ := push_ok h (by omega) hst
      obtain ⟨h4, h6⟩ := ih (d + 1) t s' ht (by omega) hn e
      exact ⟨h4, fun j hj => by rw [h6 j hj, h3 j (by omega)]⟩
    | pop =>
      obtain ⟨hr, hn⟩ := hn
      simp only [step, pure_eq_ok, ilutPopAttrib] at hst
      rw [if_neg (by omega)] at hst
      cases hst
      exact ih (d - 1) ⟨s.stack, s.pos - 1, s.errs⟩ s' ht (show s.pos - 1 = _ by omega) hn e
    | init => exact hloc trivial hn
    | able m f => exact hloc trivial hn
    | setInteger m v => exact hloc trivial hn
    | mipFunc n => exact hloc trivial hn
    | isEnabled m => exact hloc trivial hn
    | getInteger m => exact hloc trivial hn

end DevIL.Ilut
