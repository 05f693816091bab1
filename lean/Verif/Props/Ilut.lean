import Verif.Lemmas.Ilut
/-! C123 to C125: the settings of the utility toolkit over all histories of calls. -/
set_option autoImplicit false
namespace DevIL.Ilut
open DevIL.IlutSpec

/-- A value computed from a state without changing it. -/
def Says {α : Type} (r : C (α × Sys)) (s : Sys) (v : α) : Prop := r = .ok (v, s)

theorem able_now {s : Sys} (hi : Inv s) {m : Nat} (hm : m ∈ switches) (f : Nat) : ∃ t, ilutAble s m f = .ok (true, t) ∧ Says (ilutIsEnabled t m) t f := by
  obtain ⟨a, ha⟩ := rd_cur hi
  have hab : ∃ b, ableSlot a m f = some b ∧ enabledSlot b m = some f := by
    simp only [switches, List.mem_cons, List.not_mem_nil, or_false] at hm
    rcases hm with rfl | rfl | rfl | rfl | rfl | rfl <;> exact ⟨_, rfl, rfl⟩
  obtain ⟨b, h1, h2⟩ := hab
  refine ⟨⟨s.stack.set s.pos b, s.pos, s.errs⟩, ?_, ?_⟩
  · simp only [ilutAble, rd_of_some ha, bind_ok, h1, wr_cur hi, pure_eq_ok]
  · simp only [Says, ilutIsEnabled, rd_of_some (get_set_cur hi b), bind_ok, h2, pure_eq_ok]

/-- **C123.** Whatever calls were made before, after any further calls other than push and pop every documented switch reads, through
`ilutIsEnabled`, `ilutIsDisabled` and `ilutGetBoolean`, as the value last given to it, or as before if it was given none; reading changes
nothing; `ilutEnable` then gives it 1 and `ilutDisable` 0.  For any other mode the three answer false (true for `ilutIsDisabled`), `ilutEnable` and `ilutDisable` refuse, and each call records
`ILUT_INVALID_ENUM` and changes nothing else. -/
theorem C123_switches (before ops : List Op) (hf : ∀ o ∈ ops, Flat o) :
    ∃ s t, run start before = .ok s ∧ run s ops = .ok t ∧
      (∀ m ∈ switches, ∃ v, Says (ilutIsEnabled s m) s v ∧ Says (ilutIsEnabled t m) t (lastSwitch m v ops) ∧
        Says (ilutGetBoolean t m) t (lastSwitch m v ops) ∧
        Says (ilutIsDisabled t m) t (if lastSwitch m v ops = 0 then 1 else 0) ∧
        (∃ t1, ilutEnable t m = .ok (true, t1) ∧ Says (ilutIsEnabled t1 m) t1 1) ∧ (∃ t0, ilutDisable t m = .ok (true, t0) ∧ Says (ilutIsEnabled t0 m) t0 0)) ∧
      (∀ m, m ∉ switches → let t' := { t with errs := 0x0501 :: t.errs }
        ilutIsEnabled t m = .ok (0, t') ∧ ilutGetBoolean t m = .ok (0, t') ∧ ilutIsDisabled t m = .ok (1, t') ∧
        ilutEnable t m = .ok (false, t') ∧ ilutDisable t m = .ok (false, t')) := by
  obtain ⟨s, hs, hi⟩ := run_inv before inv_start
  obtain ⟨a, ha⟩ := rd_cur hi
  obtain ⟨es, ht⟩ := run_flat ops hi ha hf
  have hit := inv_set hi (ops.foldl attrStep a) es
  have hat := get_set_cur hi (ops.foldl attrStep a)
  refine ⟨s, _, hs, ht, fun m hm => ?_, fun m hm => ?_⟩
  · obtain ⟨v, hv⟩ := enabled_some (a := a) hm
    have hv' := enabled_fold ops hm hv
    refine ⟨v, ?_, ?_, ?_, ?_, able_now hit hm 1, able_now hit hm 0⟩
    · simp only [Says, ilutIsEnabled, rd_of_some ha, bind_ok, hv, pure_eq_ok]
    · simp only [Says, ilutIsEnabled, rd_of_some hat, bind_ok, hv', pure_eq_ok]
    · simp only [Says, ilutGetBoolean, rd_of_some hat, bind_ok, hv', pure_eq_ok]
    · simp only [Says, ilutIsDisabled, ilutIsEnabled, rd_of_some hat, bind_ok, hv', pure_eq_ok]
  · obtain ⟨h1, _⟩ := enabled_none (a := ops.foldl attrStep a) (f := 0) hm
    have h2 : ∀ f, ableSlot (ops.foldl attrStep a) m f = none := fun f => (enabled_none hm).2
    refine ⟨?_, ?_, ?_, ?_, ?_⟩ <;>
      simp only [ilutIsDisabled, ilutIsEnabled, ilutGetBoolean, ilutEnable, ilutDisable, ilutAble, rd_of_some hat, bind_ok, h1, h2,
        pure_eq_ok, setErr] <;> rfl

example : lastSwitch 0x0634 0 [.able 0x0634 1, .able 0x0600 0, .setInteger 0x0634 7, .getInteger 3] = 1 ∧
    (∀ o ∈ [Op.able 0x0634 1, .able 0x0600 0, .setInteger 0x0634 7, .getInteger 3], Flat o) := by
  refine ⟨by decide, ?_⟩
  simp [Flat]

/-- **C124 (in part).** Whatever calls were made before, after any further calls other than push and pop `ilutGetInteger` reports for every
integer mode but `ILUT_GL_GEN_S3TC` the value last accepted for it, or the one before if none was.  Missing: `ILUT_GL_GEN_S3TC`
(`C124_violated_gen`) and histories that give `ILUT_S3TC_FORMAT` a value it does not take (`C124_violated_format`). -/
theorem C124_integers_partial (before ops : List Op) (hf : ∀ o ∈ ops, Flat o) (ht : ∀ o ∈ ops, Typed o)
    (hfmt : ∀ w, .setInteger 0x0705 w ∈ ops → accepts 0x0705 w = true) :
    ∃ s t, run start before = .ok s ∧ run s ops = .ok t ∧
      ∀ m ∈ integers, m ≠ 0x0635 → ∃ v, Says (ilutGetInteger s m) s v ∧ Says (ilutGetInteger t m) t (lastInt m v ops) := by
  obtain ⟨s, hs, hi⟩ := run_inv before inv_start
  obtain ⟨a, ha⟩ := rd_cur hi
  obtain ⟨es, hr⟩ := run_flat ops hi ha hf
  have hat := get_set_cur hi (ops.foldl attrStep a)
  refine ⟨s, _, hs, hr, fun m hm hg => ?_⟩
  obtain ⟨v, hv⟩ := get_some (a := a) hm
  have hv' := get_fold ops hm hg ht (fun w hw => by simpa [accepts] using hfmt w hw) hv
  refine ⟨v, ?_, ?_⟩
  · simp only [Says, ilutGetInteger, rd_of_some ha, bind_ok, hv, pure_eq_ok]
  · simp only [Says, ilutGetInteger, rd_of_some hat, bind_ok, hv', pure_eq_ok]

example : lastInt 0x0630 256 [.setInteger 0x0630 512, .setInteger 0x0631 64, .setInteger 0x0630 0, .setInteger 0x0705 0x0708] = 512 := by decide

/-- **C124 (in part).** After whatever calls, `ilutSetInteger` of a mode that is no integer mode changes no setting and records `ILUT_INVALID_ENUM`, then
`ILUT_INVALID_PARAM`; and of a mode with a value it does not take, other than the format (`C124_violated_format`), it changes no setting and records the latter. -/
theorem C124_refused_partial (before : List Op) : ∃ s, run start before = .ok s ∧
    (∀ m w, m ∉ integers → ilutSetInteger s m w = .ok { s with errs := 0x0509 :: 0x0501 :: s.errs }) ∧
    (∀ m w, m ∈ integers → m ≠ 0x0705 → accepts m w = false → ilutSetInteger s m w = .ok { s with errs := 0x0509 :: s.errs }) := by
  obtain ⟨s, hs, hi⟩ := run_inv before inv_start
  obtain ⟨a, ha⟩ := rd_cur hi
  refine ⟨s, hs, fun m w hm => ?_, fun m w hm hf hac => ?_⟩
  · have : setSlot a m w = none := by
      simp only [integers, List.mem_cons, List.not_mem_nil, or_false, not_or] at hm
      simp [setSlot, hm]
    simp only [ilutSetInteger, rd_of_some ha, bind_ok, this, pure_eq_ok, setErr]
  · have : setSlot a m w = some none := by
      simp only [integers, List.mem_cons, List.not_mem_nil, or_false] at hm
      rcases hm with rfl | rfl | rfl | rfl | rfl | rfl | rfl | rfl | rfl | rfl
      · exact absurd rfl hf
      all_goals
        simp [accepts] at hac
      all_goals
        show some (if _ then _ else _) = some none
        rw [if_neg (by omega)]
    simp only [ilutSetInteger, rd_of_some ha, bind_ok, this, pure_eq_ok, setErr]

example : 0x0600 ∉ integers ∧ 0x0630 ∈ integers ∧ accepts 0x0630 0 = false := by decide

/-- The full claim C124 is false: after `ilutSetInteger(ILUT_GL_GEN_S3TC, 1)` the mode reads 0, because line 231 reports the switch
`ILUT_GL_USE_S3TC` instead. -/
theorem C124_violated_gen : accepts 0x0635 1 = true ∧ ∃ t, run start [.init, .setInteger 0x0635 1] = .ok t ∧ t.errs = [] ∧
    ilutGetInteger t 0x0635 = .ok (0, t) := ⟨by decide, _, rfl, rfl, rfl⟩

/-- The full claim C124 is false: `ilutSetInteger(ILUT_S3TC_FORMAT, 5)` is not refused but sets the largest texture width to 5, because the case
has no `break` (line 272). -/
theorem C124_violated_format : accepts 0x0705 5 = false ∧ ∃ t, run start [.init, .setInteger 0x0705 5] = .ok t ∧ t.errs = [] ∧
    ilutGetInteger t 0x0630 = .ok (5, t) := ⟨by decide, _, rfl, rfl, rfl⟩

/-- **C125, safety.** No history of calls reads or writes outside the stack of settings, and the level stays within 0 and 31. -/
theorem C125_safe (ops : List Op) : ∃ s, run start ops = .ok s ∧ s.pos < 32 := by
  obtain ⟨s, hs, hi⟩ := run_inv ops inv_start
  exact ⟨s, hs, hi.2⟩

/-- **C125, restoring.** After any history with room for a push, then a push, then properly nested calls that fit on the stack, then a pop,
every setting of the current level and of the levels below is what it was before the push, so every switch and integer reads as it did. -/
theorem C125_restores (before ops : List Op) (bits : Nat) (s : Sys) (hs : run start before = .ok s) (hp : s.pos < 31)
    (hn : Nested (30 - s.pos) 0 ops) :
    ∃ t, run s (.push bits :: ops ++ [.pop]) = .ok t ∧ t.pos = s.pos ∧ (∀ j, j ≤ s.pos → t.stack[j]? = s.stack[j]?) ∧
      (∀ m v, Says (ilutIsEnabled s m) s v → Says (ilutIsEnabled t m) t v) ∧
      (∀ m v, Says (ilutGetInteger s m) s v → Says (ilutGetInteger t m) t v) := by
  obtain ⟨s', hs', hi⟩ := run_inv before inv_start
  rw [hs] at hs'; cases hs'
  obtain ⟨t, ht, hit⟩ := run_inv (.push bits :: ops ++ [.pop]) hi
  have key : t.pos = s.pos ∧ ∀ j, j ≤ s.pos → t.stack[j]? = s.stack[j]? := by
    have e := ht
    simp only [List.cons_append, run, step] at e
    obtain ⟨u, hu, hiu⟩ := step_inv hi (.push bits)
    simp only [step] at hu
    rw [hu, bind_ok, run_append] at e
    obtain ⟨h1, h2⟩ := push_ok hi hp hu
    obtain ⟨w, hw, _⟩ := run_inv ops hiu
    obtain ⟨h3, h4⟩ := nested_frame s.pos (30 - s.pos) (by omega) ops 0 u w hiu (by omega) hn hw
    rw [hw, bind_ok] at e
    simp only [run, step, pure_eq_ok, bind_ok, ilutPopAttrib] at e
    rw [if_neg (by omega)] at e
    cases e
    exact ⟨by simp only; omega, fun j hj => by simp only; rw [h4 j hj, h2 j hj]⟩
  obtain ⟨a, ha⟩ := rd_cur hi
  have ha' : t.stack[t.pos]? = some a := by rw [key.1, key.2 _ (Nat.le_refl _)]; exact ha
  refine ⟨t, ht, key.1, key.2, fun m v h => ?_, fun m v h => ?_⟩
  · simp only [Says, ilutIsEnabled, rd_of_some ha, rd_of_some ha', bind_ok] at h ⊢
    cases e : enabledSlot a m with
    | none =>
      rw [e] at h
      simp only [pure_eq_ok, Except.ok.injEq, Prod.mk.injEq, setErr] at h
      exact absurd (congrArg (fun s => s.errs.length) h.2) (by simp)
    | some x => rw [e] at h; simp only [pure_eq_ok, Except.ok.injEq, Prod.mk.injEq] at h ⊢; exact ⟨h.1, trivial⟩
  · simp only [Says, ilutGetInteger, rd_of_some ha, rd_of_some ha', bind_ok] at h ⊢
    cases e : getSlot a m with
    | none =>
      rw [e] at h
      simp only [pure_eq_ok, Except.ok.injEq, Prod.mk.injEq, setErr] at h
      exact absurd (congrArg (fun s => s.errs.length) h.2) (by simp)
    | some x => rw [e] at h; simp only [pure_eq_ok, Except.ok.injEq, Prod.mk.injEq] at h ⊢; exact ⟨h.1, trivial⟩

example : Nested 30 0 [.setInteger 0x0630 8, .push 3, .able 0x0600 1, .pop, .init] := by simp [Nested]

/-- **C125, pushing (in part).** After a push that fits on the stack, with the bit `ILUT_OPENGL_BIT` the switches `ILUT_PALETTE_MODE` and
`ILUT_OPENGL_CONV`, with the bit `ILUT_D3D_BIT` the integers `ILUT_D3D_MIPLEVELS` and `ILUT_D3D_ALPHA_KEY_COLOR` read as before.  Missing: the
other settings (`C125_violated_push`). -/
theorem C125_push_keeps_partial (before : List Op) (bits : Nat) (s : Sys) (hs : run start before = .ok s) (hp : s.pos < 31) :
    ∃ t, run s [.push bits] = .ok t ∧ t.errs = s.errs ∧ t.pos = s.pos + 1 ∧
      (bits &&& 1 ≠ 0 → ∀ m ∈ [0x0600, 0x0610], ∃ v, Says (ilutIsEnabled s m) s v ∧ Says (ilutIsEnabled t m) t v) ∧
      (bits &&& 2 ≠ 0 → ∀ m ∈ [0x0620, 0x0707], ∃ v, Says (ilutGetInteger s m) s v ∧ Says (ilutGetInteger t m) t v) := by
  obtain ⟨s', hs', hi⟩ := run_inv before inv_start
  rw [hs] at hs'; cases hs'
  obtain ⟨a, ha⟩ := rd_cur hi
  have hl : s.pos + 1 < s.stack.length := by rw [hi.1]; simp only [stackMax]; omega
  have e : run s [.push bits] = .ok ⟨s.stack.set (s.pos + 1) (copyBits bits a s.stack[s.pos + 1]), s.pos + 1, s.errs⟩ := by
    simp only [run, step, ilutPushAttrib]
    rw [if_neg (by simp only [stackMax]; omega), rd_of_some ha, bind_ok, rd_of_lt hl, bind_ok, wr_of_lt hl, bind_ok]
    rfl
  have ht : ∀ b, (s.stack.set (s.pos + 1) b)[s.pos + 1]? = some b := fun b => by rw [List.getElem?_set]; simp [hl]
  refine ⟨_, e, rfl, rfl, fun hb m hm => ?_, fun hb m hm => ?_⟩
  · have h : ∀ b, enabledSlot (copyBits bits a b) m = enabledSlot a m := by
      intro b
      simp only [List.mem_cons, List.not_mem_nil, or_false] at hm
      simp only [copyBits, if_pos hb]
      rcases hm with rfl | rfl <;> split <;> rfl
    obtain ⟨v, hv⟩ := enabled_some (a := a) (m := m)
      (by simp only [List.mem_cons, List.not_mem_nil, or_false] at hm; rcases hm with rfl | rfl <;> decide)
    refine ⟨v, ?_, ?_⟩
    · simp only [Says, ilutIsEnabled, rd_of_some ha, bind_ok, hv, pure_eq_ok]
    · simp only [Says, ilutIsEnabled, rd_of_some (ht _), bind_ok, h, hv, pure_eq_ok]
  · have h : ∀ b, getSlot (copyBits bits a b) m = getSlot a m := by
      intro b
      simp only [List.mem_cons, List.not_mem_nil, or_false] at hm
      simp only [copyBits, if_pos hb]
      rcases hm with rfl | rfl <;> simp only [g0620, g0707]
    obtain ⟨v, hv⟩ := get_some (a := a) (m := m)
      (by simp only [List.mem_cons, List.not_mem_nil, or_false] at hm; rcases hm with rfl | rfl <;> decide)
    refine ⟨v, ?_, ?_⟩
    · simp only [Says, ilutGetInteger, rd_of_some ha, bind_ok, hv, pure_eq_ok]
    · simp only [Says, ilutGetInteger, rd_of_some (ht _), bind_ok, h, hv, pure_eq_ok]

/-- The full claim C125 is false: a push with all attribute bits does not keep the settings in force.  After `ilutInit` and
`ilutPushAttrib(ILUT_ALL_ATTRIB_BITS)` the largest texture width reads 0 instead of 256, because only four of the settings are copied to the new
level (lines 357-364). -/
theorem C125_violated_push : ∃ s t, run start [.init] = .ok s ∧ ilutGetInteger s 0x0630 = .ok (256, s) ∧
    run s [.push 0x000FFFFF] = .ok t ∧ t.errs = [] ∧ ilutGetInteger t 0x0630 = .ok (0, t) := ⟨_, _, rfl, rfl, rfl, rfl, rfl⟩

/-- The full claim C125 is false: `ilutInit` does not return to the outermost level: after a push and `ilutInit`, a pop restores the settings of before instead
of recording an underflow. -/
theorem C125_violated_init : ∃ s, run start [.init, .setInteger 0x0630 8, .push 0, .init] = .ok s ∧ ilutGetInteger s 0x0630 = .ok (256, s) ∧
    (ilutPopAttrib s).errs = [] ∧ ilutGetInteger (ilutPopAttrib s) 0x0630 = .ok (8, ilutPopAttrib s) := ⟨_, rfl, rfl, rfl, rfl⟩

end DevIL.Ilut
