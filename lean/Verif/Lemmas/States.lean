import Verif.Model.States
namespace DevIL.States

/-- Every reachable state: the array has 32 slots and the position is inside. -/
def Inv (s : Sys) : Prop := s.stack.length = stackMax ∧ s.pos < stackMax

theorem inv_initial (i : Img) : Inv (initial i) := by simp [Inv, initial]

theorem toI32_toU32 {v : Int} (h1 : -2147483648 ≤ v) (h2 : v < 2147483648) : toI32 (toU32 v) = v := by
  unfold toI32 toU32
  split <;> omega

theorem toU8_01 {v : Int} (h : v = 0 ∨ v = 1) : toI32 (toU8 v) = v := by
  rcases h with rfl | rfl <;> decide

theorem rd_cur {s : Sys} (h : Inv s) : ∃ a, s.stack[s.pos]? = some a := by
  have : s.pos < s.stack.length := by rw [h.1]; exact h.2
  exact ⟨_, List.getElem?_eq_getElem this⟩

theorem wr_cur {s : Sys} (h : Inv s) (a : Attr) : wr s.stack s.pos a = .ok (s.stack.set s.pos a) :=
  wr_of_lt (by rw [h.1]; exact h.2)

theorem get_set_cur {s : Sys} (h : Inv s) (a : Attr) : (s.stack.set s.pos a)[s.pos]? = some a := by
  rw [List.getElem?_set]; simp [h.1]; exact h.2

theorem updCur_eq {s : Sys} (h : Inv s) {a : Attr} (ha : s.stack[s.pos]? = some a) (f : Attr → Attr) :
    updCur s f = .ok { s with stack := s.stack.set s.pos (f a) } := by
  simp only [updCur, rd_of_some ha, bind_ok, wr_cur h, pure_eq_ok]

/-- What one call that is neither push nor pop can do: replace the current slot, hints, errors, image. -/
def Local (s s' : Sys) : Prop :=
  s'.pos = s.pos ∧ s'.stack.length = s.stack.length ∧ ∀ j, j ≠ s.pos → s'.stack[j]? = s.stack[j]?

theorem Local.refl (s : Sys) : Local s s := ⟨rfl, rfl, fun _ _ => rfl⟩

theorem local_set (s : Sys) (a : Attr) : Local s { s with stack := s.stack.set s.pos a } := by
  refine ⟨rfl, by simp, fun j hj => ?_⟩
  simp only
  rw [List.getElem?_set]; simp [Ne.symm hj]

theorem updCur_local {s : Sys} (h : Inv s) (f : Attr → Attr) : ∃ s', updCur s f = .ok s' ∧ Local s s' := by
  obtain ⟨a, ha⟩ := rd_cur h
  exact ⟨_, updCur_eq h ha f, local_set s _⟩

theorem able_local {s : Sys} (h : Inv s) (m f : Nat) : ∃ r s', ilAble s m f = .ok (r, s') ∧ Local s s' := by
  obtain ⟨a, ha⟩ := rd_cur h
  simp only [ilAble, rd_of_some ha, bind_ok]
  cases ableSlot a m f with
  | none => exact ⟨false, _, rfl, Local.refl s⟩
  | some a' => simp only [wr_cur h, bind_ok]; exact ⟨true, _, rfl, local_set s _⟩

theorem func_local {s : Sys} (h : Inv s) (p : Prop) [Decidable p] (f : Attr → Attr) (e : Nat) :
    ∃ r s', (if p then do let s ← updCur s f; pure (true, s) else pure (false, setErr s e) : C (Bool × Sys))
      = .ok (r, s') ∧ Local s s' := by
  split
  · obtain ⟨s', h1, h2⟩ := updCur_local h f
    exact ⟨true, s', by rw [h1]; rfl, h2⟩
  · exact ⟨false, _, rfl, Local.refl s⟩

theorem origin_local {s : Sys} (h : Inv s) (m : Nat) : ∃ r s', ilOriginFunc s m = .ok (r, s') ∧ Local s s' := by
  unfold ilOriginFunc; exact func_local h _ _ _
theorem format_local {s : Sys} (h : Inv s) (m : Nat) : ∃ r s', ilFormatFunc s m = .ok (r, s') ∧ Local s s' := by
  unfold ilFormatFunc; exact func_local h _ _ _
theorem type_local {s : Sys} (h : Inv s) (m : Nat) : ∃ r s', ilTypeFunc s m = .ok (r, s') ∧ Local s s' := by
  unfold ilTypeFunc; exact func_local h _ _ _
theorem compress_local {s : Sys} (h : Inv s) (m : Nat) :
    ∃ r s', ilCompressFunc s m = .ok (r, s') ∧ Local s s' := by
  unfold ilCompressFunc; exact func_local h _ _ _

theorem setString_local {s : Sys} (h : Inv s) (m : Nat) (t : Option String) :
    ∃ s', ilSetString s m t = .ok s' ∧ Local s s' := by
  unfold ilSetString
  cases t with
  | none => exact ⟨_, rfl, Local.refl s⟩
  | some t =>
    obtain ⟨a, ha⟩ := rd_cur h
    simp only [rd_of_some ha, bind_ok]
    cases setStringSlot a m t with
    | none => exact ⟨_, rfl, Local.refl s⟩
    | some a' => simp only [wr_cur h, bind_ok]; exact ⟨_, rfl, local_set s _⟩

theorem setInteger_local {s : Sys} (h : Inv s) (m : Nat) (v : Int) :
    ∃ s', ilSetInteger s m v = .ok s' ∧ Local s s' := by
  obtain ⟨a, ha⟩ := rd_cur h
  simp only [ilSetInteger, rd_of_some ha, bind_ok]
  split
  · obtain ⟨r, s', h1, h2⟩ := format_local h (toU32 v)
    exact ⟨s', by rw [h1]; rfl, h2⟩
  split
  · obtain ⟨r, s', h1, h2⟩ := origin_local h (toU32 v)
    exact ⟨s', by rw [h1]; rfl, h2⟩
  split
  · obtain ⟨r, s', h1, h2⟩ := type_local h (toU32 v)
    exact ⟨s', by rw [h1]; rfl, h2⟩
  split
  · cases s.img with
    | none => exact ⟨_, rfl, Local.refl s⟩
    | some i =>
      simp only
      rcases setImage i m v with _ | ⟨i', _ | _⟩ <;> exact ⟨_, rfl, Local.refl s⟩
  · rcases setSlot a m v with _ | _ | a'
    · exact ⟨_, rfl, Local.refl s⟩
    · exact ⟨_, rfl, Local.refl s⟩
    · simp only [wr_cur h, bind_ok]; exact ⟨_, rfl, local_set s _⟩

theorem hint_local (s : Sys) (t m : Nat) : Local s (ilHint s t m) := by
  unfold ilHint
  repeat' split
  all_goals exact Local.refl s

/-- The calls other than push and pop. -/
def Op.isLocal : Op → Bool
  | .push _ => false
  | .pop => false
  | _ => true

theorem step_local {s : Sys} (h : Inv s) (o : Op) (ho : o.isLocal) : ∃ s', step s o = .ok s' ∧ Local s s' := by
  cases o with
  | able m f => obtain ⟨r, s', h1, h2⟩ := able_local h m f; exact ⟨s', by simp only [step]; rw [h1]; rfl, h2⟩
  | setInteger m v => exact setInteger_local h m v
  | origin m =>
    obtain ⟨r, s', h1, h2⟩ := origin_local h m
    exact ⟨s', by simp only [step]; rw [h1]; rfl, h2⟩
  | format m =>
    obtain ⟨r, s', h1, h2⟩ := format_local h m
    exact ⟨s', by simp only [step]; rw [h1]; rfl, h2⟩
  | type m =>
    obtain ⟨r, s', h1, h2⟩ := type_local h m
    exact ⟨s', by simp only [step]; rw [h1]; rfl, h2⟩
  | compress m =>
    obtain ⟨r, s', h1, h2⟩ := compress_local h m
    exact ⟨s', by simp only [step]; rw [h1]; rfl, h2⟩
  | setString m t => exact setString_local h m t
  | hint t m => exact ⟨_, rfl, hint_local s t m⟩
  | push b => cases ho
  | pop => cases ho

theorem Local.inv {s s' : Sys} (h : Inv s) (hl : Local s s') : Inv s' := by
  obtain ⟨h1, h2, _⟩ := hl
  exact ⟨by rw [h2]; exact h.1, by rw [h1]; exact h.2⟩

theorem push_eq {s : Sys} {b : Nat} {p : Attr} (h : Inv s) (hp : s.pos < 31) (ha : s.stack[s.pos]? = some p) :
    ilPushAttrib s b = (pushCopy p defaults b).map (fun a =>
      { stack := s.stack.set (s.pos + 1) a, pos := s.pos + 1, memVsSpeed := IL_FASTEST,
        compressHint := IL_USE_COMPRESSION, errs := (s.errs.dropWhile (· ≠ IL_NO_ERROR)).drop 1,
        img := s.img }) := by
  have hl := h.1
  have hn : ¬ (s.pos ≥ stackMax - 1) := by show ¬ (s.pos ≥ 31); omega
  have hw : s.pos + 1 < s.stack.length := by rw [hl]; show _ < 32; omega
  have hr : (s.stack.set (s.pos + 1) defaults)[s.pos]? = some p := by
    rw [List.getElem?_set]; simp [ha]
  have hr' : (s.stack.set (s.pos + 1) defaults)[s.pos + 1]? = some defaults := by
    rw [List.getElem?_set]; simp [hw]
  unfold ilPushAttrib
  rw [if_neg hn]
  simp only [ilDefaultStates]
  rw [wr_of_lt hw]
  simp only [bind_ok, pure_eq_ok, Nat.add_sub_cancel]
  rw [rd_of_some hr, bind_ok, rd_of_some hr', bind_ok]
  cases pushCopy p defaults b with
  | error f => rfl
  | ok a =>
    rw [bind_ok, wr_of_lt (by simpa using hw), bind_ok, List.set_set]
    rfl

/-- A push that succeeds only writes the slot above. -/
theorem push_ok {s s' : Sys} {b : Nat} (h : Inv s) (hp : s.pos < 31) (e : ilPushAttrib s b = .ok s') :
    s'.pos = s.pos + 1 ∧ s'.stack.length = s.stack.length ∧ s'.img = s.img ∧
      ∀ j, j ≠ s.pos + 1 → s'.stack[j]? = s.stack[j]? := by
  obtain ⟨p, ha⟩ := rd_cur h
  rw [push_eq h hp ha] at e
  cases hc : pushCopy p defaults b with
  | error f => rw [hc] at e; cases e
  | ok a =>
    rw [hc] at e
    cases e
    refine ⟨rfl, by simp, rfl, fun j hj => ?_⟩
    simp only
    rw [List.getElem?_set]
    simp [Ne.symm hj]

theorem push_full {s : Sys} {b : Nat} (h : Inv s) (hp : ¬ s.pos < 31) :
    ilPushAttrib s b = .ok (setErr s IL_STACK_OVERFLOW) := by
  have h2 : s.pos < 32 := h.2
  have : s.pos = 31 := by omega
  unfold ilPushAttrib
  rw [if_pos (by show s.pos ≥ 31; omega)]
  cases s; simp_all

/-- All eleven format-specific strings have been set. -/
def StringsSet (p : Attr) : Prop :=
  p.ilTgaId.isSome ∧ p.ilTgaAuthName.isSome ∧ p.ilTgaAuthComment.isSome ∧ p.ilPngAuthName.isSome ∧
  p.ilPngTitle.isSome ∧ p.ilPngDescription.isSome ∧ p.ilTifDescription.isSome ∧
  p.ilTifHostComputer.isSome ∧ p.ilTifDocumentName.isSome ∧ p.ilTifAuthName.isSome ∧ p.ilCHeader.isSome

theorem pushCopy_ok {p a : Attr} {b : Nat} (hs : b &&& IL_FORMAT_SPECIFIC_BIT = 0 ∨ StringsSet p) :
    ∃ a', pushCopy p a b = .ok a' := by
  unfold pushCopy
  split
  · rcases hs with hs | ⟨h1, h2, h3, h4, h5, h6, h7, h8, h9, h10, h11⟩
    · contradiction
    · have key : ∀ {x : Option String}, x.isSome → ∃ y, strdup x = .ok y := by
        intro x hx; cases x with
        | none => cases hx
        | some y => exact ⟨_, rfl⟩
      obtain ⟨_, e1⟩ := key h1
      obtain ⟨_, e2⟩ := key h2
      obtain ⟨_, e3⟩ := key h3
      obtain ⟨_, e4⟩ := key h4
      obtain ⟨_, e5⟩ := key h5
      obtain ⟨_, e6⟩ := key h6
      obtain ⟨_, e7⟩ := key h7
      obtain ⟨_, e8⟩ := key h8
      obtain ⟨_, e9⟩ := key h9
      obtain ⟨_, e10⟩ := key h10
      obtain ⟨_, e11⟩ := key h11
      simp only [pushSpecific, e1, e2, e3, e4, e5, e6, e7, e8, e9, e10, e11, bind_ok]
      exact ⟨_, rfl⟩
  · exact ⟨_, rfl⟩

theorem push_safe {s : Sys} {b : Nat} (h : Inv s)
    (hb : b &&& IL_FORMAT_SPECIFIC_BIT = 0 ∨ ∃ p, s.stack[s.pos]? = some p ∧ StringsSet p) :
    ∃ s', ilPushAttrib s b = .ok s' := by
  by_cases hp : s.pos < 31
  · obtain ⟨p, ha⟩ := rd_cur h
    obtain ⟨a', ha'⟩ := pushCopy_ok (p := p) (a := defaults) (b := b) (by
      rcases hb with hb | ⟨q, hq, hs⟩
      · exact Or.inl hb
      · rw [ha] at hq; cases hq; exact Or.inr hs)
    exact ⟨_, by rw [push_eq h hp ha, ha']; rfl⟩
  · exact ⟨_, push_full h hp⟩

theorem pop_inv {s : Sys} (h : Inv s) : Inv (ilPopAttrib s) := by
  have : s.pos < 32 := h.2
  unfold ilPopAttrib
  split
  · exact ⟨h.1, by simp [setErr]⟩
  · exact ⟨h.1, by show s.pos - 1 < 32; omega⟩

theorem step_inv {s s' : Sys} {o : Op} (h : Inv s) (e : step s o = .ok s') : Inv s' := by
  by_cases ho : o.isLocal
  · obtain ⟨t, h1, h2⟩ := step_local h o ho
    rw [h1] at e; cases e; exact h2.inv h
  · cases o with
    | push b =>
      by_cases hp : s.pos < 31
      · obtain ⟨h1, h2, _⟩ := push_ok h hp e
        exact ⟨by rw [h2]; exact h.1, by rw [h1]; show _ < 32; omega⟩
      · have := push_full (b := b) h hp
        simp only [step] at e
        rw [this] at e; cases e; exact h
    | pop => simp only [step, pure_eq_ok] at e; cases e; exact pop_inv h
    | _ => simp [Op.isLocal] at ho

end DevIL.States
