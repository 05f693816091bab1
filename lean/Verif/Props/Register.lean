import Verif.Model.Register
/-! Properties C55, C56 and C84: registered handlers and file types by extension. -/
set_option autoImplicit false
namespace DevIL.Register

/-- `e` is the text after the last period of `name`. -/
def AfterDot (name e : List UInt8) : Prop := ∃ p, name = p ++ 46 :: e ∧ (46 : UInt8) ∉ e

/-- The same byte, or the same letter `A` to `Z` once as a capital and once small. -/
def SameLetter (a b : UInt8) : Prop :=
  a = b ∨ ∃ k, k < 26 ∧ (a.toNat = 65 + k ∧ b.toNat = 97 + k ∨ a.toNat = 97 + k ∧ b.toNat = 65 + k)

/-- The two strings differ at most in the case of letters `A` to `Z`. -/
def SameButCase : List UInt8 → List UInt8 → Prop
  | [], [] => True
  | a :: as, b :: bs => SameLetter a b ∧ SameButCase as bs
  | _, _ => False

theorem lower_toNat (a : UInt8) : (lower a).toNat = if 65 ≤ a.toNat ∧ a.toNat ≤ 90 then a.toNat + 32 else a.toNat := by
  unfold lower
  split
  · rw [UInt8.toNat_add]
    show (a.toNat + 32) % 256 = _
    omega
  · rfl

theorem sameLetter_iff (a b : UInt8) : SameLetter a b ↔ lower a = lower b := by
  unfold SameLetter
  rw [← UInt8.toNat_inj, ← UInt8.toNat_inj, lower_toNat, lower_toNat]
  constructor
  · rintro (h | ⟨k, hk, h | h⟩)
    · rw [h]
    · split <;> split <;> omega
    · split <;> split <;> omega
  · intro h
    by_cases he : a.toNat = b.toNat
    · exact Or.inl he
    · right
      split at h <;> split at h
      · omega
      · exact ⟨a.toNat - 65, by omega, Or.inl (by omega)⟩
      · exact ⟨b.toNat - 65, by omega, Or.inr (by omega)⟩
      · omega

theorem same_iff (a : List UInt8) : ∀ b : List UInt8, SameButCase a b ↔ a.map lower = b.map lower := by
  induction a with
  | nil => intro b; cases b <;> simp [SameButCase]
  | cons a as ih =>
    intro b
    cases b with
    | nil => simp [SameButCase]
    | cons b bs =>
      rw [SameButCase, sameLetter_iff, ih, List.map_cons, List.map_cons, List.cons.injEq]

theorem SameButCase.symm {a b : List UInt8} (h : SameButCase a b) : SameButCase b a := (same_iff b a).2 ((same_iff a b).1 h).symm
theorem SameButCase.refl (a : List UInt8) : SameButCase a a := (same_iff a a).2 rfl
theorem SameButCase.trans {a b c : List UInt8} (h : SameButCase a b) (h' : SameButCase b c) : SameButCase a c :=
  (same_iff a c).2 (((same_iff a b).1 h).trans ((same_iff b c).1 h'))

instance (a b : List UInt8) : Decidable (SameButCase a b) := decidable_of_iff _ (same_iff a b).symm

/-! ### Finding the extension -/

theorem scanDot_none {buf : List UInt8} {i : Nat} (hi : i < buf.length) (h : ∀ j, j ≤ i → buf[j]? ≠ some 46) : scanDot buf i = .ok none := by
  induction i with
  | zero =>
    unfold scanDot
    rw [rd_of_lt hi, bind_ok, if_neg]
    · rfl
    · intro he
      exact h 0 (Nat.le_refl _) (by rw [List.getElem?_eq_getElem hi, he])
  | succ i ih =>
    unfold scanDot
    rw [rd_of_lt hi, bind_ok, if_neg]
    · exact ih (by omega) fun j hj => h j (by omega)
    · intro he
      exact h (i + 1) (Nat.le_refl _) (by rw [List.getElem?_eq_getElem hi, he])

theorem scanDot_some {buf : List UInt8} {p : Nat} (hp : buf[p]? = some 46) {i : Nat} (hpi : p ≤ i) (hi : i < buf.length)
    (h : ∀ j, p < j → j ≤ i → buf[j]? ≠ some 46) : scanDot buf i = .ok (some p) := by
  induction i with
  | zero =>
    have : p = 0 := by omega
    subst this
    unfold scanDot
    rw [rd_of_lt hi, bind_ok]
    rw [List.getElem?_eq_getElem hi, Option.some.injEq] at hp
    rw [if_pos hp]
    rfl
  | succ i ih =>
    unfold scanDot
    rw [rd_of_lt hi, bind_ok]
    by_cases he : p = i + 1
    · subst he
      rw [List.getElem?_eq_getElem hi, Option.some.injEq] at hp
      rw [if_pos hp]
      rfl
    · rw [if_neg]
      · exact ih (by omega) (by omega) fun j h1 h2 => h j h1 (by omega)
      · intro hx
        exact h (i + 1) (by omega) (Nat.le_refl _) (by rw [List.getElem?_eq_getElem hi, hx])

theorem scan_after {p e : List UInt8} (he : (46 : UInt8) ∉ e) : scanDot (p ++ 46 :: e ++ [0]) (p ++ 46 :: e).length = .ok (some p.length) := by
  refine scanDot_some ?_ (by simp) (by simp) fun j h1 h2 hx => ?_
  · rw [List.append_assoc, List.getElem?_append_right (Nat.le_refl _), Nat.sub_self]
    rfl
  · rw [List.append_assoc, List.getElem?_append_right (by omega)] at hx
    obtain ⟨k, hk⟩ : ∃ k, j - p.length = k + 1 := ⟨j - p.length - 1, by omega⟩
    rw [hk, List.cons_append, List.getElem?_cons_succ] at hx
    have := List.mem_of_getElem? hx
    rw [List.mem_append, List.mem_singleton] at this
    rcases this with h | h
    · exact he h
    · exact absurd h (by decide)

theorem scan_nodot {n : List UInt8} (h : (46 : UInt8) ∉ n) : scanDot (n ++ [0]) n.length = .ok none := by
  refine scanDot_none (by simp) fun j _ hx => ?_
  have := List.mem_of_getElem? hx
  rw [List.mem_append, List.mem_singleton] at this
  rcases this with h' | h'
  · exact h h'
  · exact absurd h' (by decide)

theorem getExt {name e : List UInt8} (h : AfterDot name e) : iGetExtension name = .ok (some e) := by
  obtain ⟨p, rfl, he⟩ := h
  unfold iGetExtension
  rw [if_neg (by simp), scan_after he, bind_ok]
  dsimp only
  rw [show p.length + 1 = (p ++ [46]).length by simp, show p ++ 46 :: e = (p ++ [46]) ++ e by simp, List.drop_left]
  rfl

theorem getExt_none {name : List UInt8} (h : (46 : UInt8) ∉ name) : iGetExtension name = .ok none := by
  unfold iGetExtension
  split
  · rfl
  · rw [scan_nodot h, bind_ok]
    rfl

theorem sameStr_iff {a b : List UInt8} : sameStr a b = true ↔ SameButCase a b := by
  unfold sameStr
  rw [same_iff]
  exact beq_iff_eq

theorem sameStr_congr {a a' b b' : List UInt8} (h : SameButCase a a') (h' : SameButCase b b') : sameStr a b = sameStr a' b' := by
  unfold sameStr
  rw [(same_iff _ _).1 h, (same_iff _ _).1 h']

/-! ### C56 -/

/-- The type of an extension, by the comparisons made. -/
def typeOf (e : List UInt8) : Nat :=
  match extTable.find? fun r => r.1.any fun x => sameStr e (txt x) with
  | some r => r.2
  | none => IL_TYPE_UNKNOWN

theorem type_after {name e : List UInt8} (h : AfterDot name e) : ilTypeFromExt name = .ok (typeOf e) := by
  have hg := getExt h
  obtain ⟨p, rfl, _⟩ := h
  unfold ilTypeFromExt
  rw [if_neg (by simp), hg, bind_ok]
  unfold typeOf
  dsimp only
  cases extTable.find? fun r => r.1.any fun x => sameStr e (txt x) <;> rfl

/-- **C56.** Names whose texts after the last period differ at most in case have the same type; finding it reads inside the name. -/
theorem C56_only_extension (n n' e e' : List UInt8) (h : AfterDot n e) (h' : AfterDot n' e') (hs : SameButCase e e') :
    ∃ t, ilTypeFromExt n = .ok t ∧ ilTypeFromExt n' = .ok t := by
  refine ⟨_, type_after h, ?_⟩
  rw [type_after h']
  unfold typeOf
  rw [show (fun r : List (List Char) × Nat => r.1.any fun x => sameStr e' (txt x)) = fun r => r.1.any fun x => sameStr e (txt x) by
    funext r
    congr 1
    funext x
    exact sameStr_congr hs.symm (SameButCase.refl _)]

/-- **C56.** A name without a period has no type. -/
theorem C56_no_period (n : List UInt8) (h : (46 : UInt8) ∉ n) : ilTypeFromExt n = .ok 0 := by
  unfold ilTypeFromExt
  split
  · rfl
  · rw [getExt_none h, bind_ok]
    rfl

/-- The extensions that have a type, and their types, as in il_io.cpp. -/
def known : List (List Char × Nat) := extTable.flatMap fun r => r.1.map fun x => (x, r.2)

/-- **C56.** Any other extension is unknown: a name with a type has, but for case, one of the listed extensions, and the type listed with it. -/
theorem C56_known (n e : List UInt8) (h : AfterDot n e) (t : Nat) (ht : ilTypeFromExt n = .ok t) (h0 : t ≠ 0) :
    ∃ x, (x, t) ∈ known ∧ SameButCase e (txt x) := by
  rw [type_after h, Except.ok.injEq] at ht
  unfold typeOf at ht
  split at ht
  · rename_i r hr
    have h1 := List.find?_some hr
    have h2 := List.mem_of_find?_eq_some hr
    obtain ⟨x, hx, hs⟩ := List.any_eq_true.1 h1
    refine ⟨x, ?_, sameStr_iff.1 hs⟩
    unfold known
    rw [List.mem_flatMap]
    exact ⟨r, h2, List.mem_map.2 ⟨x, hx, by rw [ht]⟩⟩
  · exact absurd ht.symm h0

/-- **C56.** `iCheckExtension` is true exactly when the text after the last period is the extension but for case. -/
theorem C56_check (n e x : List UInt8) (h : AfterDot n e) (hx : x ≠ []) :
    ∃ r, iCheckExtension n x = .ok r ∧ (r = true ↔ SameButCase e x) := by
  obtain ⟨p, rfl, he⟩ := h
  refine ⟨sameStr e x, ?_, sameStr_iff⟩
  unfold iCheckExtension
  rw [if_neg (by simp [hx]), scan_after he, bind_ok]
  dsimp only
  rw [show p.length + 1 = (p ++ [46]).length by simp, show p ++ 46 :: e = (p ++ [46]) ++ e by simp, List.drop_left]
  rfl

/-- **C56.** and false for a name without a period. -/
theorem C56_check_no_period (n x : List UInt8) (h : (46 : UInt8) ∉ n) : iCheckExtension n x = .ok false := by
  unfold iCheckExtension
  split
  · rfl
  · rw [scan_nodot h, bind_ok]
    rfl

example : AfterDot (txt ['a', '.', 'b', '.', 'T', 'g', 'A']) (txt ['T', 'g', 'A']) ∧ SameButCase (txt ['T', 'g', 'A']) (txt ['t', 'g', 'a']) ∧
    ilTypeFromExt (txt ['a', '.', 'b', '.', 'T', 'g', 'A']) = .ok IL_TGA ∧ ilTypeFromExt (txt ['a', '.', 't', 'g', 'a', '.', 'b']) = .ok 0 :=
  ⟨⟨txt ['a', '.', 'b'], rfl, by decide⟩, by decide, rfl, rfl⟩

/-! ### C84 -/

/-- The extensions documented for the types in include/IL/il.h:192-245, but for `.h` (`IL_CHEAD`), `.dcx` (`IL_DCX`) and `.iff` of `IL_ILBM`. -/
def documented : List (List Char × Nat) := [
  (['b', 'm', 'p'], 0x0420), (['c', 'u', 't'], 0x0421), (['i', 'c', 'o'], 0x0424), (['c', 'u', 'r'], 0x0424),
  (['j', 'p', 'g'], 0x0425), (['j', 'p', 'e'], 0x0425), (['j', 'p', 'e', 'g'], 0x0425), (['i', 'l', 'b', 'm'], 0x0426),
  (['l', 'b', 'm'], 0x0426), (['p', 'c', 'd'], 0x0427), (['p', 'c', 'x'], 0x0428), (['p', 'i', 'c'], 0x0429),
  (['p', 'n', 'g'], 0x042A), (['p', 'b', 'm'], 0x042B), (['p', 'g', 'm'], 0x042B), (['p', 'p', 'm'], 0x042B),
  (['p', 'n', 'm'], 0x042B), (['s', 'g', 'i'], 0x042C), (['b', 'w'], 0x042C), (['r', 'g', 'b'], 0x042C),
  (['r', 'g', 'b', 'a'], 0x042C), (['t', 'g', 'a'], 0x042D), (['v', 'd', 'a'], 0x042D), (['i', 'c', 'b'], 0x042D),
  (['v', 's', 't'], 0x042D), (['t', 'i', 'f'], 0x042E), (['t', 'i', 'f', 'f'], 0x042E), (['m', 'd', 'l'], 0x0431),
  (['w', 'a', 'l'], 0x0432), (['l', 'i', 'f'], 0x0434), (['m', 'n', 'g'], 0x0435), (['g', 'i', 'f'], 0x0436),
  (['d', 'd', 's'], 0x0437), (['p', 's', 'd'], 0x0439), (['p', 's', 'p'], 0x043B), (['p', 'i', 'x'], 0x043C),
  (['p', 'x', 'r'], 0x043D), (['x', 'p', 'm'], 0x043E), (['h', 'd', 'r'], 0x043F), (['i', 'c', 'n', 's'], 0x0440),
  (['j', 'p', '2'], 0x0441), (['e', 'x', 'r'], 0x0442), (['w', 'd', 'p'], 0x0443), (['h', 'd', 'p'], 0x0443),
  (['v', 't', 'f'], 0x0444), (['w', 'b', 'm', 'p'], 0x0445), (['s', 'u', 'n'], 0x0446), (['r', 'a', 's'], 0x0446),
  (['r', 's'], 0x0446), (['i', 'm', '1'], 0x0446), (['i', 'm', '8'], 0x0446), (['i', 'm', '2', '4'], 0x0446),
  (['i', 'm', '3', '2'], 0x0446), (['i', 'f', 'f'], 0x0447), (['t', 'p', 'l'], 0x0448), (['f', 'i', 't'], 0x0449),
  (['f', 'i', 't', 's'], 0x0449), (['d', 'c', 'm'], 0x044A), (['d', 'i', 'c', 'o', 'm'], 0x044A), (['i', 'w', 'i'], 0x044B),
  (['b', 'l', 'p'], 0x044C), (['f', 't', 'x'], 0x044D), (['r', 'o', 't'], 0x044E), (['t', 'e', 'x', 't', 'u', 'r', 'e'], 0x044F),
  (['d', 'p', 'x'], 0x0450), (['u', 't', 'x'], 0x0451), (['m', 'p', '3'], 0x0452), (['k', 't', 'x'], 0x0453),
  (['c', 'h'], 0x0454), (['c', 't'], 0x0454), (['s', 'c', 't'], 0x0454)]

theorem documented_ok : documented.all (fun d => typeOf (txt d.1) == d.2 && !(txt d.1).contains 46) = true := by decide +kernel

/-- **C84.** A name whose extension is documented for a type, in any case, gets that type.  Missing, because false: `.h`, `.dcx` and `.iff`. -/
theorem C84_documented_partial (x : List Char) (t : Nat) (hx : (x, t) ∈ documented) (n e : List UInt8) (h : AfterDot n e) (hs : SameButCase e (txt x)) :
    ilTypeFromExt n = .ok t := by
  have := List.all_eq_true.1 documented_ok _ hx
  simp only [Bool.and_eq_true, beq_iff_eq, Bool.not_eq_true'] at this
  obtain ⟨h1, h2⟩ := this
  have h3 : AfterDot (46 :: txt x) (txt x) := ⟨[], rfl, by simpa using h2⟩
  obtain ⟨t', e1, e2⟩ := C56_only_extension n _ e _ h h3 hs
  rw [type_after h3, h1] at e2
  rw [e1, ← e2]

example : ((['p', 'g', 'm'], 0x042B) : List Char × Nat) ∈ documented := by decide

/-- **C84 (violated).** `a.h` and `a.dcx` have no type although `IL_CHEAD` and `IL_DCX` document these extensions, and `a.iff` is not `IL_ILBM`. -/
theorem C84_violated : ilTypeFromExt (txt ['a', '.', 'h']) = .ok 0 ∧ ilTypeFromExt (txt ['a', '.', 'd', 'c', 'x']) = .ok 0 ∧
    ilTypeFromExt (txt ['a', '.', 'i', 'f', 'f']) = .ok 0x0447 := ⟨rfl, rfl, rfl⟩

/-! ### C55 -/

/-- What a program does with handlers. -/
inductive Op where
  | register (ext : List UInt8) (f : Nat)
  | remove (ext : List UInt8)

/-- The program's list after a history, oldest call first. -/
def runOps : List Op → Procs → Procs
  | [], s => s
  | .register e f :: ops, s => runOps ops (ilRegisterLoad s e f).2
  | .remove e :: ops, s => runOps ops (ilRemoveLoad e s).2

/-- What a user expects: for each extension, whatever its case, at most one handler, the one registered last. -/
abbrev Expect := List UInt8 → Option Nat

def expectOps : List Op → Expect → Expect
  | [], m => m
  | .register e f :: ops, m => expectOps ops fun x => if SameButCase x e then some f else m x
  | .remove e :: ops, m => expectOps ops fun x => if SameButCase x e then none else m x

/-- No extension is registered while it has a handler. -/
def Fresh : List Op → Expect → Prop
  | [], _ => True
  | .register e f :: ops, m => m e = none ∧ Fresh ops fun x => if SameButCase x e then some f else m x
  | .remove e :: ops, m => Fresh ops fun x => if SameButCase x e then none else m x

/-- The list holds exactly the expected handlers, each once. -/
structure Agrees (s : Procs) (m : Expect) : Prop where
  nodup : (s.map fun n => n.1.map lower).Nodup
  mem : ∀ x f, m x = some f ↔ ∃ e, (e, f) ∈ s ∧ SameButCase e x

theorem agrees_register {s : Procs} {m : Expect} (h : Agrees s m) (e : List UInt8) (f : Nat) (hf : m e = none) :
    Agrees (ilRegisterLoad s e f).2 fun x => if SameButCase x e then some f else m x := by
  have hno : ∀ n ∈ s, ¬ SameButCase n.1 e := by
    intro n hn hx
    have := (h.mem e n.2).2 ⟨n.1, hn, hx⟩
    rw [hf] at this
    exact nomatch this
  have hr : (ilRegisterLoad s e f).2 = s ++ [(e, f)] := by
    unfold ilRegisterLoad
    cases s with
    | nil => rfl
    | cons a t =>
      dsimp only
      rw [if_neg]
      intro hany
      obtain ⟨n, hn, hs⟩ := List.any_eq_true.1 hany
      exact hno n (List.mem_cons_of_mem _ hn) (sameStr_iff.1 hs)
  rw [hr]
  refine ⟨?_, fun x g => ?_⟩
  · rw [List.map_append, List.nodup_append]
    refine ⟨h.nodup, by simp, fun a ha b hb => ?_⟩
    obtain ⟨n, hn, rfl⟩ := List.mem_map.1 ha
    simp only [List.map_cons, List.map_nil, List.mem_singleton] at hb
    subst hb
    exact fun he => hno n hn ((same_iff _ _).2 he)
  · split
    · rename_i hx
      constructor
      · intro hg
        exact ⟨e, by rw [List.mem_append]; right; rw [Option.some.injEq] at hg; rw [hg]; exact List.mem_singleton.2 rfl, hx.symm⟩
      · rintro ⟨e', he', hx'⟩
        rcases List.mem_append.1 he' with h' | h'
        · exact absurd (hx'.trans hx) (hno _ h')
        · rw [List.mem_singleton, Prod.mk.injEq] at h'
          rw [h'.2]
    · rename_i hx
      rw [h.mem]
      constructor
      · rintro ⟨e', he', hx'⟩
        exact ⟨e', List.mem_append.2 (Or.inl he'), hx'⟩
      · rintro ⟨e', he', hx'⟩
        rcases List.mem_append.1 he' with h' | h'
        · exact ⟨e', h', hx'⟩
        · rw [List.mem_singleton, Prod.mk.injEq] at h'
          rw [h'.1] at hx'
          exact absurd hx'.symm hx

theorem remove_eq (e : List UInt8) : ∀ {s : Procs}, (s.map fun n => n.1.map lower).Nodup →
    (ilRemoveLoad e s).2 = s.filter fun n => !(sameStr e n.1)
  | [], _ => rfl
  | n :: t, h => by
    rw [List.map_cons, List.nodup_cons] at h
    unfold ilRemoveLoad
    cases hs : sameStr e n.1 with
    | true =>
      rw [if_pos rfl, List.filter_cons_of_neg (by simp [hs])]
      refine (List.filter_eq_self.2 fun a ha => ?_).symm
      rw [Bool.not_eq_true']
      cases hsa : sameStr e a.1 with
      | false => rfl
      | true =>
        exact absurd (List.mem_map.2 ⟨a, ha, (same_iff _ _).1 ((sameStr_iff.1 hsa).symm.trans (sameStr_iff.1 hs))⟩) h.1
    | false =>
      rw [if_neg (by simp), List.filter_cons_of_pos (by simp [hs])]
      dsimp only
      rw [remove_eq e h.2]

theorem agrees_remove {s : Procs} {m : Expect} (h : Agrees s m) (e : List UInt8) :
    Agrees (ilRemoveLoad e s).2 fun x => if SameButCase x e then none else m x := by
  rw [remove_eq e h.nodup]
  refine ⟨h.nodup.sublist (List.Sublist.map _ List.filter_sublist), fun x f => ?_⟩
  have hk : ∀ n : List UInt8 × Nat, (!(sameStr e n.1)) = true ↔ ¬ SameButCase n.1 e := by
    intro n
    rw [Bool.not_eq_true']
    constructor
    · intro h1 h2
      rw [sameStr_iff.2 h2.symm] at h1
      exact nomatch h1
    · intro h1
      cases hs : sameStr e n.1 with
      | false => rfl
      | true => exact absurd (sameStr_iff.1 hs).symm h1
  split
  · rename_i hx
    constructor
    · exact fun hn => nomatch hn
    · rintro ⟨e', he', hx'⟩
      have := (hk _).1 (List.mem_filter.1 he').2
      exact absurd (hx'.trans hx) this
  · rename_i hx
    rw [h.mem]
    constructor
    · rintro ⟨e', he', hx'⟩
      exact ⟨e', List.mem_filter.2 ⟨he', (hk _).2 fun he => hx (hx'.symm.trans he)⟩, hx'⟩
    · rintro ⟨e', he', hx'⟩
      exact ⟨e', (List.mem_filter.1 he').1, hx'⟩

theorem agrees_find {s : Procs} {m : Expect} (h : Agrees s m) (e : List UInt8) :
    (s.find? fun n => sameStr e n.1).map Prod.snd = m e := by
  cases hf : s.find? fun n => sameStr e n.1 with
  | none =>
    rw [List.find?_eq_none] at hf
    cases hm : m e with
    | none => rfl
    | some f =>
      obtain ⟨e', he', hx⟩ := (h.mem _ _).1 hm
      exact absurd (sameStr_iff.2 hx.symm) (hf _ he')
  | some n =>
    rw [Option.map_some]
    exact ((h.mem _ _).2 ⟨n.1, List.mem_of_find?_eq_some hf, (sameStr_iff.1 (List.find?_some (p := fun n : List UInt8 × Nat => sameStr e n.1) hf)).symm⟩).symm

theorem agrees_ops : ∀ (ops : List Op) (s : Procs) (m : Expect), Agrees s m → Fresh ops m → Agrees (runOps ops s) (expectOps ops m)
  | [], _, _, h, _ => h
  | .register e f :: ops, s, m, h, hf => agrees_ops ops _ _ (agrees_register h e f hf.1) hf.2
  | .remove e :: ops, s, m, h, hf => agrees_ops ops _ _ (agrees_remove h e) hf

/-- **C55.** After any history of registering and removing in which no extension is registered while it has a handler, loading a file calls
the handler registered for its extension and not removed since, and no handler if there is none; and each extension has one handler.
Missing, because false: registering again. -/
theorem C55_history_partial (run : Nat → Nat) (ops : List Op) (hf : Fresh ops fun _ => none) (n e : List UInt8) (h : AfterDot n e) :
    iRegisterLoad run (runOps ops []) n =
      .ok (expectOps ops (fun _ => none) e, match expectOps ops (fun _ => none) e with
        | some f => run f = 0
        | none => false) ∧
      (runOps ops []).Pairwise (fun a b => ¬ SameButCase a.1 b.1) := by
  have hA := agrees_ops ops [] (fun _ => none) ⟨List.nodup_nil, fun x f => by simp⟩ hf
  refine ⟨?_, (List.pairwise_map.1 hA.nodup).imp fun h hs => h ((same_iff _ _).1 hs)⟩
  unfold iRegisterLoad
  rw [getExt h, bind_ok, ← agrees_find hA e]
  dsimp only
  split <;> rename_i he <;> rw [he] <;> rfl

/-- **C55.** In any state, registering a handler for an extension without one makes it the handler of the extension; registering a handler
for an extension that has one changes no file's handler, though it reports success. -/
theorem C55_register_partial (run : Nat → Nat) (s : Procs) (e : List UInt8) (f : Nat) (n e' : List UInt8) (h : AfterDot n e') :
    (ilRegisterLoad s e f).1 = true ∧
      ((∀ x ∈ s, ¬ SameButCase e x.1) → SameButCase e' e → iRegisterLoad run (ilRegisterLoad s e f).2 n = .ok (some f, run f = 0)) ∧
      (((∃ x ∈ s, SameButCase e x.1) ∨ ¬ SameButCase e' e) → iRegisterLoad run (ilRegisterLoad s e f).2 n = iRegisterLoad run s n) := by
  have hcases : (ilRegisterLoad s e f).2 = s ∧ (∃ x ∈ s, SameButCase e x.1) ∨ (ilRegisterLoad s e f).2 = s ++ [(e, f)] := by
    unfold ilRegisterLoad
    cases s with
    | nil => exact Or.inr rfl
    | cons a t =>
      dsimp only
      split
      · rename_i hany
        obtain ⟨x, hx, hs⟩ := List.any_eq_true.1 hany
        exact Or.inl ⟨rfl, x, List.mem_cons_of_mem _ hx, (sameStr_iff.1 hs).symm⟩
      · exact Or.inr rfl
  refine ⟨?_, fun hno hs => ?_, fun hor => ?_⟩
  · unfold ilRegisterLoad
    split
    · rfl
    · split <;> rfl
  · rcases hcases with ⟨_, x, hx, hx'⟩ | hc
    · exact absurd hx' (hno x hx)
    · rw [hc]
      unfold iRegisterLoad
      rw [getExt h, bind_ok]
      dsimp only
      rw [List.find?_append, List.find?_eq_none.2 fun x hx hsx => hno x hx (hs.symm.trans (sameStr_iff.1 hsx))]
      rw [Option.none_or, List.find?_cons_of_pos (p := fun n : List UInt8 × Nat => sameStr e' n.1) (sameStr_iff.2 hs)]
      rfl
  · rcases hcases with ⟨hc, _⟩ | hc
    · rw [hc]
    · rw [hc]
      unfold iRegisterLoad
      rw [getExt h, bind_ok, bind_ok]
      dsimp only
      rw [List.find?_append]
      cases hfd : s.find? fun n => sameStr e' n.1 with
      | some x => rfl
      | none =>
        rw [Option.none_or]
        have : ¬ SameButCase e' e := by
          rcases hor with ⟨x, hx, hs⟩ | h'
          · intro hs'
            exact List.find?_eq_none.1 hfd x hx (sameStr_iff.2 (hs'.trans hs))
          · exact h'
        rw [List.find?_cons_of_neg (p := fun n : List UInt8 × Nat => sameStr e' n.1) (fun hs => this (sameStr_iff.1 hs))]
        rfl

theorem unique_tail : ∀ (ops : List Op) (s : Procs), (s.tail.map fun n => n.1.map lower).Nodup → ((runOps ops s).tail.map fun n => n.1.map lower).Nodup := by
  have hrem : ∀ (e : List UInt8) (s : Procs), List.Sublist (ilRemoveLoad e s).2 s := by
    intro e s
    induction s with
    | nil => exact List.Sublist.refl _
    | cons n t ih =>
      unfold ilRemoveLoad
      split
      · exact List.sublist_cons_self ..
      · exact List.Sublist.cons_cons n ih
  intro ops
  induction ops with
  | nil => exact fun _ h => h
  | cons op ops ih =>
    intro s h
    cases op with
    | register e f =>
      refine ih _ ?_
      unfold ilRegisterLoad
      cases s with
      | nil => exact List.nodup_nil
      | cons a t =>
        dsimp only
        split
        · exact h
        · rename_i hany
          show (List.map _ (t ++ [(e, f)])).Nodup
          rw [List.map_append, List.nodup_append]
          refine ⟨h, by simp, fun x hx y hy => ?_⟩
          obtain ⟨n, hn, rfl⟩ := List.mem_map.1 hx
          simp only [List.map_cons, List.map_nil, List.mem_singleton] at hy
          subst hy
          intro he
          exact hany (List.any_eq_true.2 ⟨n, hn, sameStr_iff.2 ((same_iff _ _).2 he)⟩)
    | remove e =>
      refine ih _ ?_
      cases s with
      | nil => exact List.nodup_nil
      | cons a t =>
        unfold ilRemoveLoad
        split
        · exact List.Nodup.sublist (List.Sublist.map _ (List.tail_sublist t)) h
        · exact List.Nodup.sublist (List.Sublist.map _ (hrem e t)) h

/-- **C55.** After any history no extension has two handlers, but for that of the first handler of all. -/
theorem C55_at_most_two_partial (ops : List Op) : (runOps ops []).tail.Pairwise (fun a b => ¬ SameButCase a.1 b.1) :=
  (List.pairwise_map.1 (unique_tail ops [] List.nodup_nil)).imp fun h hs => h ((same_iff _ _).1 hs)

def xyz : List UInt8 := txt ['x', 'y', 'z']
def abc : List UInt8 := txt ['a', 'b', 'c']

example : Fresh [.register xyz 1, .register abc 2, .remove xyz, .register xyz 3] (fun _ => none) ∧
    expectOps [.register xyz 1, .register abc 2, .remove xyz, .register xyz 3] (fun _ => none) xyz = some 3 ∧ AfterDot (46 :: xyz) xyz :=
  ⟨⟨rfl, rfl, rfl, trivial⟩, rfl, [], rfl, by decide⟩

/-- **C55 (violated).** Registered twice, the first handler of all gets a second entry: after it is removed, the second handler is called. -/
theorem C55_violated_remove (run : Nat → Nat) :
    iRegisterLoad run (runOps [.register xyz 1, .register xyz 2, .remove xyz] []) (46 :: xyz) = .ok (some 2, run 2 = 0) := rfl

/-- **C55 (violated).** The handler registered last is not the one called, although registering it reported success. -/
theorem C55_violated_again (run : Nat → Nat) : (ilRegisterLoad (runOps [.register abc 7, .register xyz 1] []) xyz 2).1 = true ∧
    iRegisterLoad run (runOps [.register abc 7, .register xyz 1, .register xyz 2] []) (46 :: xyz) = .ok (some 1, run 1 = 0) := ⟨rfl, rfl⟩

end DevIL.Register
