import Verif.Model.Pnm
/-! More fuel does not change an outcome other than `hang`. -/
set_option autoImplicit false
namespace DevIL.Pnm
open DevIL.Lump DevIL.Image DevIL.Utility

/-- `b` is the outcome `a`, unless `a` only ran out of fuel. -/
def Le {α : Type} (a b : C α) : Prop := a = .error .hang ∨ b = a

theorem Le.rfl {α : Type} {a : C α} : Le a a := Or.inr _root_.rfl

theorem Le.bind {α β : Type} {a b : C α} {f g : α → C β} (h : Le a b) (hf : ∀ x, Le (f x) (g x)) : Le (a >>= f) (b >>= g) := by
  rcases h with h | h
  · left; rw [h]; rfl
  · subst h
    cases b with
    | error e => exact Or.inr _root_.rfl
    | ok x => exact hf x

theorem Le.ite {α : Type} {p : Prop} [Decidable p] {a b c d : C α} (h : Le a b) (h' : Le c d) : Le (if p then a else c) (if p then b else d) := by
  split <;> assumption

theorem inner_le {n : Nat} : ∀ {m : Nat} {word : List UInt8} {k : Nat} {l : R}, n ≤ m → Le (inner n word k l) (inner m word k l) := by
  induction n with
  | zero => intro m word k l _; exact Or.inl rfl
  | succ n ih =>
    intro m word k l h
    obtain ⟨m, rfl⟩ : ∃ q, m = q + 1 := ⟨m - 1, by omega⟩
    unfold inner
    refine Le.rfl.bind fun x => ?_
    obtain ⟨c, l⟩ := x
    exact Le.ite .rfl (Le.ite .rfl (Le.ite (ih (by omega)) (Le.rfl.bind fun w => ih (by omega))))

theorem readUntil_le {p : Option UInt8 → Bool} {n : Nat} : ∀ {m : Nat} {l : R}, n ≤ m → Le (readUntil p n l) (readUntil p m l) := by
  induction n with
  | zero => intro m l _; exact Or.inl rfl
  | succ n ih =>
    intro m l h
    obtain ⟨m, rfl⟩ : ∃ q, m = q + 1 := ⟨m - 1, by omega⟩
    unfold readUntil
    refine Le.rfl.bind fun x => ?_
    obtain ⟨c, l⟩ := x
    exact Le.ite .rfl (ih (by omega))

theorem skipComment_le {n m : Nat} {c : Option UInt8} {l : R} (h : n ≤ m) : Le (skipComment n c l) (skipComment m c l) := by
  unfold skipComment
  exact Le.ite ((readUntil_le h).bind fun x => .rfl) .rfl

theorem outer_le {final : Bool} {n : Nat} : ∀ {m : Nat} {word : List UInt8} {k : Nat} {l : R}, n ≤ m → Le (outer final n word k l) (outer final m word k l) := by
  induction n with
  | zero => intro m word k l _; exact Or.inl rfl
  | succ n ih =>
    intro m word k l h
    obtain ⟨m, rfl⟩ : ∃ q, m = q + 1 := ⟨m - 1, by omega⟩
    unfold outer
    refine (inner_le (by omega)).bind fun s => Le.ite .rfl (Le.ite .rfl (Le.rfl.bind fun w => Le.ite .rfl
      ((skipComment_le (by omega)).bind fun l1 => (readUntil_le (by omega)).bind fun x => ?_)))
    obtain ⟨c, l2⟩ := x
    refine Le.rfl.bind fun y => ?_
    obtain ⟨e, l3⟩ := y
    exact Le.ite .rfl (ih (by omega))

theorem iGetWord_le {n m : Nat} {final : Bool} {word : List UInt8} {l : R} (h : n ≤ m) : Le (iGetWord n final word l) (iGetWord m final word l) := by
  unfold iGetWord
  exact Le.ite .rfl (outer_le h)

theorem iFgets_le {k n : Nat} : ∀ {m : Nat} {buf : List UInt8} {c : Nat} {l : R}, n ≤ m → Le (iFgets k n buf c l) (iFgets k m buf c l) := by
  induction n with
  | zero => intro m buf c l _; exact Or.inl rfl
  | succ n ih =>
    intro m buf c l h
    obtain ⟨m, rfl⟩ : ∃ q, m = q + 1 := ⟨m - 1, by omega⟩
    unfold iFgets
    refine Le.rfl.bind fun x => ?_
    obtain ⟨c, l⟩ := x
    exact Le.ite .rfl (Le.rfl.bind fun b => ih (by omega))

theorem lines_le {two : Bool} {size : Int} {n : Nat} : ∀ {m : Nat} {buf : List UInt8} {s : A} {l : R}, n ≤ m →
    Le (lines two size n buf s l) (lines two size m buf s l) := by
  induction n with
  | zero => intro m buf s l _; exact Or.inl rfl
  | succ n ih =>
    intro m buf s l h
    obtain ⟨m, rfl⟩ : ∃ q, m = q + 1 := ⟨m - 1, by omega⟩
    unfold lines
    refine Le.ite .rfl ((iFgets_le (by omega)).bind fun x => ?_)
    obtain ⟨g, b, l1⟩ := x
    exact Le.ite .rfl (Le.rfl.bind fun c => Le.ite (ih (by omega)) (Le.rfl.bind fun s => ih (by omega)))

theorem bitLoop_le {w size n : Nat} : ∀ {m : Nat} {x j : Nat} {d : List UInt8} {l : R}, n ≤ m → Le (bitLoop w size n x j d l) (bitLoop w size m x j d l) := by
  induction n with
  | zero => intro m x j d l _; exact Or.inl rfl
  | succ n ih =>
    intro m x j d l h
    obtain ⟨m, rfl⟩ : ∃ q, m = q + 1 := ⟨m - 1, by omega⟩
    unfold bitLoop
    refine Le.ite .rfl (Le.rfl.bind fun y => ?_)
    obtain ⟨b, l1⟩ := y
    refine Le.rfl.bind fun z => ?_
    obtain ⟨x, j, d⟩ := z
    exact ih (by omega)

theorem pamLoop_le {n : Nat} : ∀ {m : Nat} {word : List UInt8} {i : PamInfo} {l : R}, n ≤ m → Le (pamLoop n word i l) (pamLoop m word i l) := by
  induction n with
  | zero => intro m word i l _; exact Or.inl rfl
  | succ n ih =>
    intro m word i l h
    obtain ⟨m, rfl⟩ : ∃ q, m = q + 1 := ⟨m - 1, by omega⟩
    unfold pamLoop
    refine Le.ite .rfl ((iGetWord_le (by omega)).bind fun x => ?_)
    obtain ⟨a, b, c⟩ := x
    refine Le.ite .rfl (Le.ite .rfl ((iGetWord_le (by omega)).bind fun y => ?_))
    obtain ⟨a', b', c'⟩ := y
    exact Le.ite .rfl (Le.rfl.bind fun i => ih (by omega))

theorem numbers_le {n m type : Nat} {word : List UInt8} {l : R} (h : n ≤ m) : Le (numbers n type word l) (numbers m type word l) := by
  unfold numbers
  refine (iGetWord_le h).bind fun x => ?_
  obtain ⟨a, b, c⟩ := x
  refine Le.ite .rfl (Le.rfl.bind fun w => Le.ite .rfl ((iGetWord_le h).bind fun y => ?_))
  obtain ⟨a', b', c'⟩ := y
  refine Le.ite .rfl (Le.rfl.bind fun w => Le.ite .rfl (Le.ite .rfl ((iGetWord_le h).bind fun y => ?_)))
  obtain ⟨a'', b'', c''⟩ := y
  exact .rfl

theorem reader_le {n m : Nat} {junk : Nat → UInt8} {info : Info} {line word : List UInt8} {l : R} (h : n ≤ m) :
    Le (reader n junk info line word l) (reader m junk info line word l) := by
  unfold reader
  refine Le.ite ?_ (Le.ite ?_ .rfl)
  · unfold ilReadAsciiPpm
    refine Le.rfl.bind fun x => ?_
    cases x with
    | none => exact .rfl
    | some q =>
      refine (lines_le h).bind fun y => ?_
      exact .rfl
  · unfold ilReadBitPbm
    refine Le.rfl.bind fun x => ?_
    cases x with
    | none => exact .rfl
    | some q =>
      refine (bitLoop_le h).bind fun y => ?_
      exact .rfl

theorem load_le {n m : Nat} {junk : Nat → UInt8} {line word : List UInt8} {l : R} (h : n ≤ m) :
    Le (iLoadPnmInternal n junk line word l) (iLoadPnmInternal m junk line word l) := by
  unfold iLoadPnmInternal
  refine (iGetWord_le h).bind fun x => ?_
  obtain ⟨a, b, c⟩ := x
  refine Le.ite .rfl ?_
  dsimp only
  refine Le.ite .rfl (Le.ite ?_ ((numbers_le h).bind fun y => ?_))
  · unfold ilReadPam
    refine (pamLoop_le h).bind fun y => ?_
    exact .rfl
  · obtain ⟨i, w, l1⟩ := y
    cases i with
    | none => exact .rfl
    | some i =>
      refine (reader_le h).bind fun z => ?_
      exact .rfl

/-- An outcome other than `hang` is that of every larger amount of fuel. -/
theorem load_mono {n m : Nat} {junk : Nat → UInt8} {line word : List UInt8} {l : R} {r : C (Bool × Cur × R)} (h : n ≤ m)
    (e : iLoadPnmInternal n junk line word l = r) (hr : r ≠ .error .hang) : iLoadPnmInternal m junk line word l = r := by
  rcases load_le (junk := junk) (line := line) (word := word) (l := l) h with h | h
  · exact absurd (e.symm.trans h) hr
  · rw [h, e]

end DevIL.Pnm
