/-
Common vocabulary of the model: C outcomes, checked buffer accesses, loops.
Nothing in this file models a particular DevIL function; every modelling file
imports it.
-/

namespace DevIL

/-- Undefined behaviour and non-termination as explicit outcomes. -/
inductive Fault where
  | oobRead | oobWrite | useAfterFree | doubleFree | nullDeref | hang | uninit
  | overflow
  deriving DecidableEq, Repr

/-- The result of running C code. -/
abbrev C (α : Type) := Except Fault α

/-- `p` holds of the value of an outcome that is not a fault. -/
def C.Safe {α : Type} (c : C α) : Prop := ∃ a, c = .ok a

theorem C.safe_ok {α : Type} (a : α) : C.Safe (.ok a : C α) := ⟨a, rfl⟩

theorem C.not_safe_error {α : Type} (f : Fault) : ¬ C.Safe (.error f : C α) := by
  rintro ⟨a, h⟩; cases h

instance : LawfulMonad (Except Fault) := inferInstance

instance instDecidableEqC {α : Type} [DecidableEq α] : DecidableEq (C α)
  | .ok a, .ok b => if h : a = b then isTrue (by rw [h]) else isFalse (by intro e; cases e; exact h rfl)
  | .error a, .error b =>
      if h : a = b then isTrue (by rw [h]) else isFalse (by intro e; cases e; exact h rfl)
  | .ok _, .error _ => isFalse (by intro e; cases e)
  | .error _, .ok _ => isFalse (by intro e; cases e)

@[simp] theorem bind_ok {α β : Type} (a : α) (f : α → C β) : ((Except.ok a : C α) >>= f) = f a := rfl
@[simp] theorem bind_error {α β : Type} (e : Fault) (f : α → C β) :
    ((Except.error e : C α) >>= f) = .error e := rfl
@[simp] theorem pure_eq_ok {α : Type} (a : α) : (pure a : C α) = .ok a := rfl
@[simp] theorem map_ok {α β : Type} (a : α) (f : α → β) : (f <$> (Except.ok a : C α)) = .ok (f a) := rfl
@[simp] theorem map_error {α β : Type} (e : Fault) (f : α → β) :
    (f <$> (Except.error e : C α)) = .error e := rfl

variable {β σ : Type}

/-- `b[i]`, a fault outside the buffer. -/
def rd (b : List β) (i : Nat) : C β :=
  match b[i]? with
  | some v => .ok v
  | none => .error .oobRead

/-- `b[i] = v`, a fault outside the buffer. -/
def wr (b : List β) (i : Nat) (v : β) : C (List β) :=
  if i < b.length then .ok (b.set i v) else .error .oobWrite

@[simp] theorem rd_of_some {b : List β} {i : Nat} {v : β} (h : b[i]? = some v) : rd b i = .ok v := by
  simp [rd, h]

theorem rd_of_lt {b : List β} {i : Nat} (h : i < b.length) : rd b i = .ok b[i] := by
  simp [rd, h]

theorem rd_of_ge {b : List β} {i : Nat} (h : b.length ≤ i) : rd b i = .error .oobRead := by
  simp [rd, h]

theorem rd_eq_ok {b : List β} {i : Nat} {v : β} : rd b i = .ok v ↔ b[i]? = some v := by
  unfold rd
  split <;> rename_i h <;> simp [h]

theorem wr_of_lt {b : List β} {i : Nat} {v : β} (h : i < b.length) : wr b i v = .ok (b.set i v) := by
  simp [wr, h]

theorem wr_of_ge {b : List β} {i : Nat} {v : β} (h : b.length ≤ i) :
    wr b i v = .error .oobWrite := by
  simp [wr]; omega

theorem wr_eq_ok {b b' : List β} {i : Nat} {v : β} :
    wr b i v = .ok b' ↔ i < b.length ∧ b.set i v = b' := by
  unfold wr
  split <;> rename_i h <;> simp [h]

/-- `for (k = 0; k < n; k++) s = f(k, s)`, starting the count at `i`. -/
def loopFrom (f : Nat → σ → C σ) : Nat → Nat → σ → C σ
  | _, 0, s => .ok s
  | i, n + 1, s => f i s >>= fun s' => loopFrom f (i + 1) n s'

/-- `for (k = 0; k < n; k++) s = f(k, s)`. -/
def loopN (n : Nat) (f : Nat → σ → C σ) (s : σ) : C σ := loopFrom f 0 n s

/-- `for (i = start; i < stop; i += step) s = f(i, s)`; a zero step with work left never ends. -/
def forStep (start stop step : Nat) (f : Nat → σ → C σ) (s : σ) : C σ :=
  if step = 0 then (if start < stop then .error .hang else .ok s)
  else loopN ((stop - start + (step - 1)) / step) (fun k => f (start + k * step)) s

/-- `while (c(s)) s = f(s)`, cut off after `fuel` tests of the condition (outcome `hang`).  The C
loop terminates on `s` iff some `fuel` avoids the cut-off (`whileF_mono`); it runs for ever iff every
`fuel` is cut off. -/
def whileF (c : σ → Bool) (f : σ → C σ) : Nat → σ → C σ
  | 0, _ => .error .hang
  | fuel + 1, s => if c s then f s >>= whileF c f fuel else .ok s

@[simp] theorem loopFrom_zero (f : Nat → σ → C σ) (i : Nat) (s : σ) : loopFrom f i 0 s = .ok s := rfl
theorem loopFrom_succ (f : Nat → σ → C σ) (i n : Nat) (s : σ) :
    loopFrom f i (n + 1) s = (f i s >>= fun s' => loopFrom f (i + 1) n s') := rfl
@[simp] theorem loopN_zero (f : Nat → σ → C σ) (s : σ) : loopN 0 f s = .ok s := rfl

theorem loopFrom_inv {f : Nat → σ → C σ} {I : Nat → σ → Prop} :
    ∀ (n i : Nat) (s : σ), I i s →
      (∀ k t, i ≤ k → k < i + n → I k t → ∃ t', f k t = .ok t' ∧ I (k + 1) t') →
      ∃ t, loopFrom f i n s = .ok t ∧ I (i + n) t := by
  intro n
  induction n with
  | zero => intro i s h _; exact ⟨s, rfl, by simpa using h⟩
  | succ n ih =>
    intro i s h hs
    obtain ⟨t, ht, hI⟩ := hs i s (Nat.le_refl _) (by omega) h
    obtain ⟨t', ht', hI'⟩ := ih (i + 1) t hI (fun k u h1 h2 h3 => hs k u (by omega) (by omega) h3)
    refine ⟨t', ?_, by simpa [Nat.add_assoc, Nat.add_comm 1] using hI'⟩
    rw [loopFrom_succ, ht]; exact ht'

/-- The workhorse: a loop invariant established before the loop and preserved by the
body (which never faults under it) holds after the loop, which does not fault. -/
theorem loopN_inv {f : Nat → σ → C σ} (I : Nat → σ → Prop) {n : Nat} {s : σ} (h0 : I 0 s)
    (hs : ∀ k t, k < n → I k t → ∃ t', f k t = .ok t' ∧ I (k + 1) t') :
    ∃ t, loopN n f s = .ok t ∧ I n t := by
  have := loopFrom_inv (f := f) (I := I) n 0 s h0 (fun k t _ h2 h3 => hs k t (by omega) h3)
  simpa [loopN] using this

theorem loopFrom_append (f : Nat → σ → C σ) : ∀ (m n i : Nat) (s : σ),
    loopFrom f i (m + n) s = (loopFrom f i m s >>= fun t => loopFrom f (i + m) n t) := by
  intro m
  induction m with
  | zero => intro n i s; simp
  | succ m ih =>
    intro n i s
    rw [show m + 1 + n = (m + n) + 1 by omega, loopFrom_succ, loopFrom_succ]
    cases h : f i s with
    | error e => simp
    | ok t => simp only [bind_ok]; rw [ih]; simp [show i + 1 + m = i + (m + 1) by omega]

theorem loopN_succ (f : Nat → σ → C σ) (n : Nat) (s : σ) :
    loopN (n + 1) f s = (loopN n f s >>= fun t => f n t) := by
  unfold loopN
  rw [loopFrom_append]
  congr 1; funext t
  simp only [Nat.zero_add, loopFrom_succ, loopFrom_zero]
  cases f n t <;> rfl

theorem loopN_congr {f g : Nat → σ → C σ} {n : Nat} {s : σ} (h : ∀ k t, k < n → f k t = g k t) :
    loopN n f s = loopN n g s := by
  induction n with
  | zero => rfl
  | succ n ih =>
    rw [loopN_succ, loopN_succ, ih (fun k t hk => h k t (by omega))]
    cases loopN n g s with
    | error e => rfl
    | ok t => exact h n t (by omega)

/-- A pure loop body (one that never faults) makes the loop a fold. -/
theorem loopN_pure {f : Nat → σ → C σ} {g : Nat → σ → σ} {n : Nat} {s : σ}
    (h : ∀ k t, k < n → f k t = .ok (g k t)) :
    loopN n f s = .ok ((List.range n).foldl (fun t k => g k t) s) := by
  induction n with
  | zero => rfl
  | succ n ih =>
    rw [loopN_succ, ih (fun k t hk => h k t (by omega)), List.range_succ, List.foldl_append]
    simpa using h n _ (by omega)

theorem forStep_pos {start stop step : Nat} (h : 0 < step) (f : Nat → σ → C σ) (s : σ) :
    forStep start stop step f s =
      loopN ((stop - start + (step - 1)) / step) (fun k => f (start + k * step)) s := by
  unfold forStep; rw [if_neg (by omega)]

/-- A strided loop over a multiple of the step makes `m` iterations. -/
theorem forStep_mul {m step : Nat} (h : 0 < step) (f : Nat → σ → C σ) (s : σ) :
    forStep 0 (m * step) step f s = loopN m (fun k => f (k * step)) s := by
  rw [forStep_pos h]
  have : (m * step - 0 + (step - 1)) / step = m := by
    rw [Nat.sub_zero, Nat.add_comm, Nat.add_mul_div_right _ _ h, Nat.div_eq_of_lt (by omega)]; omega
  rw [this]; simp

/-- Writing `g 0, g 1, ...` to consecutive positions. -/
theorem loopN_fill {n : Nat} {d : List β} (g : Nat → β) (h : n ≤ d.length) :
    loopN n (fun i d => wr d i (g i)) d = .ok ((List.range n).map g ++ d.drop n) := by
  induction n with
  | zero => simp
  | succ n ih =>
    rw [loopN_succ, ih (by omega), bind_ok, wr_of_lt (by simp; omega), List.range_succ]
    congr 1
    rw [List.map_append, List.set_append]
    simp only [List.length_map, List.length_range, Nat.lt_irrefl, if_false, Nat.sub_self,
      List.append_assoc]
    rw [List.drop_eq_getElem_cons (by omega : n < d.length)]
    rfl

theorem loopN_error {f : Nat → σ → C σ} {n k : Nat} {s t : σ} {e : Fault} (hk : k < n)
    (h1 : loopN k f s = .ok t) (h2 : f k t = .error e) : loopN n f s = .error e := by
  unfold loopN at *
  rw [show n = k + (n - k) by omega, loopFrom_append, h1, bind_ok]
  rw [show n - k = (n - k - 1) + 1 by omega, loopFrom_succ]
  simp [h2]

theorem whileF_mono {c : σ → Bool} {f : σ → C σ} {m n : Nat} {s t : σ} (h : m ≤ n)
    (hm : whileF c f m s = .ok t) : whileF c f n s = .ok t := by
  induction m generalizing n s with
  | zero => simp [whileF] at hm
  | succ m ih =>
    obtain ⟨n, rfl⟩ : ∃ k, n = k + 1 := ⟨n - 1, by omega⟩
    simp only [whileF] at hm ⊢
    split <;> rename_i hc
    · rw [if_pos hc] at hm
      cases hf : f s with
      | error e => rw [hf] at hm; simp at hm
      | ok s' => rw [hf] at hm; exact ih (by omega) hm
    · rw [if_neg hc] at hm; exact hm

/-- 32-bit unsigned truncation. -/
def u32 (n : Nat) : Nat := n % 4294967296

theorem u32_of_lt {n : Nat} (h : n < 4294967296) : u32 n = n := Nat.mod_eq_of_lt h
theorem u32_lt (n : Nat) : u32 n < 4294967296 := Nat.mod_lt _ (by decide)

/-- The byte at index `i` of pixel-like positions: `i / k` and `i % k` determine `i`. -/
theorem lt_mul_of_div_lt {i n k : Nat} (h : i / k < n) (hk : 0 < k) : i < n * k := by
  rw [Nat.div_lt_iff_lt_mul hk] at h; exact h

theorem idx_lt {x c w k : Nat} (hx : x < w) (hc : c < k) : x * k + c < w * k := by
  have : x * k + k ≤ w * k := by
    rw [← Nat.succ_mul]; exact Nat.mul_le_mul_right k hx
  omega

theorem idx_inj {x c x' c' k : Nat} (hc : c < k) (hc' : c' < k) (h : x * k + c = x' * k + c') :
    x = x' ∧ c = c' := by
  have hk : 0 < k := by omega
  have h1 : (x * k + c) / k = x := by
    rw [Nat.add_comm, Nat.add_mul_div_right _ _ hk, Nat.div_eq_of_lt hc]; omega
  have h2 : (x' * k + c') / k = x' := by
    rw [Nat.add_comm, Nat.add_mul_div_right _ _ hk, Nat.div_eq_of_lt hc']; omega
  have hx : x = x' := by rw [← h1, ← h2, h]
  subst hx
  exact ⟨rfl, by omega⟩

theorem idx_div {x c k : Nat} (hc : c < k) : (x * k + c) / k = x := by
  have hk : 0 < k := by omega
  rw [Nat.add_comm, Nat.add_mul_div_right _ _ hk, Nat.div_eq_of_lt hc]; omega

theorem idx_mod {x c k : Nat} (hc : c < k) : (x * k + c) % k = c := by
  rw [Nat.add_comm, Nat.add_mul_mod_self_right, Nat.mod_eq_of_lt hc]

end DevIL
