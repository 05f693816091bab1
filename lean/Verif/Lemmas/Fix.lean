import Verif.Model.Fix
import Verif.Lemmas.StackSub
import Verif.Hoare
/-! `ilFixImage` visits exactly the images, faces, layers and mipmaps of the bound image. -/
set_option autoImplicit false
namespace DevIL.Fix
open DevIL.Stack (Link Heap Chain Cell Node Sys load ilActive active_spec)

theorem nodup_len : ∀ (n : Nat) (l : List Nat), l.Nodup → (∀ x ∈ l, x < n) → l.length ≤ n := by
  intro n
  induction n with
  | zero =>
    intro l _ h
    cases l with
    | nil => simp
    | cons a _ => exact absurd (h a List.mem_cons_self) (by omega)
  | succ n ih =>
    intro l hl h
    by_cases hn : n ∈ l
    · have := ih (l.erase n) (hl.erase n) (fun x hx => by
        have h1 := h x (List.mem_of_mem_erase hx)
        have h2 : x ≠ n := fun e => by rw [e] at hx; exact (List.Nodup.not_mem_erase hl) hx
        omega)
      rw [List.length_erase_of_mem hn] at this
      omega
    · have := ih l hl (fun x hx => by
        have h1 := h x hx
        have h2 : x ≠ n := fun e => hn (e ▸ hx)
        omega)
      omega

theorem chain_unique {l : Link} {h : Heap} {p : Nat} {c d : List Nat} (hc : Chain l h p c) (hd : Chain l h p d) : c = d := by
  induction hc generalizing d with
  | last hn hg =>
    cases hd with
    | last => rfl
    | cons hn' hg' _ => rw [hn] at hn'; cases hn'; rw [hg] at hg'; cases hg'
  | cons hn hg _ ih =>
    cases hd with
    | last hn' hg' => rw [hn] at hn'; cases hn'; rw [hg] at hg'; cases hg'
    | cons hn' hg' hr =>
      rw [hn] at hn'; cases hn'; rw [hg] at hg'; cases hg'
      rw [ih hr]

theorem chain_mem {l : Link} {h : Heap} {p x : Nat} {c : List Nat} (hc : Chain l h p c) (hx : x ∈ c) : (∃ n, h[x]? = some (Cell.live n)) ∧ ∃ d, Chain l h x d ∧ d.length ≤ c.length := by
  induction hc with
  | last hn hg =>
    simp only [List.mem_singleton] at hx
    subst hx
    exact ⟨⟨_, hn⟩, _, .last hn hg, Nat.le_refl _⟩
  | cons hn hg hr ih =>
    rcases List.mem_cons.mp hx with e | e
    · subst e
      exact ⟨⟨_, hn⟩, _, .cons hn hg hr, Nat.le_refl _⟩
    · obtain ⟨h1, d, h2, h3⟩ := ih e
      exact ⟨h1, d, h2, by simp only [List.length_cons]; omega⟩

theorem chain_nodup {l : Link} {h : Heap} {p : Nat} {c : List Nat} (hc : Chain l h p c) : c.Nodup := by
  induction hc with
  | last => simp
  | cons hn hg hr ih =>
    refine List.nodup_cons.mpr ⟨fun hm => ?_, ih⟩
    obtain ⟨-, d, h2, h3⟩ := chain_mem hr hm
    have := chain_unique h2 (.cons hn hg hr)
    rw [this] at h3
    simp only [List.length_cons] at h3
    omega

theorem chain_le {l : Link} {h : Heap} {p : Nat} {c : List Nat} (hc : Chain l h p c) : c.length ≤ h.length :=
  nodup_len _ _ (chain_nodup hc) (fun x hx => by
    obtain ⟨⟨n, hn⟩, -⟩ := chain_mem hc hx
    exact (List.getElem?_eq_some_iff.mp hn).1)

theorem chain_eq {l : Link} {h : Heap} {p : Nat} {c : List Nat} (hc : Chain l h p c) : ∀ fuel, c.length ≤ fuel → chain l h fuel p = .ok c := by
  induction hc with
  | last hn hg =>
    intro fuel hf
    cases fuel with
    | zero => simp at hf
    | succ k => simp [chain, load, hn, hg]
  | cons hn hg hr ih =>
    intro fuel hf
    cases fuel with
    | zero => simp at hf
    | succ k =>
      simp only [List.length_cons] at hf
      simp [chain, load, hn, hg, ih k (by omega)]

/-- The chain from `p`, as a list. -/
def ch (l : Link) (h : Heap) (p : Nat) : List Nat := match chain l h (h.length + 1) p with | .ok r => r | .error _ => []

theorem ch_eq {l : Link} {h : Heap} {p : Nat} {c : List Nat} (hc : Chain l h p c) : ch l h p = c := by
  unfold ch
  rw [chain_eq hc _ (by have := chain_le hc; omega)]

/-- Every chain of links ends. -/
def Ends (h : Heap) : Prop := ∀ p n, h[p]? = some (Cell.live n) → ∀ l, ∃ c, Chain l h p c

theorem num_eq {l : Link} {s : S} {p : Nat} {c : List Nat} (hs : s.sys.cur = some p) (hc : Chain l s.sys.heap p c) : num l s = .ok (c.length - 1) := by
  unfold num
  rw [hs]
  simp only
  rw [chain_eq hc _ (by have := chain_le hc; omega)]
  rfl

theorem chain_pos {l : Link} {h : Heap} {p : Nat} {c : List Nat} (hc : Chain l h p c) : 0 < c.length := by cases hc <;> simp

/-- `s` is `s0` with another current image and other contents. -/
def Like (s0 s : S) : Prop := ∃ c, s.sys = { s0.sys with cur := some c }

/-- The same state with another current image. -/
def atImg (s : S) (c : Nat) : S := { s with sys := { s.sys with cur := some c } }

theorem Like.atImg {s0 s : S} (h : Like s0 s) (c : Nat) : Like s0 (atImg s c) := by
  obtain ⟨d, e⟩ := h
  refine ⟨c, ?_⟩
  simp [Fix.atImg, e]

theorem Like.heap {s0 s : S} (h : Like s0 s) : s.sys.heap = s0.sys.heap := by obtain ⟨d, e⟩ := h; rw [e]

theorem rebind_eq {s0 s : S} {r : Nat} (hr : s0.sys.stack[s0.sys.curName]? = some (some r)) (h : Like s0 s) : rebind s = .ok (atImg s r) := by
  obtain ⟨d, e⟩ := h
  obtain ⟨sys, pix⟩ := s
  simp only at e
  subst e
  have hlt := (List.getElem?_eq_some_iff.mp hr).1
  have hne : s0.sys.stack ≠ [] := fun e => by rw [e] at hlt; simp at hlt
  unfold rebind Stack.ilBindImage
  simp only [Option.isNone_some, Bool.false_eq_true, false_or, if_neg hne]
  have : Stack.enlargeTo s0.sys.curName (s0.sys.curName + 1) { s0.sys with cur := some d } = .ok { s0.sys with cur := some d } := by
    unfold Stack.enlargeTo
    rw [if_neg (by simp only; omega)]
  rw [this]
  simp only [bind_ok]
  rw [rd_of_some hr]
  simp [atImg]

/-- `q` is reached from `r` by the selections of `path`. -/
def At (h : Heap) (r : Nat) : List (Link × Nat) → Nat → Prop
  | [], q => q = r
  | (l, n) :: rest, q => ∃ c d, Chain l h r c ∧ c[n]? = some d ∧ At h d rest q

theorem descend_eq {h : Heap} {q : Nat} (path : List (Link × Nat)) : ∀ (s : S) (r : Nat), s.sys.heap = h → s.sys.cur = some r → At h r path q → descend path s = .ok (true, atImg s q) := by
  induction path with
  | nil =>
    intro s r _ hc ha
    simp only [At] at ha
    subst ha
    simp only [descend, atImg, ← hc]
    rfl
  | cons x rest ih =>
    obtain ⟨l, n⟩ := x
    intro s r hh hc ⟨c, d, h1, h2, h3⟩
    simp only [descend]
    rw [active_spec hc (hh ▸ h1), h2]
    simp only [bind_ok, Bool.not_true, Bool.false_eq_true, if_false]
    exact (ih (atImg s d) d hh rfl h3).trans rfl

theorem select_eq {s0 s : S} {r q : Nat} {path : List (Link × Nat)} (hr : s0.sys.stack[s0.sys.curName]? = some (some r)) (h : Like s0 s) (ha : At s0.sys.heap r path q) :
    select path s = .ok (true, atImg s q) := by
  unfold select
  rw [rebind_eq hr h]
  simp only [bind_ok]
  rw [descend_eq path (atImg s r) r (by simpa [atImg] using h.heap) rfl ha]
  rfl

/-- `ilFixCur` at one image after the other. -/
def seq (a : Settings) (conv : Nat → Nat → List Img → C (Bool × List Img)) : List Nat → S → C (Bool × S)
  | [], s => .ok (true, s)
  | v :: vs, s => do
    let (b, s) ← ilFixCur a conv (atImg s v)
    if !b then pure (false, s) else seq a conv vs s

variable {a : Settings} {conv : Nat → Nat → List Img → C (Bool × List Img)}

theorem seq_append (xs ys : List Nat) (s : S) : seq a conv (xs ++ ys) s = (do let (b, s) ← seq a conv xs s; if !b then pure (false, s) else seq a conv ys s) := by
  induction xs generalizing s with
  | nil => simp [seq]
  | cons x xs ih =>
    simp only [List.cons_append, seq]
    cases h : ilFixCur a conv (atImg s x) with
    | error e => rfl
    | ok t =>
      obtain ⟨b, t⟩ := t
      simp only [bind_ok]
      cases b with
      | false => rfl
      | true => simp only [Bool.not_true, Bool.false_eq_true, if_false]; exact ih t

theorem convert_sys {df dt : Nat} {s t : S} {b : Bool} (h : convert conv df dt s = .ok (b, t)) : t.sys = s.sys := by
  unfold convert at h
  split at h
  · cases h; rfl
  · simp only [bind, Except.bind] at h
    split at h
    · cases h
    split at h
    · cases h
    cases h
    rfl

theorem fixOrigin_sys {s t : S} {c : Nat} (h : fixOrigin a s c = .ok t) : t.sys = s.sys := by
  unfold fixOrigin at h
  split at h
  · unfold flip at h
    simp only [bind, Except.bind] at h
    split at h
    · cases h
    cases h
    rfl
  · cases h; rfl

theorem fixType_sys {s t : S} {c : Nat} {b : Bool} (h : fixType a conv s c = .ok (b, t)) : t.sys = s.sys := by
  unfold fixType at h
  split at h
  · exact convert_sys h
  · cases h; rfl

theorem fixFormat_sys {s t : S} {c : Nat} {b : Bool} (h : fixFormat a conv s c = .ok (b, t)) : t.sys = s.sys := by
  unfold fixFormat at h
  split at h
  · exact convert_sys h
  · cases h; rfl

theorem fixPal_sys {s t : S} {c : Nat} {b : Bool} (h : fixPal a conv s c = .ok (b, t)) : t.sys = s.sys := by
  unfold fixPal at h
  split at h
  · exact convert_sys h
  · cases h; rfl

/-- The steps of `ilFixCur`. -/
theorem fixCur_cases {s t : S} {b : Bool} (h : ilFixCur a conv s = .ok (b, t)) :
    ∃ c s1 b2 s2, s.sys.cur = some c ∧ fixOrigin a s c = .ok s1 ∧ fixType a conv s1 c = .ok (b2, s2) ∧
      ((b2 = false ∧ b = false ∧ t = s2) ∨ (b2 = true ∧ ∃ b3 s3, fixFormat a conv s2 c = .ok (b3, s3) ∧ ((b3 = false ∧ b = false ∧ t = s3) ∨ (b3 = true ∧ fixPal a conv s3 c = .ok (b, t))))) := by
  unfold ilFixCur at h
  split at h
  · cases h
  rename_i c hc
  cases h1 : fixOrigin a s c with
  | error e => rw [h1] at h; cases h
  | ok s1 =>
    rw [h1] at h
    simp only [bind_ok] at h
    cases h2 : fixType a conv s1 c with
    | error e => rw [h2] at h; cases h
    | ok x =>
      obtain ⟨b2, s2⟩ := x
      rw [h2] at h
      simp only [bind_ok] at h
      refine ⟨c, s1, b2, s2, hc, h1, h2, ?_⟩
      cases b2 with
      | false =>
        simp only [Bool.not_false, if_true] at h
        cases h
        exact Or.inl ⟨rfl, rfl, rfl⟩
      | true =>
        simp only [Bool.not_true, Bool.false_eq_true, if_false] at h
        refine Or.inr ⟨rfl, ?_⟩
        cases h3 : fixFormat a conv s2 c with
        | error e => rw [h3] at h; cases h
        | ok y =>
          obtain ⟨b3, s3⟩ := y
          rw [h3] at h
          simp only [bind_ok] at h
          refine ⟨b3, s3, rfl, ?_⟩
          cases b3 with
          | false =>
            simp only [Bool.not_false, if_true] at h
            cases h
            exact Or.inl ⟨rfl, rfl, rfl⟩
          | true =>
            simp only [Bool.not_true, Bool.false_eq_true, if_false] at h
            exact Or.inr ⟨rfl, h⟩

theorem fixCur_sys {s t : S} {b : Bool} (h : ilFixCur a conv s = .ok (b, t)) : t.sys = s.sys := by
  obtain ⟨c, s1, b2, s2, -, h1, h2, h3⟩ := fixCur_cases h
  have e := (fixType_sys h2).trans (fixOrigin_sys h1)
  rcases h3 with ⟨-, -, rfl⟩ | ⟨-, b3, s3, h3, h4⟩
  · exact e
  · have e3 := (fixFormat_sys h3).trans e
    rcases h4 with ⟨-, -, rfl⟩ | ⟨-, h4⟩
    · exact e3
    · exact (fixPal_sys h4).trans e3

theorem seq_like {s0 : S} (vs : List Nat) : ∀ {s t : S} {b : Bool}, Like s0 s → seq a conv vs s = .ok (b, t) → Like s0 t := by
  induction vs with
  | nil => intro s t b hl h; cases h; exact hl
  | cons v vs ih =>
    intro s t b hl h
    simp only [seq] at h
    cases h1 : ilFixCur a conv (atImg s v) with
    | error e => rw [h1] at h; cases h
    | ok x =>
      obtain ⟨b1, s1⟩ := x
      rw [h1] at h
      simp only [bind_ok] at h
      have h2 : Like s0 s1 := by
        have := hl.atImg v
        obtain ⟨c, e⟩ := this
        exact ⟨c, (fixCur_sys h1).trans e⟩
      cases b1 with
      | false => simp only [Bool.not_false, if_true] at h; cases h; exact h2
      | true => simp only [Bool.not_true, Bool.false_eq_true, if_false] at h; exact ih h2 h

theorem forAll_seq {s0 : S} {V : Nat → List Nat} {f : Nat → S → C (Bool × S)} (c : List Nat) : ∀ (i : Nat) (s : S), Like s0 s →
    (∀ j v, c[j]? = some v → ∀ t, Like s0 t → f (i + j) t = seq a conv (V v) t) → forAll c.length i f s = seq a conv (c.flatMap V) s := by
  induction c with
  | nil => intro i s _ _; rfl
  | cons v vs ih =>
    intro i s hl hf
    simp only [List.length_cons, forAll, List.flatMap_cons]
    have h0 := hf 0 v rfl s hl
    rw [Nat.add_zero i] at h0
    rw [seq_append, h0]
    cases h : seq a conv (V v) s with
    | error e => rfl
    | ok x =>
      obtain ⟨b, t⟩ := x
      simp only [bind_ok]
      cases b with
      | false => rfl
      | true =>
        simp only [Bool.not_true, Bool.false_eq_true, if_false]
        refine ih (i + 1) t (seq_like _ hl h) (fun j w hw u hu => ?_)
        have := hf (j + 1) w (by simpa using hw) u hu
        rwa [show i + 1 + j = i + (j + 1) by omega]

theorem At.snoc {h : Heap} {l : Link} {n : Nat} (path : List (Link × Nat)) : ∀ {r p q : Nat} {c : List Nat}, At h r path p → Chain l h p c → c[n]? = some q → At h r (path ++ [(l, n)]) q := by
  induction path with
  | nil => intro r p q c h1 h2 h3; simp only [At] at h1; subst h1; exact ⟨c, q, h2, h3, rfl⟩
  | cons x rest ih =>
    obtain ⟨l', n'⟩ := x
    intro r p q c ⟨c', d, a1, a2, a3⟩ h2 h3
    exact ⟨c', d, a1, a2, ih a3 h2 h3⟩

/-- The images `ilFixImage` visits. -/
def visits (h : Heap) (r : Nat) : List Nat := (ch .next h r).flatMap fun i => (ch .face h i).flatMap fun f => (ch .layer h f).flatMap fun k => ch .mip h k

variable {s0 : S} {r : Nat}

theorem fixMipmaps_eq (hr : s0.sys.stack[s0.sys.curName]? = some (some r)) (he : Ends s0.sys.heap) {i f k v : Nat} (hv : ∃ n, s0.sys.heap[v]? = some (Cell.live n))
    (hat : At s0.sys.heap r [(.next, i), (.face, f), (.layer, k)] v) {s : S} (hl : Like s0 s) : fixMipmaps a conv i f k s = seq a conv (ch .mip s0.sys.heap v) s := by
  obtain ⟨n, hn⟩ := hv
  obtain ⟨c, hc⟩ := he v n hn .mip
  unfold fixMipmaps
  rw [select_eq hr hl hat]
  simp only [bind_ok, Bool.not_true, Bool.false_eq_true, if_false]
  rw [num_eq (s := atImg s v) rfl (by simpa [atImg, hl.heap] using hc)]
  simp only [bind_ok]
  rw [show c.length - 1 + 1 = c.length by have := chain_pos hc; omega, ch_eq hc]
  have key := fun (t : S) (ht : Like s0 t) => forAll_seq (a := a) (conv := conv) (s0 := s0) (V := fun v => [v]) (f := fun j s => do
      let (b, s) ← select [(.next, i), (.face, f), (.layer, k), (.mip, j)] s
      if !b then pure (false, s) else ilFixCur a conv s) c 0 t ht (fun j w hw u hu => by
    have h4 : At s0.sys.heap r [(.next, i), (.face, f), (.layer, k), (.mip, j)] w := At.snoc [(.next, i), (.face, f), (.layer, k)] hat hc hw
    rw [Nat.zero_add]
    simp only
    rw [select_eq hr hu h4]
    simp only [bind_ok, Bool.not_true, Bool.false_eq_true, if_false, seq]
    cases ilFixCur a conv (atImg u w) with
    | error e => rfl
    | ok x =>
      obtain ⟨b, t⟩ := x
      cases b <;> rfl)
  have := key (atImg s v) (hl.atImg v)
  rw [this]
  have e : c.flatMap (fun v => [v]) = c := by simp
  rw [e]
  cases c with
  | nil => have := chain_pos hc; simp at this
  | cons x xs => rfl

theorem seq_at (vs : List Nat) (hv : vs ≠ []) (s : S) (c : Nat) : seq a conv vs (atImg s c) = seq a conv vs s := by
  cases vs with
  | nil => exact absurd rfl hv
  | cons x xs => rfl

theorem ch_ne {l : Link} {h : Heap} {p : Nat} {n : Node} (he : Ends h) (hn : h[p]? = some (Cell.live n)) : ch l h p ≠ [] := by
  obtain ⟨c, hc⟩ := he p n hn l
  rw [ch_eq hc]
  have := chain_pos hc
  intro e
  rw [e] at this
  simp at this

theorem flat_ne {c : List Nat} {V : Nat → List Nat} (hc : c ≠ []) (hV : ∀ v ∈ c, V v ≠ []) : c.flatMap V ≠ [] := by
  cases c with
  | nil => exact absurd rfl hc
  | cons x xs => simp [hV x List.mem_cons_self]

theorem fixLayers_eq (hr : s0.sys.stack[s0.sys.curName]? = some (some r)) (he : Ends s0.sys.heap) {i f v : Nat} (hv : ∃ n, s0.sys.heap[v]? = some (Cell.live n))
    (hat : At s0.sys.heap r [(.next, i), (.face, f)] v) {s : S} (hl : Like s0 s) :
    fixLayers a conv i f s = seq a conv ((ch .layer s0.sys.heap v).flatMap fun k => ch .mip s0.sys.heap k) s := by
  obtain ⟨n, hn⟩ := hv
  obtain ⟨c, hc⟩ := he v n hn .layer
  unfold fixLayers
  rw [select_eq hr hl hat]
  simp only [bind_ok, Bool.not_true, Bool.false_eq_true, if_false]
  rw [num_eq (s := atImg s v) rfl (by simpa [atImg, hl.heap] using hc)]
  simp only [bind_ok]
  rw [show c.length - 1 + 1 = c.length by have := chain_pos hc; omega, ch_eq hc]
  rw [forAll_seq (a := a) (conv := conv) (s0 := s0) (V := fun k => ch .mip s0.sys.heap k) c 0 (atImg s v) (hl.atImg v) (fun j w hw u hu => by
    rw [Nat.zero_add]
    exact fixMipmaps_eq hr he (chain_mem hc (List.mem_of_getElem? hw)).1 (At.snoc [(.next, i), (.face, f)] hat hc hw) hu)]
  refine seq_at _ (flat_ne (fun e => by have := chain_pos hc; rw [e] at this; simp at this) (fun w hw => ?_)) s v
  obtain ⟨⟨m, hm⟩, -⟩ := chain_mem hc hw
  exact ch_ne he hm

theorem fixFaces_eq (hr : s0.sys.stack[s0.sys.curName]? = some (some r)) (he : Ends s0.sys.heap) {i v : Nat} (hv : ∃ n, s0.sys.heap[v]? = some (Cell.live n))
    (hat : At s0.sys.heap r [(.next, i)] v) {s : S} (hl : Like s0 s) :
    fixFaces a conv i s = seq a conv ((ch .face s0.sys.heap v).flatMap fun f => (ch .layer s0.sys.heap f).flatMap fun k => ch .mip s0.sys.heap k) s := by
  obtain ⟨n, hn⟩ := hv
  obtain ⟨c, hc⟩ := he v n hn .face
  unfold fixFaces
  rw [select_eq hr hl hat]
  simp only [bind_ok, Bool.not_true, Bool.false_eq_true, if_false]
  rw [num_eq (s := atImg s v) rfl (by simpa [atImg, hl.heap] using hc)]
  simp only [bind_ok]
  rw [show c.length - 1 + 1 = c.length by have := chain_pos hc; omega, ch_eq hc]
  rw [forAll_seq (a := a) (conv := conv) (s0 := s0) (V := fun f => (ch .layer s0.sys.heap f).flatMap fun k => ch .mip s0.sys.heap k) c 0 (atImg s v) (hl.atImg v) (fun j w hw u hu => by
    rw [Nat.zero_add]
    exact fixLayers_eq hr he (chain_mem hc (List.mem_of_getElem? hw)).1 (At.snoc [(.next, i)] hat hc hw) hu)]
  refine seq_at _ (flat_ne (fun e => by have := chain_pos hc; rw [e] at this; simp at this) (fun w hw => ?_)) s v
  obtain ⟨⟨m, hm⟩, -⟩ := chain_mem hc hw
  refine flat_ne (ch_ne he hm) (fun x hx => ?_)
  obtain ⟨c', hc'⟩ := he w m hm .layer
  rw [ch_eq hc'] at hx
  obtain ⟨⟨m', hm'⟩, -⟩ := chain_mem hc' hx
  exact ch_ne he hm'

/-- `ilFixImage` is `ilFixCur` at the visited images, in order. -/
theorem fixImage_eq (hr : s0.sys.stack[s0.sys.curName]? = some (some r)) (hcur : s0.sys.cur = some r) (he : Ends s0.sys.heap) (hv : ∃ n, s0.sys.heap[r]? = some (Cell.live n)) :
    ilFixImage a conv s0 = (do let (b, s) ← seq a conv (visits s0.sys.heap r) s0; if !b then pure (false, s) else pure (true, atImg s r)) := by
  obtain ⟨n, hn⟩ := hv
  obtain ⟨c, hc⟩ := he r n hn .next
  have hl : Like s0 s0 := ⟨r, by rw [← hcur]⟩
  unfold ilFixImage
  rw [num_eq hcur hc]
  simp only [bind_ok]
  rw [show c.length - 1 + 1 = c.length by have := chain_pos hc; omega]
  rw [forAll_seq (a := a) (conv := conv) (s0 := s0) (V := fun i => (ch .face s0.sys.heap i).flatMap fun f => (ch .layer s0.sys.heap f).flatMap fun k => ch .mip s0.sys.heap k) c 0 s0 hl (fun j w hw u hu => by
    rw [Nat.zero_add]
    exact fixFaces_eq hr he (chain_mem hc (List.mem_of_getElem? hw)).1 (At.snoc [] rfl hc hw) hu)]
  rw [← ch_eq hc]
  show _ = (do let (b, s) ← seq a conv (visits s0.sys.heap r) s0; if !b then pure (false, s) else pure (true, atImg s r))
  unfold visits
  cases h : seq a conv ((ch .next s0.sys.heap r).flatMap fun i => (ch .face s0.sys.heap i).flatMap fun f => (ch .layer s0.sys.heap f).flatMap fun k => ch .mip s0.sys.heap k) s0 with
  | error e => rfl
  | ok x =>
    obtain ⟨b, t⟩ := x
    simp only [bind_ok]
    cases b with
    | false => rfl
    | true =>
      simp only [Bool.not_true, Bool.false_eq_true, if_false]
      rw [rebind_eq hr (seq_like _ hl h)]
      rfl

end DevIL.Fix
