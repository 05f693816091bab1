import Verif.Model.ConvBuff
/-! Lemmas about buffer conversion. -/
set_option autoImplicit false
namespace DevIL.Conv
open Utility

/-- The code ends normally with a result satisfying `P`, or a float-to-integer conversion overflows. -/
def OkOr {α : Type} (c : C α) (P : α → Prop) : Prop := (∃ a, c = .ok a ∧ P a) ∨ c = .error .overflow

theorem OkOr.bind {α β : Type} {c : C α} {f : α → C β} {P : α → Prop} {Q : β → Prop} (h : OkOr c P)
    (hf : ∀ a, P a → OkOr (f a) Q) : OkOr (c >>= f) Q := by
  rcases h with ⟨a, rfl, ha⟩ | rfl
  · exact hf a ha
  · exact Or.inr rfl

theorem OkOr.loop {σ : Type} {f : Nat → σ → C σ} {P : σ → Prop} :
    ∀ (n : Nat) (s : σ), P s → (∀ k t, k < n → P t → OkOr (f k t) P) → OkOr (loopN n f s) P
  | 0, s, h0, _ => Or.inl ⟨s, rfl, h0⟩
  | n + 1, s, h0, hf => by
    rw [loopN_succ]
    exact (OkOr.loop n s h0 (fun k t hk => hf k t (by omega))).bind (fun t ht => hf n t (by omega) ht)

/-- A cell only looks at the `s` components of its source pixel. -/
def Cell.within (s : Nat) : Cell → Prop
  | .comp k => k < s
  | .lum _ _ _ => 3 ≤ s
  | _ => True

instance (s : Nat) (c : Cell) : Decidable (c.within s) := by
  cases c <;> unfold Cell.within <;> infer_instance

theorem toUInt_okOr (m a : Nat) : OkOr (toUInt m a) (fun _ => True) := by
  unfold toUInt
  split
  · exact Or.inl ⟨_, rfl, trivial⟩
  · exact Or.inr rfl

theorem lumOf_okOr (fl : FloatOps) (wide : Bool) (type : Nat) (ts : List (Nat × Nat)) :
    OkOr (lumOf fl wide type ts) (fun _ => True) := by
  unfold lumOf
  split
  · exact toUInt_okOr _ _
  split
  · exact toUInt_okOr _ _
  split
  · exact toUInt_okOr _ _
  · exact Or.inl ⟨_, rfl, trivial⟩

theorem evalCell_okOr {fl : FloatOps} {type : Nat} {wide : Bool} {src : List Nat} {base s : Nat} {c : Cell}
    (hc : c.within s) (hb : base + s ≤ src.length) : OkOr (evalCell fl type wide src base c) (fun _ => True) := by
  cases c with
  | comp k =>
    have : k < s := hc
    exact Or.inl ⟨_, rd_of_lt (by omega), trivial⟩
  | full => exact Or.inl ⟨_, rfl, trivial⟩
  | zero => exact Or.inl ⟨_, rfl, trivial⟩
  | lum w0 w1 w2 =>
    have : 3 ≤ s := hc
    simp only [evalCell, rd_of_lt (show base < src.length by omega), rd_of_lt (show base + 1 < src.length by omega),
      rd_of_lt (show base + 2 < src.length by omega), bind_ok]
    exact lumOf_okOr _ _ _ _

theorem storeCells_okOr {fl : FloatOps} {type : Nat} {wide : Bool} {src : List Nat} {base s n : Nat} :
    ∀ (cells : List Cell) (j : Nat) (d : List Nat), (∀ c ∈ cells, c.within s) → base + s ≤ src.length →
      d.length = n → j + cells.length ≤ n →
      OkOr (storeCells fl type wide src base cells j d) (fun d' => d'.length = n)
  | [], _, d, _, _, hd, _ => Or.inl ⟨d, rfl, hd⟩
  | c :: cs, j, d, hc, hb, hd, hj => by
    simp only [List.length_cons] at hj
    simp only [storeCells]
    refine (evalCell_okOr (hc c (by simp)) hb).bind (fun v _ => ?_)
    rw [wr_of_lt (by omega), bind_ok]
    exact storeCells_okOr cs (j + 1) _ (fun c h => hc c (by simp [h])) hb (by simpa using hd) (by omega)

theorem storeCells_upd {fl : FloatOps} {type : Nat} {wide : Bool} {src : List Nat} {base : Nat} {d0 : List Nat}
    {v : Nat → Option Nat} :
    ∀ (cells : List Cell) (j : Nat), j + cells.length ≤ d0.length →
      (∀ k c, cells[k]? = some c → ∃ x, evalCell fl type wide src base c = .ok x ∧ v (j + k) = some x) →
      Upd (fun d => storeCells fl type wide src base cells j d) d0 (fun _ => False)
        (fun i => j ≤ i ∧ i < j + cells.length) v
  | [], j, _, _ => (Upd.skip d0 v).congr (fun _ _ => rfl) (fun _ h => h)
      (fun i _ => ⟨False.elim, fun h => by simp at h; omega⟩) (fun _ _ h => h.elim)
  | c :: cs, j, hj, hv => by
    simp only [List.length_cons] at hj
    obtain ⟨x, e, hx⟩ := hv 0 c rfl
    have h1 : Upd (fun d => DevIL.wr d j x) d0 (fun _ => False) (fun i => i = j) v := Upd.wr (by omega) hx
    have h2 := storeCells_upd (fl := fl) (type := type) (wide := wide) (src := src) (base := base) (d0 := d0) (v := v)
      cs (j + 1) (by omega) (fun k c hc => by
        obtain ⟨y, ey, hy⟩ := hv (k + 1) c (by simpa using hc)
        exact ⟨y, ey, by rw [← hy]; congr 1; omega⟩)
    refine (Upd.seq h1 h2 (fun _ _ h => h.elim)).congr (fun d _ => ?_) (fun i h => by simp at h) ?_
      (fun _ _ _ => rfl)
    · simp only [storeCells, e, bind_ok]
    · intro i _
      simp only [List.length_cons]
      omega

theorem iters_mul {p s : Nat} (whole : Bool) (hs : 0 < s) : iters whole s (p * s) = p := by
  unfold iters
  cases whole
  · simp only [Bool.false_eq_true, if_false]
    rw [show p * s + s - 1 = (s - 1) + p * s by omega, Nat.add_mul_div_right _ _ hs, Nat.div_eq_of_lt (by omega)]
    omega
  · simp only [if_true]
    exact Nat.mul_div_cancel _ hs

/-- The loop of an arm never leaves its buffers. -/
theorem loop_okOr {fl : FloatOps} {junk : Nat → Nat} {type p s k : Nat} {src : List Nat} {bytes : Nat → Nat → Nat}
    {whole wide : Bool} {cells : List Cell} (hs : 0 < s) (hl : src.length = p * s)
    (hb : bytes src.length (ilGetBpcType type) / ilGetBpcType type = p * k) (hk : cells.length = k)
    (hc : ∀ c ∈ cells, c.within s) :
    OkOr (Arm.run fl junk type src (.loop bytes s k whole wide cells)) (fun d => d.length = p * k) := by
  simp only [Arm.run]
  rw [hb, hl, iters_mul whole hs]
  refine OkOr.loop p _ (by simp) (fun i d hi hd => ?_)
  have h1 : (i + 1) * s ≤ p * s := Nat.mul_le_mul_right _ hi
  have h2 : (i + 1) * k ≤ p * k := Nat.mul_le_mul_right _ hi
  rw [Nat.add_mul, Nat.one_mul] at h1 h2
  exact storeCells_okOr (s := s) cells _ _ hc (by omega) hd (by omega)

/-- The loop of an arm, when no luminance overflows, stores the cell values of every pixel. -/
theorem loop_spec {fl : FloatOps} {junk : Nat → Nat} {type p s k : Nat} {src : List Nat} {bytes : Nat → Nat → Nat}
    {whole wide : Bool} {cells : List Cell} (hs : 0 < s) (hl : src.length = p * s)
    (hb : bytes src.length (ilGetBpcType type) / ilGetBpcType type = p * k) (hk : cells.length = k)
    (hc : ∀ (i o : Nat) (c : Cell), i < p → cells[o]? = some c → ∃ x, evalCell fl type wide src (i * s) c = .ok x) :
    ∃ out, Arm.run fl junk type src (.loop bytes s k whole wide cells) = .ok out ∧ out.length = p * k ∧
      ∀ (i o : Nat) (c : Cell), i < p → cells[o]? = some c →
        ∃ x, evalCell fl type wide src (i * s) c = .ok x ∧ out[i * k + o]? = some x := by
  simp only [Arm.run]
  rw [hb, hl, iters_mul whole hs]
  let v : Nat → Option Nat := fun q =>
    match cells[q % k]? with
    | none => none
    | some c => match evalCell fl type wide src (q / k * s) c with
      | .ok x => some x
      | .error _ => none
  have hv : ∀ (i o : Nat) (c : Cell), i < p → cells[o]? = some c → ∃ x, evalCell fl type wide src (i * s) c = .ok x ∧
      v (i * k + o) = some x := by
    intro i o c hi ho
    obtain ⟨x, hx⟩ := hc i o c hi ho
    have hok : o < k := by
      rw [← hk]; exact (List.getElem?_eq_some_iff.mp ho).1
    refine ⟨x, hx, ?_⟩
    simp only [v, idx_mod hok, idx_div hok, ho, hx]
  have hu : Upd (fun d => loopN p (fun i d => storeCells fl type wide src (i * s) cells (i * k) d) d)
      (alloc junk (p * k)) (fun _ => False) (fun q => ∃ i, i < p ∧ i * k ≤ q ∧ q < i * k + cells.length) v := by
    refine Upd.loopW (fun i hi => storeCells_upd cells (i * k) ?_ (fun o c ho => hv i o c hi ho))
    have h2 : (i + 1) * k ≤ p * k := Nat.mul_le_mul_right _ hi
    rw [Nat.add_mul, Nat.one_mul] at h2
    simp; omega
  obtain ⟨out, e, l, h⟩ := hu.apply
  refine ⟨out, e, by simpa using l, fun i o c hi ho => ?_⟩
  obtain ⟨x, hx, hx2⟩ := hv i o c hi ho
  refine ⟨x, hx, ?_⟩
  have hok : o < k := by
    rw [← hk]; exact (List.getElem?_eq_some_iff.mp ho).1
  rw [(h (i * k + o) (by simpa using idx_lt hi hok)).1 ⟨i, hi, by omega, by omega⟩, hx2]

theorem fill_spec {fl : FloatOps} {junk : Nat → Nat} {type n : Nat} {src : List Nat} {bytes set : Nat → Nat → Nat}
    (hb : bytes src.length (ilGetBpcType type) / ilGetBpcType type = n)
    (hset : set src.length (ilGetBpcType type) / ilGetBpcType type = n) :
    Arm.run fl junk type src (.fill bytes set) = .ok (List.replicate n 0) := by
  simp only [Arm.run]
  rw [hb, hset, loopN_fill (fun _ => 0) (by simp)]
  congr 1
  apply List.ext_getElem?
  intro i
  by_cases hi : i < n
  · rw [List.getElem?_append_left (by simpa using hi), List.getElem?_map, List.getElem?_range hi,
      List.getElem?_replicate, if_pos hi]; rfl
  · rw [List.getElem?_eq_none (by simp; omega), List.getElem?_eq_none (by simp; omega)]

end DevIL.Conv

namespace DevIL.Conv
open Utility

/-- The value of a cell that computes nothing. -/
def cellVal (type : Nat) (src : List Nat) (base : Nat) : Cell → Option Nat
  | .comp k => src[base + k]?
  | .full => some (fullOf type)
  | .zero => some 0
  | .lum _ _ _ => none

/-- A cell that computes nothing. -/
def Cell.plain : Cell → Bool
  | .lum _ _ _ => false
  | _ => true

theorem evalCell_plain {fl : FloatOps} {type : Nat} {wide : Bool} {src : List Nat} {base s : Nat} {c : Cell}
    (hp : c.plain = true) (hc : c.within s) (hb : base + s ≤ src.length) :
    ∃ x, evalCell fl type wide src base c = .ok x ∧ cellVal type src base c = some x := by
  cases c with
  | comp k =>
    have : k < s := hc
    exact ⟨_, rd_of_lt (by omega), List.getElem?_eq_getElem (by omega)⟩
  | full => exact ⟨_, rfl, rfl⟩
  | zero => exact ⟨_, rfl, rfl⟩
  | lum w0 w1 w2 => cases hp

theorem loop_plain {fl : FloatOps} {junk : Nat → Nat} {type p s k : Nat} {src : List Nat} {bytes : Nat → Nat → Nat}
    {whole wide : Bool} {cells : List Cell} (hs : 0 < s) (hl : src.length = p * s)
    (hb : bytes src.length (ilGetBpcType type) / ilGetBpcType type = p * k) (hk : cells.length = k)
    (hc : ∀ c ∈ cells, c.within s ∧ c.plain = true) :
    ∃ out, Arm.run fl junk type src (.loop bytes s k whole wide cells) = .ok out ∧ out.length = p * k ∧
      ∀ (i o : Nat) (c : Cell), i < p → cells[o]? = some c → out[i * k + o]? = cellVal type src (i * s) c := by
  have hev : ∀ (i o : Nat) (c : Cell), i < p → cells[o]? = some c →
      ∃ x, evalCell fl type wide src (i * s) c = .ok x ∧ cellVal type src (i * s) c = some x := by
    intro i o c hi ho
    obtain ⟨h1, h2⟩ := hc c (List.mem_of_getElem? ho)
    have h3 : (i + 1) * s ≤ p * s := Nat.mul_le_mul_right _ hi
    rw [Nat.add_mul, Nat.one_mul] at h3
    exact evalCell_plain h2 h1 (by omega)
  obtain ⟨out, e, l, h⟩ := loop_spec (fl := fl) (junk := junk) (whole := whole) (wide := wide) hs hl hb hk
    (fun i o c hi ho => let ⟨x, hx, _⟩ := hev i o c hi ho; ⟨x, hx⟩)
  refine ⟨out, e, l, fun i o c hi ho => ?_⟩
  obtain ⟨x, hx, hv⟩ := hev i o c hi ho
  obtain ⟨y, hy, hy2⟩ := h i o c hi ho
  rw [hx] at hy
  cases hy
  rw [hy2, hv]

theorem bpc_pos {t : Nat} (h : ilGetBpcType t ≠ 0) : 0 < ilGetBpcType t := Nat.pos_of_ne_zero h

theorem nb_of_lt {n b : Nat} (h : n * b < 4294967296) : nb n b = n * b := u32_of_lt h

theorem nb_div {n b : Nat} (hb : 0 < b) (h : n * b < 4294967296) : nb n b / b = n := by
  rw [nb_of_lt h, Nat.mul_div_cancel _ hb]

/-- The function applied to every component by a change of type. -/
def compFn (fl : FloatOps) (st dt : Nat) : Option (Nat → Nat) := if st = dt then some id else switchOne fl st dt

theorem iSwitchTypes_spec {fl : FloatOps} {junk : Nat → Nat} {st dt : Nat} {src : List Nat} {f : Nat → Nat}
    (hb : ilGetBpcType dt ≠ 0) (hl : src.length * ilGetBpcType dt < 4294967296) (hf : compFn fl st dt = some f) :
    iSwitchTypes fl junk st dt src = .ok (src.map f) := by
  unfold compFn at hf
  unfold iSwitchTypes
  split
  · rename_i h
    rw [if_pos h] at hf
    cases hf
    simp
  · rename_i h
    rw [if_neg h] at hf
    simp only [hf, nb_div (bpc_pos hb) hl]
    have hc : loopN src.length (fun i d => do let v ← rd src i; wr d i (f v)) (alloc junk src.length)
        = loopN src.length (fun i d => wr d i (((src.map f)[i]?).getD 0)) (alloc junk src.length) := by
      refine loopN_congr (fun k t hk => ?_)
      rw [rd_of_lt hk]
      simp [hk]
    rw [hc, loopN_fill (fun i => ((src.map f)[i]?).getD 0) (by simp)]
    congr 1
    apply List.ext_getElem?
    intro i
    by_cases hi : i < src.length
    · rw [List.getElem?_append_left (by simpa using hi), List.getElem?_map, List.getElem?_range hi]
      simp [hi]
    · rw [List.getElem?_eq_none (by simp; omega), List.getElem?_eq_none (by simp; omega)]

theorem convert_run {fl : FloatOps} {junk junk' : Nat → Nat} {sf df st dt : Nat} {buf : List Nat} {f : Nat → Nat} {a : Arm}
    (hne : buf ≠ []) (hs : ilGetBpcType st ≠ 0) (hd : ilGetBpcType dt ≠ 0)
    (hl : buf.length * ilGetBpcType dt < 4294967296) (hf : compFn fl st dt = some f) (hsd : df ≠ sf)
    (ha : arm sf df = some a) :
    ilConvertBuffer fl junk junk' sf df st dt buf = (a.run fl junk' dt (buf.map f) >>= fun new => pure (some new)) := by
  unfold ilConvertBuffer
  rw [if_neg (by simp [hne, hs, hd]), iSwitchTypes_spec hd hl hf]
  simp [hsd, ha]

theorem convert_same {fl : FloatOps} {junk junk' : Nat → Nat} {sf st dt : Nat} {buf : List Nat} {f : Nat → Nat}
    (hne : buf ≠ []) (hs : ilGetBpcType st ≠ 0) (hd : ilGetBpcType dt ≠ 0)
    (hl : buf.length * ilGetBpcType dt < 4294967296) (hf : compFn fl st dt = some f) :
    ilConvertBuffer fl junk junk' sf sf st dt buf = .ok (some (buf.map f)) := by
  unfold ilConvertBuffer
  rw [if_neg (by simp [hne, hs, hd]), iSwitchTypes_spec hd hl hf]
  simp only [bind_ok, if_true, List.length_map, nb_div (bpc_pos hd) hl]
  obtain ⟨d', e, l, h⟩ := memcpy_get (dst := alloc junk' buf.length) (src := buf.map f) (dOff := 0) (sOff := 0)
    (n := buf.length) (by simp) (by simp)
  rw [e, bind_ok]
  have : d' = buf.map f := by
    apply List.ext_getElem?
    intro i
    rw [h i]
    by_cases hi : i < buf.length
    · rw [if_pos (by omega)]; simp
    · rw [if_neg (by omega), List.getElem?_eq_none (by simp; omega), List.getElem?_eq_none (by simp; omega)]
  rw [this]
  rfl

end DevIL.Conv
