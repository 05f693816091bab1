import Verif.Model.Pic
import Verif.Spec.Pic
import Verif.Lemmas.PsdG
set_option autoImplicit false
namespace DevIL.Pic
open DevIL.Games DevIL.Detect DevIL.Image DevIL.DetectSpec DevIL.PicSpec DevIL.PsdSpec DevIL.Dpx

open DevIL.Psd (EofLaw)

variable {σ : Type} {o : Ops σ} {At : σ → List UInt8 → Nat → Prop}

/-! ### Components -/

theorem offs_nat : ∀ n < 256, offs (UInt8.ofNat n) = compsOf (UInt8.ofNat n) := by decide +kernel

theorem offs_eq (c : UInt8) : offs c = compsOf c := by
  have := offs_nat c.toNat c.toNat_lt
  rwa [UInt8.ofNat_toNat] at this

theorem compsOf_lt {c : UInt8} {i : Nat} (h : i ∈ compsOf c) : i < 4 := by
  have := (List.mem_filter.mp h).1
  simp only [List.mem_cons, List.not_mem_nil, or_false] at this
  omega

theorem compsOf_nodup (c : UInt8) : (compsOf c).Nodup := List.Pairwise.filter _ (by decide)

theorem alpha_nat : ∀ n < 256, (UInt8.ofNat n &&& 0x10 ≠ 0) = (3 ∈ compsOf (UInt8.ofNat n)) := by
  intro n hn
  have : ∀ n < 256, decide (UInt8.ofNat n &&& 0x10 ≠ 0) = decide (3 ∈ compsOf (UInt8.ofNat n)) := by decide +kernel
  exact decide_eq_decide.mp (this n hn) |> propext

theorem alpha_iff (c : UInt8) : c &&& 0x10 ≠ 0 ↔ 3 ∈ compsOf c := by
  have := alpha_nat c.toNat c.toNat_lt
  rw [UInt8.ofNat_toNat] at this
  exact iff_of_eq this

/-! ### Writing pixels -/

/-- A pixel written. -/
def setPx (a : Nat) : List Nat → List UInt8 → List UInt8 → List UInt8
  | j :: js, c :: cs, d => setPx a js cs (d.set (a + j) c)
  | _, _, d => d

/-- Pixels written one after the other, `b` bytes apart. -/
def paint (b : Nat) (off : List Nat) : Nat → List (List UInt8) → List UInt8 → List UInt8
  | _, [], d => d
  | a, p :: ps, d => paint b off (a + b) ps (setPx a off p d)

theorem setPx_length (a : Nat) (off : List Nat) (c d : List UInt8) : (setPx a off c d).length = d.length := by
  induction off generalizing c d with
  | nil => cases c <;> rfl
  | cons j js ih =>
    cases c with
    | nil => rfl
    | cons c cs => rw [setPx, ih, List.length_set]

theorem paint_length (b : Nat) (off : List Nat) (a : Nat) (px : List (List UInt8)) (d : List UInt8) : (paint b off a px d).length = d.length := by
  induction px generalizing a d with
  | nil => rfl
  | cons p ps ih => rw [paint, ih, setPx_length]

theorem paint_append (b : Nat) (off : List Nat) (a : Nat) (p q : List (List UInt8)) (d : List UInt8) :
    paint b off a (p ++ q) d = paint b off (a + p.length * b) q (paint b off a p d) := by
  induction p generalizing a d with
  | nil => simp [paint]
  | cons x xs ih =>
    rw [List.cons_append, paint, ih, paint, List.length_cons]
    congr 1
    rw [Nat.add_mul]; omega

theorem setPx_out (a : Nat) (off : List Nat) (c d : List UInt8) (q : Nat) (h : ∀ i ∈ off, q ≠ a + i) : (setPx a off c d)[q]? = d[q]? := by
  induction off generalizing c d with
  | nil => cases c <;> rfl
  | cons j js ih =>
    cases c with
    | nil => rfl
    | cons c cs =>
      rw [setPx, ih _ _ (fun i hi => h i (List.mem_cons_of_mem _ hi)), List.getElem?_set_ne (fun e => h j List.mem_cons_self e.symm)]

theorem setPx_in (a : Nat) (off : List Nat) (c d : List UInt8) {j i : Nat} (hn : off.Nodup) (hc : c.length = off.length) (hj : off[j]? = some i) (ha : ∀ i ∈ off, a + i < d.length) :
    (setPx a off c d)[a + i]? = c[j]? := by
  induction off generalizing c d j with
  | nil => simp at hj
  | cons k ks ih =>
    cases c with
    | nil => simp at hc
    | cons c cs =>
      rw [setPx]
      have hn' := List.nodup_cons.mp hn
      cases j with
      | zero =>
        simp only [List.getElem?_cons_zero, Option.some.injEq] at hj
        subst hj
        rw [setPx_out _ _ _ _ _ (fun i hi e => hn'.1 (by have : k = i := by omega
                                                         rw [this]; exact hi)), List.getElem?_set_self (ha k List.mem_cons_self)]
        rfl
      | succ j =>
        rw [ih cs _ hn'.2 (by simpa using hc) (by simpa using hj) (fun i hi => by rw [List.length_set]; exact ha i (List.mem_cons_of_mem _ hi))]
        simp

theorem paint_out (b : Nat) (off : List Nat) (a : Nat) (px : List (List UInt8)) (d : List UInt8) (q : Nat) (h : ∀ x i, x < px.length → i ∈ off → q ≠ a + x * b + i) :
    (paint b off a px d)[q]? = d[q]? := by
  induction px generalizing a d with
  | nil => rfl
  | cons p ps ih =>
    rw [paint, ih _ _ (fun x i hx hi => by
      have := h (x + 1) i (by simpa using hx) hi
      rw [Nat.add_mul] at this
      omega), setPx_out _ _ _ _ _ (fun i hi => by have := h 0 i (by simp) hi; omega)]

theorem paint_in (b : Nat) (off : List Nat) (a : Nat) (px : List (List UInt8)) (d : List UInt8) {x j i : Nat} {p : List UInt8} (hn : off.Nodup) (ho : ∀ i ∈ off, i < b)
    (hp : ∀ p ∈ px, p.length = off.length) (hx : px[x]? = some p) (hj : off[j]? = some i) (ha : a + px.length * b ≤ d.length) :
    (paint b off a px d)[a + x * b + i]? = p[j]? := by
  induction px generalizing a d x with
  | nil => simp at hx
  | cons r ps ih =>
    rw [List.length_cons, Nat.add_mul] at ha
    have hi : i < b := ho i (List.mem_of_getElem? hj)
    rw [paint]
    cases x with
    | zero =>
      simp only [List.getElem?_cons_zero, Option.some.injEq] at hx
      subst hx
      rw [paint_out _ _ _ _ _ _ (fun x k hx hk => by have : 0 ≤ x * b := Nat.zero_le _; omega), Nat.zero_mul, Nat.add_zero]
      exact setPx_in _ _ _ _ hn (hp r List.mem_cons_self) hj (fun k hk => by have := ho k hk; omega)
    | succ x =>
      have := ih (a + b) (setPx a off r d) (fun p hp' => hp p (List.mem_cons_of_mem _ hp')) (by simpa using hx) (by rw [setPx_length]; omega)
      rw [← this]
      congr 1
      rw [Nat.add_mul]; omega

theorem putPx_ok (a : Nat) (off : List Nat) (c d : List UInt8) (h : ∀ i ∈ off, a + i < d.length) : putPx off c a d = .ok (setPx a off c d) := by
  induction off generalizing c d with
  | nil => cases c <;> rfl
  | cons j js ih =>
    cases c with
    | nil => rfl
    | cons c cs =>
      rw [putPx, wr_of_lt (h j List.mem_cons_self), bind_ok, setPx]
      exact ih cs _ (fun i hi => by rw [List.length_set]; exact h i (List.mem_cons_of_mem _ hi))

/-! ### Reading pixels -/

theorem at_one {bs : List UInt8} {p : Nat} {c : UInt8} (h : bs[p]? = some c) : at_ bs p 1 = [c] := by
  obtain ⟨hp, e⟩ := List.getElem?_eq_some_iff.mp h
  unfold at_
  rw [List.drop_eq_getElem_cons hp, e]
  rfl

theorem memcpy_one (d : List UInt8) (a : Nat) (c : UInt8) (h : a < d.length) : memcpy d a [c] 0 1 = .ok (d.set a c) := by
  unfold memcpy
  simp only [List.length_singleton, Nat.zero_add, Nat.le_refl, if_true]
  rw [if_pos (by omega), List.set_eq_take_append_cons_drop, if_pos h]
  rfl

theorem readPx_ok (L : Laws2 o At) {bs : List UInt8} {a : Nat} (off : List Nat) (c : List UInt8) (t : Scan σ) {p : Nat} (h : At t.inp bs p) (hok : t.ok = true)
    (hn : Next bs p c) (hc : c.length = off.length) (ha : ∀ i ∈ off, a + i < t.data.length) :
    Holds (readPx o off a t) (fun r => r.data = setPx a off c t.data ∧ r.ok = true ∧ At r.inp bs (p + c.length)) := by
  induction off generalizing c t p with
  | nil =>
    have : c = [] := List.eq_nil_of_length_eq_zero hc
    subst this
    exact Holds.pure ⟨rfl, hok, h⟩
  | cons j js ih =>
    cases c with
    | nil => simp at hc
    | cons c cs =>
      unfold readPx
      have hp := Psd.Next.le hn (by simp)
      rw [List.length_cons] at hp
      refine (read_full L.toLaws 1 1 h (by decide) (by decide) (by omega)).bind (fun r hr => ?_)
      obtain ⟨g, n, s⟩ := r
      obtain ⟨h1, h2, h3⟩ := hr
      simp only at h1 h2 h3 ⊢
      rw [h1, show at_ bs p (1 * 1) = [c] from at_one hn.head, List.length_singleton, memcpy_one _ _ _ (ha j List.mem_cons_self), bind_ok, if_neg (by rw [h2]; decide)]
      refine (ih cs ⟨t.data.set (a + j) c, s, true⟩ h3 rfl hn.tail (by simpa using hc) (fun i hi => by
        show _ < (t.data.set _ _).length
        rw [List.length_set]; exact ha i (List.mem_cons_of_mem _ hi))).mono (fun r hr => ?_)
      refine ⟨hr.1, hr.2.1, ?_⟩
      have := hr.2.2
      rw [List.length_cons, show p + (cs.length + 1) = p + 1 * 1 + cs.length by omega]
      exact this

theorem readCol_ok (L : Laws2 o At) {bs : List UInt8} (c : List UInt8) {s : σ} {p : Nat} (h : At s bs p) (hn : Next bs p c) :
    Holds (readCol o c.length s) (fun r => r.1 = some c ∧ At r.2 bs (p + c.length)) := by
  induction c generalizing s p with
  | nil => exact Holds.pure ⟨rfl, h⟩
  | cons c cs ih =>
    have hp := Psd.Next.le hn (by simp)
    rw [List.length_cons] at hp ⊢
    unfold readCol
    refine (read_full L.toLaws 1 1 h (by decide) (by decide) (by omega)).bind (fun r hr => ?_)
    obtain ⟨g, n, s'⟩ := r
    obtain ⟨h1, h2, h3⟩ := hr
    simp only at h1 h2 h3 ⊢
    rw [if_neg (by rw [h2]; decide), h1, show at_ bs p (1 * 1) = [c] from at_one hn.head]
    refine (ih h3 hn.tail).bind (fun r hr => Holds.pure ?_)
    refine ⟨?_, ?_⟩
    · show Option.map _ r.1 = _
      rw [hr.1]; rfl
    · have := hr.2
      rw [show p + (cs.length + 1) = p + 1 * 1 + cs.length by omega]
      exact this

theorem take_succ_of {α : Type} {l : List α} {i : Nat} {x : α} (h : l[i]? = some x) : l.take (i + 1) = l.take i ++ [x] := by
  rw [List.take_add_one, h]; rfl

theorem paint_snoc (b : Nat) (off : List Nat) (a : Nat) (px : List (List UInt8)) (d : List UInt8) {i : Nat} {x : List UInt8} (h : px[i]? = some x) :
    paint b off a (px.take (i + 1)) d = setPx (a + i * b) off x (paint b off a (px.take i) d) := by
  have hi := (List.getElem?_eq_some_iff.mp h).1
  rw [take_succ_of h, paint_append, List.length_take, Nat.min_eq_left (by omega)]
  rfl

/-- The pixels as they are, also in a sequence; `chk` says whether the end of the input is looked for before each. -/
theorem readPxs_ok (L : Laws2 o At) {bs : List UInt8} {a b : Nat} (off : List Nat) (px : List (List UInt8)) {f : Nat → Scan σ → C (Scan σ)}
    (hf : ∀ i t p, i < px.length → At t.inp bs p → p < bs.length → t.ok = true → ∃ s, At s bs p ∧ f i t = readPx o off (a + i * b) { t with inp := s }) (ho : ∀ i ∈ off, i < b) (h0 : off ≠ [])
    (t : Scan σ) {p : Nat} (h : At t.inp bs p) (hok : t.ok = true) (hn : Next bs p px.flatten) (hp : ∀ x ∈ px, x.length = off.length) (ha : a + px.length * b ≤ t.data.length) :
    Holds (loopN px.length f t) (fun r => r.data = paint b off a px t.data ∧ r.ok = true ∧ At r.inp bs (p + px.flatten.length)) := by
  have := Holds.loop (f := f) (n := px.length) (s := t)
    (fun i r => r.data = paint b off a (px.take i) t.data ∧ r.ok = true ∧ At r.inp bs (p + (px.take i).flatten.length)) ⟨rfl, hok, by simpa using h⟩ (fun i r hi hr => ?_)
  · refine this.mono (fun r hr => ?_)
    rwa [List.take_length] at hr
  · obtain ⟨h1, h2, h3⟩ := hr
    have hx : px[i]? = some px[i] := List.getElem?_eq_getElem hi
    have hl := hp px[i] (List.getElem_mem hi)
    have h0' : 0 < off.length := List.length_pos_iff.mpr h0
    have hn' : Next bs (p + (px.take i).flatten.length) px[i] := by
      have := Hdr.next_flat (fun x => x) px (by rw [List.flatMap_id']; exact hn) hx
      rwa [List.flatMap_id'] at this
    have hfit := Psd.Next.le hn' (by omega)
    obtain ⟨s, hs, e⟩ := hf i r _ hi h3 (by omega) h2
    rw [e]
    have hdl : r.data.length = t.data.length := by rw [h1, paint_length]
    refine (readPx_ok L off px[i] { r with inp := s } hs h2 hn' hl (fun k hk => ?_)).mono (fun q hq => ⟨?_, hq.2.1, ?_⟩)
    · show _ < r.data.length
      have := ho k hk
      have : (i + 1) * b ≤ px.length * b := Nat.mul_le_mul_right _ hi
      rw [Nat.add_mul] at this
      omega
    · rw [hq.1, paint_snoc _ _ _ _ _ hx]
      show setPx _ _ _ r.data = _
      rw [h1]
    · have := hq.2.2
      rw [take_succ_of hx, List.flatten_append, List.length_append, List.flatten_singleton, ← Nat.add_assoc]
      exact this

theorem readRaw_ok (L : Laws2 o At) (E : EofLaw o At) {bs : List UInt8} {a b w : Nat} (off : List Nat) (px : List (List UInt8)) (hw : px.length = w) (ho : ∀ i ∈ off, i < b) (h0 : off ≠ [])
    (t : Scan σ) {p : Nat} (h : At t.inp bs p) (hok : t.ok = true) (hn : Next bs p px.flatten) (hp : ∀ x ∈ px, x.length = off.length) (ha : a + w * b ≤ t.data.length) :
    Holds (readRaw o w off b a t) (fun r => r.data = paint b off a px t.data ∧ r.ok = true ∧ At r.inp bs (p + px.flatten.length)) := by
  subst hw
  refine readPxs_ok L off px (fun i t p hi hA hlt hok => ?_) ho h0 t h hok hn hp ha
  obtain ⟨e1, e2⟩ := E hA (by omega) (by omega)
  refine ⟨(o.eof t.inp).2, e2, ?_⟩
  simp only [hok, Bool.not_true, Bool.false_eq_true, if_false]
  rw [e1, if_neg (by simp; omega)]

theorem putPxs_ok {a b : Nat} (off : List Nat) (c : List UInt8) (n : Nat) (d : List UInt8) {f : Nat → List UInt8 → C (List UInt8)} (hf : ∀ k d, f k d = putPx off c (a + k * b) d)
    (ho : ∀ i ∈ off, i < b) (ha : a + n * b ≤ d.length) : loopN n f d = .ok (paint b off a (List.replicate n c) d) := by
  have := Holds.loop (f := f) (n := n) (s := d) (fun i r => r = paint b off a ((List.replicate n c).take i) d) rfl (fun i r hi hr => ?_)
  · obtain ⟨r, e, h⟩ := this
    rw [e, h, List.take_of_length_le (by simp)]
  · rw [hf]
    have hl : r.length = d.length := by rw [hr, paint_length]
    rw [putPx_ok _ _ _ _ (fun k hk => by
      have := ho k hk
      have : (i + 1) * b ≤ n * b := Nat.mul_le_mul_right _ hi
      rw [Nat.add_mul] at this
      omega)]
    refine Holds.ok ?_
    rw [hr, paint_snoc (x := c) _ _ _ _ _ (by rw [List.getElem?_replicate, if_pos hi])]

end DevIL.Pic
