import Verif.Core
/-!
Toolkit for loops that write buffers: `Upd` says what a piece of code does to a buffer, and composes over
sequences and loops.  Nothing in this file models a particular DevIL function, except for the C library's
`memcpy` and `malloc`.
-/
set_option autoImplicit false
namespace DevIL

variable {β : Type}

/-- `malloc(n)`: `n` bytes of unknown content `junk`. -/
def alloc (junk : Nat → β) (n : Nat) : List β := (List.range n).map junk

@[simp] theorem alloc_length (junk : Nat → β) (n : Nat) : (alloc junk n).length = n := by simp [alloc]

theorem alloc_get (junk : Nat → β) (n i : Nat) (h : i < n) : (alloc junk n)[i]? = some (junk i) := by
  simp [alloc, h]

/-- `memcpy(dst + dOff, src + sOff, n)` between different blocks. -/
def memcpy (dst : List β) (dOff : Nat) (src : List β) (sOff n : Nat) : C (List β) :=
  if sOff + n ≤ src.length then
    if dOff + n ≤ dst.length then .ok (dst.take dOff ++ ((src.drop sOff).take n ++ dst.drop (dOff + n)))
    else .error .oobWrite
  else .error .oobRead

/-- Started on a buffer `d` of the length of `d0` that agrees with `d0` on `U`, the code `b` ends normally with a
buffer that has `v i` (never `none`) at the positions `i` in `R` and is unchanged elsewhere. -/
def Upd (b : List β → C (List β)) (d0 : List β) (U R : Nat → Prop) (v : Nat → Option β) : Prop :=
  ∀ d : List β, d.length = d0.length → (∀ i : Nat, U i → d[i]? = d0[i]?) →
    ∃ d' : List β, b d = .ok d' ∧ d'.length = d0.length ∧
      ∀ i : Nat, i < d0.length → (R i → d'[i]? = v i) ∧ (¬ R i → d'[i]? = d[i]?)

theorem Upd.apply {b : List β → C (List β)} {d0 : List β} {U R : Nat → Prop} {v : Nat → Option β} (h : Upd b d0 U R v) :
    ∃ d' : List β, b d0 = .ok d' ∧ d'.length = d0.length ∧
      ∀ i : Nat, i < d0.length → (R i → d'[i]? = v i) ∧ (¬ R i → d'[i]? = d0[i]?) :=
  h d0 rfl (fun _ _ => rfl)

theorem Upd.congr {b b' : List β → C (List β)} {d0 : List β} {U U' R R' : Nat → Prop} {v v' : Nat → Option β}
    (h : Upd b d0 U R v) (hb : ∀ d, d.length = d0.length → b' d = b d) (hU : ∀ i, U i → U' i)
    (hR : ∀ i, i < d0.length → (R i ↔ R' i)) (hv : ∀ i, i < d0.length → R i → v i = v' i) :
    Upd b' d0 U' R' v' := by
  intro d hl hu
  obtain ⟨d', e, l, s⟩ := h d hl (fun i hi => hu i (hU i hi))
  refine ⟨d', by rw [hb d hl, e], l, fun i hi => ⟨fun hr => ?_, fun hr => ?_⟩⟩
  · have hr' := (hR i hi).mpr hr
    rw [(s i hi).1 hr', hv i hi hr']
  · exact (s i hi).2 (fun hr' => hr ((hR i hi).mp hr'))

theorem Upd.skip (d0 : List β) (v : Nat → Option β) : Upd (fun d => .ok d) d0 (fun _ => False) (fun _ => False) v :=
  fun d hl _ => ⟨d, rfl, hl, fun _ _ => ⟨False.elim, fun _ => rfl⟩⟩

theorem Upd.wr {d0 : List β} {k : Nat} {x : β} {v : Nat → Option β} (hk : k < d0.length) (hv : v k = some x) :
    Upd (fun d => DevIL.wr d k x) d0 (fun _ => False) (fun i => i = k) v := by
  intro d hl _
  refine ⟨d.set k x, wr_of_lt (by omega), by simp [hl], fun i hi => ⟨?_, ?_⟩⟩
  · rintro rfl
    rw [List.getElem?_set_self (by omega), hv]
  · intro hne
    rw [List.getElem?_set_ne (fun h => hne h.symm)]

/-- Write a value computed from the buffer itself. -/
theorem Upd.wrWith {d0 : List β} {k : Nat} {x : β} {U : Nat → Prop} {v : Nat → Option β} {g : List β → C β} (hk : k < d0.length)
    (hv : v k = some x) (hg : ∀ d : List β, d.length = d0.length → (∀ i : Nat, U i → d[i]? = d0[i]?) → g d = .ok x) :
    Upd (fun d => g d >>= fun x => DevIL.wr d k x) d0 U (fun i => i = k) v := by
  intro d hl hu
  obtain ⟨d', e, r⟩ := Upd.wr (v := v) hk hv d hl (fun _ h => h.elim)
  exact ⟨d', by simp only [hg d hl hu, bind_ok, e], r⟩

theorem Upd.seq {b1 b2 : List β → C (List β)} {d0 : List β} {U1 R1 U2 R2 : Nat → Prop} {v : Nat → Option β}
    (h1 : Upd b1 d0 U1 R1 v) (h2 : Upd b2 d0 U2 R2 v) (hd : ∀ i, i < d0.length → U2 i → ¬ R1 i) :
    Upd (fun d => b1 d >>= b2) d0 (fun i => U1 i ∨ U2 i) (fun i => R1 i ∨ R2 i) v := by
  intro d hl hu
  obtain ⟨d1, e1, l1, s1⟩ := h1 d hl (fun i hi => hu i (Or.inl hi))
  obtain ⟨d2, e2, l2, s2⟩ := h2 d1 l1 (fun i hi => by
    by_cases hlt : i < d0.length
    · rw [(s1 i hlt).2 (hd i hlt hi)]; exact hu i (Or.inr hi)
    · rw [List.getElem?_eq_none (by omega), List.getElem?_eq_none (by omega)])
  refine ⟨d2, by simp only [e1, bind_ok, e2], l2, fun i hi => ⟨fun hr => ?_, fun hr => ?_⟩⟩
  · by_cases h : R2 i
    · exact (s2 i hi).1 h
    · rw [(s2 i hi).2 h]
      exact (s1 i hi).1 (hr.resolve_right h)
  · rw [(s2 i hi).2 (fun h => hr (Or.inr h)), (s1 i hi).2 (fun h => hr (Or.inl h))]

theorem Upd.loop {n : Nat} {body : Nat → List β → C (List β)} {d0 : List β} {U R : Nat → Nat → Prop} {v : Nat → Option β}
    (h : ∀ k, k < n → Upd (body k) d0 (U k) (R k) v)
    (hd : ∀ j k i, j < k → k < n → i < d0.length → U k i → ¬ R j i) :
    Upd (fun d => loopN n body d) d0 (fun i => ∃ k, k < n ∧ U k i) (fun i => ∃ k, k < n ∧ R k i) v := by
  induction n with
  | zero =>
    intro d hl _
    exact ⟨d, rfl, hl, fun i _ => ⟨fun ⟨k, hk, _⟩ => by omega, fun _ => rfl⟩⟩
  | succ n ih =>
    have h1 := ih (fun k hk => h k (by omega)) (fun j k i h1 h2 => hd j k i h1 (by omega))
    have h2 := Upd.seq h1 (h n (by omega)) (fun i hi hu ⟨j, hj, hr⟩ => hd j n i hj (by omega) hi hu hr)
    refine h2.congr (fun d _ => loopN_succ _ _ _) ?_ ?_ (fun _ _ _ => rfl)
    · rintro i (⟨k, hk, hu⟩ | hu)
      · exact ⟨k, by omega, hu⟩
      · exact ⟨n, by omega, hu⟩
    · intro i _
      constructor
      · rintro (⟨k, hk, hu⟩ | hu)
        · exact ⟨k, by omega, hu⟩
        · exact ⟨n, by omega, hu⟩
      · rintro ⟨k, hk, hu⟩
        by_cases hkn : k = n
        · exact Or.inr (hkn ▸ hu)
        · exact Or.inl ⟨k, by omega, hu⟩

/-- A loop of writes that do not depend on the buffer. -/
theorem Upd.loopW {n : Nat} {body : Nat → List β → C (List β)} {d0 : List β} {R : Nat → Nat → Prop} {v : Nat → Option β}
    (h : ∀ k, k < n → Upd (body k) d0 (fun _ => False) (R k) v) :
    Upd (fun d => loopN n body d) d0 (fun _ => False) (fun i => ∃ k, k < n ∧ R k i) v :=
  (Upd.loop h (fun _ _ _ _ _ _ hu => hu.elim)).congr (fun _ _ => rfl) (fun _ ⟨_, _, h⟩ => h) (fun _ _ => Iff.rfl)
    (fun _ _ _ => rfl)

theorem memcpy_get {dst src : List β} {dOff sOff n : Nat} (h1 : sOff + n ≤ src.length) (h2 : dOff + n ≤ dst.length) :
    ∃ d' : List β, memcpy dst dOff src sOff n = .ok d' ∧ d'.length = dst.length ∧
      ∀ i, d'[i]? = if dOff ≤ i ∧ i < dOff + n then src[sOff + (i - dOff)]? else dst[i]? := by
  refine ⟨dst.take dOff ++ ((src.drop sOff).take n ++ dst.drop (dOff + n)), ?_, ?_, ?_⟩
  · unfold memcpy
    rw [if_pos h1, if_pos h2]
  · simp; omega
  · intro i
    have hl1 : (dst.take dOff).length = dOff := by simp; omega
    have hl2 : ((src.drop sOff).take n).length = n := by simp; omega
    by_cases hi : i < dOff
    · rw [List.getElem?_append_left (by omega), if_neg (by omega), List.getElem?_take, if_pos hi]
    · rw [List.getElem?_append_right (by omega), hl1]
      by_cases hi2 : i < dOff + n
      · rw [List.getElem?_append_left (by omega), if_pos ⟨by omega, hi2⟩, List.getElem?_take, if_pos (by omega),
          List.getElem?_drop]
      · rw [List.getElem?_append_right (by omega), hl2, List.getElem?_drop, if_neg (by omega)]
        congr 1
        omega

theorem memcpy_upd {d0 src : List β} {dOff sOff n : Nat} {v : Nat → Option β} (h1 : sOff + n ≤ src.length)
    (h2 : dOff + n ≤ d0.length) (hv : ∀ i, dOff ≤ i → i < dOff + n → src[sOff + (i - dOff)]? = v i) :
    Upd (fun d => memcpy d dOff src sOff n) d0 (fun _ => False) (fun i => dOff ≤ i ∧ i < dOff + n) v := by
  intro d hl _
  obtain ⟨d', e, l, s⟩ := memcpy_get (dst := d) (src := src) h1 (by omega : dOff + n ≤ d.length)
  refine ⟨d', e, by omega, fun i hi => ⟨fun hr => ?_, fun hr => ?_⟩⟩
  · rw [s, if_pos hr]; exact hv i hr.1 hr.2
  · rw [s, if_neg hr]

/-! ### Index arithmetic -/

/-- Position in a block of `k`-wide cells inside rows of `w` cells. -/
theorem lt_of_idx {x w k c n : Nat} (hx : x < w) (hc : c < k) (h : w * k ≤ n) : x * k + c < n := by
  have := idx_lt hx hc; omega

theorem add_mul_lt {x w k c : Nat} (hx : x < w) (hc : c < k) : x * k + c < w * k := idx_lt hx hc

/-- The rectangular copy `for z for y for x for c: dst[dIdx z y x c] = src[sIdx z y x c]`. -/
def copy4 (nz ny nx nc : Nat) (dIdx sIdx : Nat → Nat → Nat → Nat → Nat) (src : List β) (dst : List β) : C (List β) :=
  loopN nz (fun z d => loopN ny (fun y d => loopN nx (fun x d => loopN nc (fun c d =>
    rd src (sIdx z y x c) >>= fun v => wr d (dIdx z y x c) v) d) d) d) dst

open Classical in
/-- Contents after a rectangular copy whose destination positions are all different. -/
theorem copy4_spec {nz ny nx nc : Nat} {dIdx sIdx : Nat → Nat → Nat → Nat → Nat} {src dst : List β}
    (hd : ∀ z y x c, z < nz → y < ny → x < nx → c < nc → dIdx z y x c < dst.length)
    (hs : ∀ z y x c, z < nz → y < ny → x < nx → c < nc → sIdx z y x c < src.length)
    (hi : ∀ z y x c z' y' x' c', z < nz → y < ny → x < nx → c < nc → z' < nz → y' < ny → x' < nx → c' < nc →
      dIdx z y x c = dIdx z' y' x' c' → z = z' ∧ y = y' ∧ x = x' ∧ c = c') :
    ∃ d' : List β, copy4 nz ny nx nc dIdx sIdx src dst = .ok d' ∧ d'.length = dst.length ∧
      (∀ z y x c, z < nz → y < ny → x < nx → c < nc → d'[dIdx z y x c]? = src[sIdx z y x c]?) ∧
      (∀ i : Nat, (∀ z y x c, z < nz → y < ny → x < nx → c < nc → i ≠ dIdx z y x c) → d'[i]? = dst[i]?) := by
  let v : Nat → Option β := fun i =>
    if h : ∃ q : Nat × Nat × Nat × Nat, q.1 < nz ∧ q.2.1 < ny ∧ q.2.2.1 < nx ∧ q.2.2.2 < nc ∧
        i = dIdx q.1 q.2.1 q.2.2.1 q.2.2.2
    then src[sIdx h.choose.1 h.choose.2.1 h.choose.2.2.1 h.choose.2.2.2]? else none
  have hv : ∀ z y x c, z < nz → y < ny → x < nx → c < nc → v (dIdx z y x c) = src[sIdx z y x c]? := by
    intro z y x c hz hy hx hc
    have h : ∃ q : Nat × Nat × Nat × Nat, q.1 < nz ∧ q.2.1 < ny ∧ q.2.2.1 < nx ∧ q.2.2.2 < nc ∧
        dIdx z y x c = dIdx q.1 q.2.1 q.2.2.1 q.2.2.2 := ⟨(z, y, x, c), hz, hy, hx, hc, rfl⟩
    obtain ⟨h1, h2, h3, h4, h5⟩ := h.choose_spec
    obtain ⟨e1, e2, e3, e4⟩ := hi _ _ _ _ _ _ _ _ hz hy hx hc h1 h2 h3 h4 h5
    show (if h : _ then _ else _) = _
    rw [dif_pos h, ← e1, ← e2, ← e3, ← e4]
  have hu : Upd (fun d => copy4 nz ny nx nc dIdx sIdx src d) dst (fun _ => False)
      (fun i => ∃ z, z < nz ∧ ∃ y, y < ny ∧ ∃ x, x < nx ∧ ∃ c, c < nc ∧ i = dIdx z y x c) v := by
    refine Upd.loopW fun z hz => Upd.loopW fun y hy => Upd.loopW fun x hx => Upd.loopW fun c hc => ?_
    have hlt := hs z y x c hz hy hx hc
    refine (Upd.wr (x := src[sIdx z y x c]) (hd z y x c hz hy hx hc) ?_).congr ?_ (fun _ h => h) (fun _ _ => Iff.rfl)
      (fun _ _ _ => rfl)
    · rw [hv z y x c hz hy hx hc, List.getElem?_eq_getElem hlt]
    · intro d _
      rw [rd_of_lt hlt, bind_ok]
  obtain ⟨d', e, l, s⟩ := hu.apply
  refine ⟨d', e, l, fun z y x c hz hy hx hc => ?_, fun i hn => ?_⟩
  · rw [(s _ (hd z y x c hz hy hx hc)).1 ⟨z, hz, y, hy, x, hx, c, hc, rfl⟩, hv z y x c hz hy hx hc]
  · by_cases hlt : i < dst.length
    · exact (s i hlt).2 (fun ⟨z, hz, y, hy, x, hx, c, hc, e⟩ => hn z y x c hz hy hx hc e)
    · rw [List.getElem?_eq_none (by omega), List.getElem?_eq_none (by omega)]

/-- Positions `(x, y, z, c)` in an image of `w * h` pixels of `k` components per slice. -/
def pos (w h k z y x c : Nat) : Nat := ((z * h + y) * w + x) * k + c

theorem pos_lt {w h d k z y x c n : Nat} (hz : z < d) (hy : y < h) (hx : x < w) (hc : c < k) (hn : d * h * w * k ≤ n) :
    pos w h k z y x c < n := by
  have h1 := idx_lt hz hy
  have h2 := idx_lt h1 hx
  have h3 := idx_lt h2 hc
  unfold pos
  omega

theorem pos_inj {w h k z y x c z' y' x' c' : Nat} (hy : y < h) (hx : x < w) (hc : c < k) (hy' : y' < h) (hx' : x' < w)
    (hc' : c' < k) (e : pos w h k z y x c = pos w h k z' y' x' c') : z = z' ∧ y = y' ∧ x = x' ∧ c = c' := by
  obtain ⟨e1, e2⟩ := idx_inj hc hc' e
  obtain ⟨e3, e4⟩ := idx_inj hx hx' e1
  obtain ⟨e5, e6⟩ := idx_inj hy hy' e3
  exact ⟨e5, e6, e4, e2⟩

/-- Every position of the buffer is a pixel component. -/
theorem pos_surj {w h d k n i : Nat} (hi : i < n) (hn : n = d * h * w * k) :
    ∃ z y x c, z < d ∧ y < h ∧ x < w ∧ c < k ∧ i = pos w h k z y x c := by
  subst hn
  have hk : 0 < k := Nat.pos_of_ne_zero (fun e => by subst e; simp at hi)
  have h1 : i / k < d * h * w := (Nat.div_lt_iff_lt_mul hk).mpr hi
  have hw : 0 < w := Nat.pos_of_ne_zero (fun e => by subst e; simp at h1)
  have h2 : i / k / w < d * h := (Nat.div_lt_iff_lt_mul hw).mpr h1
  have hh : 0 < h := Nat.pos_of_ne_zero (fun e => by subst e; simp at h2)
  have h3 : i / k / w / h < d := (Nat.div_lt_iff_lt_mul hh).mpr h2
  refine ⟨i / k / w / h, i / k / w % h, i / k % w, i % k, h3, Nat.mod_lt _ hh, Nat.mod_lt _ hw, Nat.mod_lt _ hk, ?_⟩
  unfold pos
  rw [Nat.div_add_mod', Nat.div_add_mod', Nat.div_add_mod']

/-- Two buffers of an image's size that agree on all components are equal. -/
theorem ext_pos {w h d k : Nat} {a b : List β} (ha : a.length = d * h * w * k) (hb : b.length = d * h * w * k)
    (he : ∀ z y x c, z < d → y < h → x < w → c < k → a[pos w h k z y x c]? = b[pos w h k z y x c]?) : a = b := by
  apply List.ext_getElem?
  intro i
  by_cases hi : i < d * h * w * k
  · obtain ⟨z, y, x, c, hz, hy, hx, hc, rfl⟩ := pos_surj hi rfl
    exact he z y x c hz hy hx hc
  · rw [List.getElem?_eq_none (by omega), List.getElem?_eq_none (by omega)]

end DevIL

namespace DevIL
variable {β : Type}

/-- In-place update of every cell of a `d*h*w*k` block by `f`, one read and one write per cell. -/
theorem mapAll_spec {w h d k : Nat} {data : List β} {f : β → β} {idx : Nat → Nat → Nat → Nat → Nat}
    (hl : data.length = d * h * w * k) (hi : ∀ z y x c, z < d → y < h → x < w → c < k → idx z y x c = pos w h k z y x c) :
    loopN d (fun z b => loopN h (fun y b => loopN w (fun x b => loopN k (fun c b =>
      rd b (idx z y x c) >>= fun v => wr b (idx z y x c) (f v)) b) b) b) data = .ok (data.map f) := by
  have hu : Upd (fun b => loopN d (fun z b => loopN h (fun y b => loopN w (fun x b => loopN k (fun c b =>
      rd b (idx z y x c) >>= fun v => wr b (idx z y x c) (f v)) b) b) b) b) data
      (fun i => ∃ z, z < d ∧ ∃ y, y < h ∧ ∃ x, x < w ∧ ∃ c, c < k ∧ i = pos w h k z y x c)
      (fun i => ∃ z, z < d ∧ ∃ y, y < h ∧ ∃ x, x < w ∧ ∃ c, c < k ∧ i = pos w h k z y x c)
      (fun i => data[i]?.map f) := by
    refine Upd.loop (fun z hz => Upd.loop (fun y hy => Upd.loop (fun x hx => Upd.loop (fun c hc => ?_) ?_) ?_) ?_) ?_
    · have hlt := pos_lt hz hy hx hc (Nat.le_of_eq hl.symm)
      have e := hi z y x c hz hy hx hc
      rw [e]
      intro dd hdl hu
      have hg : rd dd (pos w h k z y x c) = .ok data[pos w h k z y x c] := by
        rw [rd_eq_ok, hu _ rfl, List.getElem?_eq_getElem hlt]
      refine ⟨dd.set (pos w h k z y x c) (f data[pos w h k z y x c]), ?_, by simp [hdl], fun i hi' => ⟨?_, ?_⟩⟩
      · show (rd dd _ >>= _) = _
        rw [hg, bind_ok, wr_of_lt (by omega)]
      · rintro rfl
        rw [List.getElem?_set_self (by omega)]
        show _ = Option.map f data[pos w h k z y x c]?
        rw [List.getElem?_eq_getElem hlt]; rfl
      · intro hne
        rw [List.getElem?_set_ne (fun h => hne h.symm)]
    · rintro j c i hj hc _ rfl e
      have := pos_inj hy hx hc hy hx (by omega) e; omega
    · rintro j x i hj hx _ ⟨c, hc, rfl⟩ ⟨c', hc', e⟩
      have := pos_inj hy hx hc hy (by omega) hc' e; omega
    · rintro j y i hj hy _ ⟨x, hx, c, hc, rfl⟩ ⟨x', hx', c', hc', e⟩
      have := pos_inj hy hx hc (by omega) hx' hc' e; omega
    · rintro j z i hj hz _ ⟨y, hy, x, hx, c, hc, rfl⟩ ⟨y', hy', x', hx', c', hc', e⟩
      have := pos_inj hy hx hc hy' hx' hc' e; omega
  obtain ⟨d', e, l, s⟩ := hu.apply
  rw [e]
  congr 1
  apply List.ext_getElem?
  intro i
  by_cases hi' : i < data.length
  · rw [List.getElem?_map]
    exact (s i hi').1 (by
      obtain ⟨z, y, x, c, hz, hy, hx, hc, e⟩ := pos_surj hi' hl
      exact ⟨z, hz, y, hy, x, hx, c, hc, e⟩)
  · rw [List.getElem?_eq_none (by omega), List.getElem?_eq_none (by simp; omega)]

/-- `d` with the bytes `o` stored from position `q` on. -/
def splice (d : List β) (q : Nat) (o : List β) : List β := d.take q ++ (o ++ d.drop (q + o.length))

theorem splice_length {d o : List β} {q : Nat} (h : q + o.length ≤ d.length) : (splice d q o).length = d.length := by
  unfold splice; simp only [List.length_append, List.length_take, List.length_drop]; omega

@[simp] theorem splice_nil (d : List β) (q : Nat) : splice d q [] = d := by simp [splice]

theorem splice_take {d o : List β} {q : Nat} (h : q ≤ d.length) : (splice d q o).take (q + o.length) = d.take q ++ o := by
  unfold splice
  rw [← List.append_assoc, List.take_append_of_le_length (by simp; omega), List.take_of_length_le (by simp; omega)]

theorem splice_splice {d o o' : List β} {q : Nat} (h : q ≤ d.length) :
    splice (splice d q o) (q + o.length) o' = splice d q (o ++ o') := by
  have e : (splice d q o).take (q + o.length) = d.take q ++ o := splice_take h
  have e2 : (splice d q o).drop (q + o.length + o'.length) = d.drop (q + o.length + o'.length) := by
    unfold splice
    rw [← List.append_assoc, List.drop_append, List.drop_eq_nil_of_le (by simp; omega), List.nil_append, List.drop_drop]
    congr 1
    simp; omega
  show (splice d q o).take (q + o.length) ++ (o' ++ (splice d q o).drop (q + o.length + o'.length)) = _
  rw [e, e2]
  simp [splice, Nat.add_assoc]

theorem splice_all {d o : List β} (h : o.length = d.length) : splice d 0 o = o := by
  unfold splice; rw [List.drop_eq_nil_of_le (by omega)]; simp

theorem wr_splice {d : List β} {q : Nat} {v : β} (h : q < d.length) : wr d q v = .ok (splice d q [v]) := by
  rw [wr_of_lt h]
  congr 1
  rw [List.set_eq_take_append_cons_drop, if_pos h]
  simp [splice]

/-- `n` times `*q++ = *p++`. -/
theorem copy_splice {src d : List β} {p q n : Nat} (hs : p + n ≤ src.length) (hd : q + n ≤ d.length) :
    loopN n (fun i d => do let b ← rd src (p + i); wr d (q + i) b) d = .ok (splice d q ((src.drop p).take n)) := by
  obtain ⟨t, e, ht⟩ := loopN_inv (n := n) (s := d) (f := fun i d => do let b ← rd src (p + i); wr d (q + i) b)
    (fun k t => t = splice d q ((src.drop p).take k)) (by simp) (by
      rintro k t hk rfl
      have hl : ((src.drop p).take k).length = k := by simp; omega
      refine ⟨_, ?_, rfl⟩
      rw [rd_of_lt (by omega), bind_ok]
      have := wr_splice (d := splice d q ((src.drop p).take k)) (q := q + k) (v := src[p + k])
        (by rw [splice_length (by omega)]; omega)
      rw [this]
      congr 1
      have h2 := splice_splice (d := d) (o := (src.drop p).take k) (o' := [src[p + k]]) (q := q) (by omega)
      rw [hl] at h2
      rw [h2]
      congr 1
      rw [List.take_succ_eq_append_getElem (i := k) (by simp; omega)]
      simp)
  rw [e, ht]

/-- `d` with the bytes `o` stored from position `q` on as far as they fit. -/
def clip (d : List β) (q : Nat) (o : List β) : List β := splice d q (o.take (d.length - q))

@[simp] theorem clip_length (d : List β) (q : Nat) (o : List β) : (clip d q o).length = d.length := by
  unfold clip
  by_cases h : q ≤ d.length
  · rw [splice_length (by simp; omega)]
  · rw [show d.length - q = 0 by omega]; simp

@[simp] theorem clip_nil (d : List β) (q : Nat) : clip d q [] = d := by simp [clip]

theorem clip_clip (d : List β) (q : Nat) (o o' : List β) : clip (clip d q o) (q + o.length) o' = clip d q (o ++ o') := by
  by_cases h : q + o.length ≤ d.length
  · have e : o.take (d.length - q) = o := List.take_of_length_le (by omega)
    show splice (clip d q o) (q + o.length) (o'.take ((clip d q o).length - (q + o.length))) = _
    rw [clip_length]
    unfold clip
    rw [e, splice_splice (by omega), List.take_append, e]
    congr 3
    omega
  · have e : (clip d q o).length - (q + o.length) = 0 := by rw [clip_length]; omega
    show splice (clip d q o) (q + o.length) (o'.take ((clip d q o).length - (q + o.length))) = _
    rw [e, List.take_zero, splice_nil]
    unfold clip
    rw [List.take_append, show d.length - q - o.length = 0 by omega]
    simp

/-- Enough bytes to fill the block replace its contents. -/
theorem clip_full {d o : List β} (h : d.length ≤ o.length) : clip d 0 o = o.take d.length := by
  unfold clip
  rw [Nat.sub_zero, splice_all (by simp; omega)]

theorem splice_eq_clip {d o : List β} {q : Nat} (h : q + o.length ≤ d.length) : splice d q o = clip d q o := by
  unfold clip; rw [List.take_of_length_le (by omega)]

end DevIL
