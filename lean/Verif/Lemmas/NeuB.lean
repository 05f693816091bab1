import Verif.Lemmas.Neu
/-! Lemmas about the NeuQuant quantizer: the index and the search. -/
set_option autoImplicit false
namespace DevIL.Neu

theorem unbias_length (net : List Px) : (unbias net).length = net.length := by unfold unbias; simp

theorem unbias_get {net : List Px} {i : Nat} {p : Px} (h : net[i]? = some p) : (unbias net)[i]? = some ⟨p.b / 16, p.g / 16, p.r / 16, i⟩ := by
  unfold unbias
  rw [List.getElem?_mapIdx, h]
  rfl

theorem unbias_spec {net : List Px} (hr : ∀ p ∈ net, Rng 4080 p) {i : Nat} {e : Px} (h : (unbias net)[i]? = some e) : Rng 255 e ∧ e.c = i := by
  have hi : i < net.length := by rw [← unbias_length]; exact (List.getElem?_eq_some_iff.mp h).1
  rw [unbias_get (List.getElem?_eq_getElem hi)] at h
  obtain rfl := Option.some.inj h
  obtain ⟨⟨a, b⟩, ⟨c, d⟩, x, y⟩ := hr _ (List.getElem_mem hi)
  refine ⟨⟨⟨?_, ?_⟩, ⟨?_, ?_⟩, ?_, ?_⟩, rfl⟩ <;> simp only [] <;> omega

section
variable {n : Nat}

theorem smallest_spec {net : List Px} {i : Nat} {p : Px} (hl : net.length = n) (hp : net[i]? = some p) :
    ∃ sp sv, smallest net n i p.g = .ok (sp, sv) ∧ i ≤ sp ∧ sp < n ∧ (∃ q, net[sp]? = some q ∧ q.g = sv) ∧ ∀ (j : Nat) e, i ≤ j → net[j]? = some e → sv ≤ e.g := by
  have hi : i < n := by rw [← hl]; exact (List.getElem?_eq_some_iff.mp hp).1
  unfold smallest
  obtain ⟨t, e, h1, h2, h3, h4⟩ := loopN_inv (f := fun m (t : Nat × Int) => do
      let q ← rd net (i + 1 + m)
      pure (if q.g < t.2 then (i + 1 + m, q.g) else t)) (n := n - (i + 1)) (s := (i, p.g))
    (fun k (t : Nat × Int) => i ≤ t.1 ∧ t.1 < n ∧ (∃ q, net[t.1]? = some q ∧ q.g = t.2) ∧ ∀ (j : Nat) e, i ≤ j → j < i + 1 + k → net[j]? = some e → t.2 ≤ e.g)
    ⟨Nat.le_refl _, hi, ⟨p, hp, rfl⟩, fun j e h1 h2 h3 => by
      have : j = i := by omega
      subst this
      rw [hp] at h3; cases h3; exact Int.le_refl _⟩ (fun k t hk hI => by
      obtain ⟨i1, i2, i3, i4⟩ := hI
      obtain ⟨q, eq, -, hq⟩ := rd_net (show i + 1 + k < net.length by omega)
      rw [eq, bind_ok, pure_eq_ok]
      refine ⟨_, rfl, ?_⟩
      by_cases c : q.g < t.2
      · rw [if_pos c]
        refine ⟨by simp only []; omega, by simp only []; omega, ⟨q, hq, rfl⟩, fun j e a b h => ?_⟩
        by_cases d : j = i + 1 + k
        · subst d; rw [hq] at h; cases h; exact Int.le_refl _
        · have := i4 j e a (by omega) h
          simp only []
          omega
      · rw [if_neg c]
        refine ⟨i1, i2, i3, fun j e a b h => ?_⟩
        by_cases d : j = i + 1 + k
        · subst d; rw [hq] at h; cases h; omega
        · exact i4 j e a (by omega) h)
  refine ⟨t.1, t.2, e, h1, h2, h3, fun j e a h => h4 j e a ?_ h⟩
  have := (List.getElem?_eq_some_iff.mp h).1
  omega

/-- Two entries change places. -/
theorem swap_spec {net : List Px} {i sp : Nat} {p q : Px} (hp : net[i]? = some p) (hq : net[sp]? = some q) :
    ∃ net', (if i ≠ sp then do
      let net ← wr net sp p
      wr net i q
    else pure net) = .ok net' ∧ net'.length = net.length ∧ ∀ j, net'[j]? = if j = i then some q else if j = sp then some p else net[j]? := by
  have h1 := (List.getElem?_eq_some_iff.mp hp).1
  have h2 := (List.getElem?_eq_some_iff.mp hq).1
  by_cases c : i = sp
  · subst c
    rw [hp] at hq; cases hq
    rw [if_neg (fun h => h rfl)]
    refine ⟨net, rfl, rfl, fun j => ?_⟩
    by_cases d : j = i
    · rw [if_pos d, d, hp]
    · rw [if_neg d, if_neg d]
  · rw [if_pos c, wr_of_lt h2, bind_ok, wr_of_lt (by rw [List.length_set]; exact h1)]
    refine ⟨_, rfl, by simp, fun j => ?_⟩
    by_cases d : j = i
    · rw [if_pos d, d, List.getElem?_set_self (by rw [List.length_set]; exact h1)]
    · rw [if_neg d, List.getElem?_set_ne (Ne.symm d)]
      by_cases e : j = sp
      · rw [if_pos e, e, List.getElem?_set_self h2]
      · rw [if_neg e, List.getElem?_set_ne (Ne.symm e)]

theorem swap_mem {net net' : List Px} {i sp : Nat} {p q : Px} (hp : net[i]? = some p) (hq : net[sp]? = some q)
    (h : ∀ j, net'[j]? = if j = i then some q else if j = sp then some p else net[j]?) (e : Px) : e ∈ net' ↔ e ∈ net := by
  constructor
  · intro he
    obtain ⟨j, hj⟩ := List.mem_iff_getElem?.mp he
    rw [h j] at hj
    by_cases a : j = i
    · rw [if_pos a] at hj; cases hj; exact List.mem_of_getElem? hq
    · rw [if_neg a] at hj
      by_cases b : j = sp
      · rw [if_pos b] at hj; cases hj; exact List.mem_of_getElem? hp
      · rw [if_neg b] at hj; exact List.mem_of_getElem? hj
  · intro he
    obtain ⟨j, hj⟩ := List.mem_iff_getElem?.mp he
    by_cases a : j = i
    · subst a
      rw [hp] at hj; cases hj
      have := h sp
      by_cases b : sp = j
      · subst b
        rw [hp] at hq; cases hq
        rw [if_pos rfl] at this
        exact List.mem_of_getElem? this
      · rw [if_neg b, if_pos rfl] at this
        exact List.mem_of_getElem? this
    · by_cases b : j = sp
      · subst b
        rw [hq] at hj; cases hj
        have := h i
        rw [if_pos rfl] at this
        exact List.mem_of_getElem? this
      · have := h j
        rw [if_neg a, if_neg b, hj] at this
        exact List.mem_of_getElem? this

/-- Writes to a run of places. -/
theorem fill_spec {idx : List Int} (hl : idx.length = 256) {lo v : Int} (h0 : 0 ≤ lo) {k : Nat} (hk : lo + k ≤ 256) :
    ∃ idx', loopN k (fun m idx => wrI idx (lo + m) v) idx = .ok idx' ∧ idx'.length = 256 ∧ ∀ j : Nat, idx'[j]? = if lo ≤ j ∧ (j : Int) < lo + k then some v else idx[j]? := by
  obtain ⟨d, e, h1, h2⟩ := loopN_inv (f := fun m idx => wrI idx (lo + m) v) (n := k) (s := idx)
    (fun m (d : List Int) => d.length = 256 ∧ ∀ j : Nat, d[j]? = if lo ≤ j ∧ (j : Int) < lo + m then some v else idx[j]?)
    ⟨hl, fun j => by rw [if_neg (by omega)]⟩ (fun m d hm hI => by
      obtain ⟨i1, i2⟩ := hI
      unfold wrI
      rw [if_neg (by omega), wr_of_lt (by omega)]
      refine ⟨_, rfl, (List.length_set ..).trans i1, fun j => ?_⟩
      by_cases c : j = (lo + m).toNat
      · rw [c, List.getElem?_set_self (by omega), if_pos (by omega)]
      · rw [List.getElem?_set_ne (Ne.symm c), i2 j]
        by_cases a : lo ≤ j ∧ (j : Int) < lo + m
        · rw [if_pos a, if_pos (by omega)]
        · rw [if_neg a, if_neg (by omega)])
  exact ⟨d, e, h1, h2⟩

/-- What holds when `k` entries are in their places. -/
structure Sorted (n : Nat) (net0 : List Px) (k : Nat) (t : Ix) : Prop where
  len : t.net.length = n
  mem : ∀ e, e ∈ t.net ↔ e ∈ net0
  sorted : ∀ (a b : Nat) x y, a < k → a ≤ b → t.net[a]? = some x → t.net[b]? = some y → x.g ≤ y.g
  ilen : t.idx.length = 256
  prev : 0 ≤ t.prev ∧ t.prev ≤ 255
  below : ∀ (b : Nat) y, k ≤ b → t.net[b]? = some y → t.prev ≤ y.g
  start : t.start < n
  set : ∀ j : Nat, (j : Int) < t.prev → ∃ v, t.idx[j]? = some v ∧ 0 ≤ v ∧ v < n

theorem ixStep_spec {net0 : List Px} (hr : ∀ p ∈ net0, Rng 255 p) {i : Nat} (hi : i < n) {t : Ix} (hI : Sorted n net0 i t) : ∃ t', ixStep n i t = .ok t' ∧ Sorted n net0 (i + 1) t' := by
  obtain ⟨hl, hm, hs, hil, hpv, hbl, hst, hset⟩ := hI
  obtain ⟨p, ep, -, hp⟩ := rd_net (show i < t.net.length by omega)
  obtain ⟨sp, sv, es, h1, h2, ⟨q, hq, hqg⟩, h3⟩ := smallest_spec hl hp
  obtain ⟨net, en, hnl, hn⟩ := swap_spec hp hq
  have hmem := swap_mem hp hq hn
  have hqr := hr q ((hm q).mp (List.mem_of_getElem? hq))
  have hsv : 0 ≤ sv ∧ sv ≤ 255 := by rw [← hqg]; exact hqr.2.1
  have hpsv : t.prev ≤ sv := by rw [← hqg]; exact hbl sp q h1 hq
  have hlate : ∀ (b : Nat) y, i ≤ b → net[b]? = some y → sv ≤ y.g := fun b y hb hy => by
    rw [hn b] at hy
    by_cases a : b = i
    · rw [if_pos a] at hy; cases hy; omega
    · rw [if_neg a] at hy
      by_cases c : b = sp
      · rw [if_pos c] at hy; cases hy; exact h3 i p (Nat.le_refl _) hp
      · rw [if_neg c] at hy; exact h3 b y hb hy
  have hsort : ∀ (a b : Nat) x y, a < i + 1 → a ≤ b → net[a]? = some x → net[b]? = some y → x.g ≤ y.g := fun a b x y ha hab hx hy => by
    by_cases c : a = i
    · subst c
      rw [hn a, if_pos rfl] at hx
      cases hx
      rw [hqg]
      exact hlate b y hab hy
    · have hx' : t.net[a]? = some x := by rw [hn a, if_neg c, if_neg (by omega)] at hx; exact hx
      have hin : y ∈ t.net := (hmem y).mp (List.mem_of_getElem? hy)
      rw [hn b] at hy
      by_cases d : b = i
      · rw [if_pos d] at hy; cases hy; exact hs a sp x _ (by omega) (by omega) hx' hq
      · rw [if_neg d] at hy
        by_cases e : b = sp
        · rw [if_pos e] at hy; cases hy; exact hs a i x _ (by omega) (by omega) hx' hp
        · rw [if_neg e] at hy; exact hs a b x y (by omega) hab hx' hy
  have hmem' : ∀ e, e ∈ net ↔ e ∈ net0 := fun e => (hmem e).trans (hm e)
  unfold ixStep
  rw [ep, bind_ok, es, bind_ok]
  simp only []
  rw [rd_of_some hq, bind_ok, en, bind_ok]
  by_cases c : sv ≠ t.prev
  · rw [if_pos c]
    have e0 : wrI t.idx t.prev (((t.start + i) / 2 : Nat) : Int) = .ok (t.idx.set t.prev.toNat (((t.start + i) / 2 : Nat) : Int)) := by
      unfold wrI; rw [if_neg (by omega), wr_of_lt (by omega)]
    obtain ⟨idx', e1, l1, g1⟩ := fill_spec (idx := t.idx.set t.prev.toNat (((t.start + i) / 2 : Nat) : Int)) ((List.length_set ..).trans hil) (lo := t.prev + 1) (v := (i : Int)) (by omega)
      (k := (sv - (t.prev + 1)).toNat) (by omega)
    rw [e0, bind_ok, e1, bind_ok, pure_eq_ok]
    refine ⟨_, rfl, hnl.trans hl, hmem', hsort, l1, hsv, fun b y hb hy => hlate b y (by omega) hy, hi, fun j hj => ?_⟩
    simp only [] at hj ⊢
    rw [g1 j]
    by_cases a : t.prev + 1 ≤ j ∧ (j : Int) < t.prev + 1 + ((sv - (t.prev + 1)).toNat : Nat)
    · rw [if_pos a]; exact ⟨_, rfl, by omega, by omega⟩
    · rw [if_neg a]
      by_cases d : j = t.prev.toNat
      · rw [d, List.getElem?_set_self (by omega)]; exact ⟨_, rfl, by omega, by omega⟩
      · rw [List.getElem?_set_ne (Ne.symm d)]
        exact hset j (by omega)
  · rw [if_neg c, pure_eq_ok]
    exact ⟨_, rfl, hnl.trans hl, hmem', hsort, hil, hpv, fun b y hb hy => by have := hlate b y (by omega) hy; simp only []; omega, hst, hset⟩

/-- `inxbuild` sorts the network by its second component, and `netindex` points into it. -/
theorem inxbuild_spec (junk : Nat → Int) {net0 : List Px} (hn : 1 ≤ n) (hl : net0.length = n) (hr : ∀ p ∈ net0, Rng 255 p) :
    ∃ net idx, inxbuild junk n net0 = .ok (net, idx) ∧ net.length = n ∧ (∀ e, e ∈ net ↔ e ∈ net0) ∧
      (∀ (a b : Nat) x y, a ≤ b → net[a]? = some x → net[b]? = some y → x.g ≤ y.g) ∧ ∀ j : Nat, j < 256 → ∃ v, idx[j]? = some v ∧ 0 ≤ v ∧ v < n := by
  obtain ⟨t, e, hI⟩ := loopN_inv (f := ixStep n) (n := n) (s := ⟨net0, alloc junk 256, 0, 0⟩) (fun k t => Sorted n net0 k t)
    ⟨hl, fun e => Iff.rfl, fun a b x y h => absurd h (by omega), alloc_length _ _, ⟨Int.le_refl _, by show (0 : Int) ≤ 255; decide⟩, fun b y _ hy => (hr y (List.mem_of_getElem? hy)).2.1.1, by show 0 < n; omega,
      fun j hj => absurd hj (by show ¬ (j : Int) < 0; omega)⟩
    (fun k t hk hI => ixStep_spec hr hk hI)
  obtain ⟨h1, h2, h3, h4, h5, -, h7, h8⟩ := hI
  unfold inxbuild
  rw [e, bind_ok]
  have e0 : wrI t.idx t.prev (((t.start + (n - 1)) / 2 : Nat) : Int) = .ok (t.idx.set t.prev.toNat (((t.start + (n - 1)) / 2 : Nat) : Int)) := by
    unfold wrI; rw [if_neg (by omega), wr_of_lt (by omega)]
  obtain ⟨idx', e1, l1, g1⟩ := fill_spec (idx := t.idx.set t.prev.toNat (((t.start + (n - 1)) / 2 : Nat) : Int)) ((List.length_set ..).trans h4) (lo := t.prev + 1) (v := ((n - 1 : Nat) : Int)) (by omega)
    (k := (256 - (t.prev + 1)).toNat) (by omega)
  rw [e0, bind_ok, e1, bind_ok, pure_eq_ok]
  refine ⟨_, _, rfl, h1, h2, fun a b x y hab hx hy => h3 a b x y (by rw [← h1]; exact (List.getElem?_eq_some_iff.mp hx).1) hab hx hy, fun j hj => ?_⟩
  rw [g1 j]
  by_cases a : t.prev + 1 ≤ j ∧ (j : Int) < t.prev + 1 + ((256 - (t.prev + 1)).toNat : Nat)
  · rw [if_pos a]; exact ⟨_, rfl, by omega, by omega⟩
  · rw [if_neg a]
    by_cases d : j = t.prev.toNat
    · rw [d, List.getElem?_set_self (by omega)]; exact ⟨_, rfl, by omega, by omega⟩
    · rw [List.getElem?_set_ne (Ne.symm d)]
      exact h8 j (by omega)

/-! ### The search -/

/-- The distance of an entry from a colour. -/
def D (b g r : Int) (e : Px) : Int := abs (e.g - g) + abs (e.b - b) + abs (e.r - r)

theorem abs_nonneg (x : Int) : 0 ≤ abs x ∧ x ≤ abs x ∧ -x ≤ abs x := by
  unfold abs
  by_cases h : x < 0
  · rw [if_pos h]; omega
  · rw [if_neg h]; omega

theorem near_spec (p : Px) (b g r : Int) (t : Int × Int) : (near p b g r t).1 ≤ t.1 ∧ (near p b g r t).1 ≤ D b g r p ∧ (near p b g r t = t ∨ near p b g r t = (D b g r p, p.c)) := by
  have := (abs_nonneg (p.r - r)).1
  unfold near D
  simp only []
  by_cases h : abs (p.g - g) + abs (p.b - b) < t.1
  · rw [if_pos h]
    by_cases h' : abs (p.g - g) + abs (p.b - b) + abs (p.r - r) < t.1
    · rw [if_pos h']; exact ⟨by simp only []; omega, by simp only []; omega, .inr rfl⟩
    · rw [if_neg h']; exact ⟨by omega, by omega, .inl rfl⟩
  · rw [if_neg h]; exact ⟨by omega, by omega, .inl rfl⟩

/-- What has been found: nothing, or the distance and the name of an entry. -/
def Found (net : List Px) (b g r : Int) (t : Int × Int) : Prop := t = (1000, -1) ∨ ∃ e ∈ net, t = (D b g r e, e.c)

theorem Found.near {net : List Px} {b g r : Int} {t : Int × Int} (h : Found net b g r t) {p : Px} (hp : p ∈ net) : Found net b g r (near p b g r t) := by
  rcases (near_spec p b g r t).2.2 with x | x
  · rw [x]; exact h
  · exact .inr ⟨p, hp, x⟩

theorem searchLoop_spec {net : List Px} {b g r : Int} (hl : net.length = n) (hs : ∀ (a c : Nat) x y, a ≤ c → net[a]? = some x → net[c]? = some y → x.g ≤ y.g)
    (fuel : Nat) (i j : Int) (t : Int × Int) (hi : 0 ≤ i) (hin : i ≤ n) (hj : -1 ≤ j) (hji : j < i) (hf : (n - i) + (j + 1) < fuel) (ht : Found net b g r t)
    (hx : ∀ (a : Nat) e, j < a → (a : Int) < i → net[a]? = some e → t.1 ≤ D b g r e) :
    ∃ t', searchLoop net n b g r fuel i j t = .ok t'.2 ∧ Found net b g r t' ∧ ∀ e ∈ net, t'.1 ≤ D b g r e := by
  induction fuel generalizing i j t with
  | zero => omega
  | succ fuel ih =>
    unfold searchLoop
    by_cases c : i < n ∨ 0 ≤ j
    · rw [if_pos c]
      have s1 : ∃ i' t', (if i < n then do
          if i < 0 then .error .oobRead else do
          let p ← rd net i.toNat
          if t.1 ≤ p.g - g then pure ((n : Int), t) else pure (i + 1, near p b g r t)
        else pure (i, t) : C (Int × (Int × Int))) = .ok (i', t') ∧ i ≤ i' ∧ i' ≤ n ∧ (i < n → i < i') ∧ Found net b g r t' ∧
          ∀ (a : Nat) e, j < a → (a : Int) < i' → net[a]? = some e → t'.1 ≤ D b g r e := by
        by_cases d : i < n
        · rw [if_pos d]
          obtain ⟨p, ep, hp, hpi⟩ := rd_net (show i.toNat < net.length by omega)
          simp only [if_neg (show ¬ i < 0 by omega)]
          rw [ep, bind_ok]
          by_cases q : t.1 ≤ p.g - g
          · rw [if_pos q]
            refine ⟨n, t, rfl, hin, Int.le_refl _, fun _ => d, ht, fun a e h1 h2 h3 => ?_⟩
            by_cases z : (a : Int) < i
            · exact hx a e h1 z h3
            · have := hs i.toNat a p e (by omega) hpi h3
              have h1 := abs_nonneg (e.g - g)
              have h2 := abs_nonneg (e.b - b)
              have h3 := abs_nonneg (e.r - r)
              unfold D
              omega
          · rw [if_neg q]
            obtain ⟨n1, n2, -⟩ := near_spec p b g r t
            refine ⟨i + 1, near p b g r t, rfl, by omega, by omega, fun _ => by omega, ht.near hp, fun a e h1 h2 h3 => ?_⟩
            by_cases z : (a : Int) < i
            · have := hx a e h1 z h3
              omega
            · have : a = i.toNat := by omega
              subst this
              rw [hpi] at h3; cases h3
              exact n2
        · rw [if_neg d]
          exact ⟨i, t, rfl, Int.le_refl _, hin, fun h => absurd h d, ht, hx⟩
      obtain ⟨i', t1, e1, a1, a2, a3, a4, a5⟩ := s1
      have s2 : ∃ j' t', (if 0 ≤ j then do
          let p ← rd net j.toNat
          if t1.1 ≤ g - p.g then pure ((-1 : Int), t1) else pure (j - 1, near p b g r t1)
        else pure (j, t1) : C (Int × (Int × Int))) = .ok (j', t') ∧ j' ≤ j ∧ -1 ≤ j' ∧ (0 ≤ j → j' < j) ∧ Found net b g r t' ∧
          ∀ (a : Nat) e, j' < a → (a : Int) < i' → net[a]? = some e → t'.1 ≤ D b g r e := by
        by_cases d : 0 ≤ j
        · rw [if_pos d]
          obtain ⟨p, ep, hp, hpi⟩ := rd_net (show j.toNat < net.length by omega)
          rw [ep, bind_ok]
          by_cases q : t1.1 ≤ g - p.g
          · rw [if_pos q]
            refine ⟨-1, t1, rfl, hj, Int.le_refl _, fun _ => by omega, a4, fun a e h1 h2 h3 => ?_⟩
            by_cases z : j < (a : Int)
            · exact a5 a e z h2 h3
            · have := hs a j.toNat e p (by omega) h3 hpi
              have h1 := abs_nonneg (e.g - g)
              have h2 := abs_nonneg (e.b - b)
              have h3 := abs_nonneg (e.r - r)
              unfold D
              omega
          · rw [if_neg q]
            obtain ⟨n1, n2, -⟩ := near_spec p b g r t1
            refine ⟨j - 1, near p b g r t1, rfl, by omega, by omega, fun _ => by omega, a4.near hp, fun a e h1 h2 h3 => ?_⟩
            by_cases z : j < (a : Int)
            · have := a5 a e z h2 h3
              omega
            · have : a = j.toNat := by omega
              subst this
              rw [hpi] at h3; cases h3
              exact n2
        · rw [if_neg d]
          exact ⟨j, t1, rfl, Int.le_refl _, hj, fun h => absurd h d, a4, a5⟩
      obtain ⟨j', t2, e2, b1, b2, b3, b4, b5⟩ := s2
      rw [e1, bind_ok]
      simp only []
      rw [e2, bind_ok]
      exact ih i' j' t2 (by omega) a2 b2 (by omega) (by omega) b4 b5
    · rw [if_neg c, pure_eq_ok]
      refine ⟨t, rfl, ht, fun e he => ?_⟩
      obtain ⟨a, ha⟩ := List.mem_iff_getElem?.mp he
      have := (List.getElem?_eq_some_iff.mp ha).1
      exact hx a e (by omega) (by omega) ha

/-- The search finds a nearest entry. -/
theorem inxsearch_spec {net : List Px} {idx : List Int} (hn : 1 ≤ n) (hl : net.length = n) (hs : ∀ (a c : Nat) x y, a ≤ c → net[a]? = some x → net[c]? = some y → x.g ≤ y.g)
    (hr : ∀ p ∈ net, Rng 255 p) (hidx : ∀ j : Nat, j < 256 → ∃ v, idx[j]? = some v ∧ 0 ≤ v ∧ v < n) (b g r : UInt8) :
    ∃ e ∈ net, inxsearch net idx n b g r = .ok (u8 e.c) ∧ ∀ e' ∈ net, D b.toNat g.toNat r.toNat e ≤ D b.toNat g.toNat r.toNat e' := by
  obtain ⟨v, hv, v0, v1⟩ := hidx g.toNat g.toNat_lt
  obtain ⟨t, e, hf, ha⟩ := searchLoop_spec (b := b.toNat) (g := g.toNat) (r := r.toNat) hl hs (n + n + 2) v (v - 1) (1000, -1) v0 (by omega) (by omega) (by omega) (by omega) (.inl rfl)
    (fun a e h1 h2 => absurd h1 (by omega))
  unfold inxsearch
  rw [rd_of_some hv, bind_ok, e, bind_ok, pure_eq_ok]
  rcases hf with h | ⟨q, hq, h⟩
  · obtain ⟨p, -, hp, -⟩ := rd_net (show 0 < net.length by omega)
    have := ha p hp
    obtain ⟨⟨a1, a2⟩, ⟨a3, a4⟩, a5, a6⟩ := hr p hp
    have hb := b.toNat_lt
    have hg := g.toNat_lt
    have hrr := r.toNat_lt
    have x1 := (abs_bounds (y := b.toNat) a1 a2 (by omega) (by omega)).2
    have x2 := (abs_bounds (y := g.toNat) a3 a4 (by omega) (by omega)).2
    have x3 := (abs_bounds (y := r.toNat) a5 a6 (by omega) (by omega)).2
    rw [h] at this
    unfold D at this
    simp only [] at this
    omega
  · rw [h] at ha ⊢
    exact ⟨q, hq, rfl, ha⟩

end
end DevIL.Neu
