import Verif.Lemmas.WuB
/-! More lemmas about Wu's quantizer: marking the cells and filling the tables. -/
set_option autoImplicit false
namespace DevIL.Wu
open DevIL.WuSpec

theorem Mark_spec {c : Box} (hc : Ok c) (label : UInt8) {tag : List UInt8} {f : Nat → Nat → Nat → UInt8} (h : IsArr tag f) :
    ∃ tag', Mark c label tag = .ok tag' ∧ IsArr tag' (fun r g b => if In c r g b then label else f r g b) := by
  obtain ⟨⟨a1, a2⟩, ⟨a3, a4⟩, a5, a6⟩ := hc
  unfold Mark
  have hB : ∀ (R G : Nat), R ≤ 32 → G ≤ 32 → ∀ (tag : List UInt8) (f : Nat → Nat → Nat → UInt8), IsArr tag f →
      ∃ tag', loopN (c.b1 - c.b0) (fun b tag => wr tag (cell R G (c.b0 + 1 + b)) label) tag = .ok tag' ∧
        IsArr tag' (fun r g b => if r = R ∧ g = G ∧ c.b0 < b ∧ b ≤ c.b1 then label else f r g b) := by
    intro R G hR hG tag f h
    obtain ⟨t, e, ht⟩ := loopN_inv (f := fun b tag => wr tag (cell R G (c.b0 + 1 + b)) label)
      (fun k t => IsArr t (fun r g b => if r = R ∧ g = G ∧ c.b0 < b ∧ b ≤ c.b0 + k then label else f r g b)) (n := c.b1 - c.b0) (s := tag)
      (h.congr (fun r g b _ _ _ => if_neg (by omega))) (fun k t hk ht => ht.wr hR hG (by omega) (if_pos (by omega)) (fun r g b _ _ _ hne => by
        by_cases x : r = R ∧ g = G ∧ c.b0 < b ∧ b ≤ c.b0 + k
        · rw [if_pos x, if_pos (by omega)]
        · rw [if_neg x, if_neg (by omega)]))
    exact ⟨t, e, ht.congr (fun r g b _ _ _ => by
      by_cases x : r = R ∧ g = G ∧ c.b0 < b ∧ b ≤ c.b1
      · rw [if_pos x, if_pos (by omega)]
      · rw [if_neg x, if_neg (by omega)])⟩
  have hG : ∀ (R : Nat), R ≤ 32 → ∀ (tag : List UInt8) (f : Nat → Nat → Nat → UInt8), IsArr tag f →
      ∃ tag', loopN (c.g1 - c.g0) (fun g tag => loopN (c.b1 - c.b0) (fun b tag => wr tag (cell R (c.g0 + 1 + g) (c.b0 + 1 + b)) label) tag) tag = .ok tag' ∧
        IsArr tag' (fun r g b => if r = R ∧ (c.g0 < g ∧ g ≤ c.g1) ∧ c.b0 < b ∧ b ≤ c.b1 then label else f r g b) := by
    intro R hR tag f h
    obtain ⟨t, e, ht⟩ := loopN_inv (f := fun g tag => loopN (c.b1 - c.b0) (fun b tag => wr tag (cell R (c.g0 + 1 + g) (c.b0 + 1 + b)) label) tag)
      (fun k t => IsArr t (fun r g b => if r = R ∧ (c.g0 < g ∧ g ≤ c.g0 + k) ∧ c.b0 < b ∧ b ≤ c.b1 then label else f r g b)) (n := c.g1 - c.g0) (s := tag)
      (h.congr (fun r g b _ _ _ => if_neg (by omega))) (fun k t hk ht => by
        obtain ⟨t', e', ht'⟩ := hB R (c.g0 + 1 + k) hR (by omega) t _ ht
        refine ⟨t', e', ht'.congr (fun r g b _ _ _ => ?_)⟩
        by_cases x : r = R ∧ (c.g0 < g ∧ g ≤ c.g0 + (k + 1)) ∧ c.b0 < b ∧ b ≤ c.b1
        · rw [if_pos x]
          by_cases y : g = c.g0 + 1 + k
          · rw [if_pos (by omega)]
          · rw [if_neg (by omega), if_pos (by omega)]
        · rw [if_neg x, if_neg (by omega), if_neg (by omega)])
    exact ⟨t, e, ht.congr (fun r g b _ _ _ => by
      by_cases x : r = R ∧ (c.g0 < g ∧ g ≤ c.g1) ∧ c.b0 < b ∧ b ≤ c.b1
      · rw [if_pos x, if_pos (by omega)]
      · rw [if_neg x, if_neg (by omega)])⟩
  obtain ⟨t, e, ht⟩ := loopN_inv (f := fun r tag => loopN (c.g1 - c.g0) (fun g tag => loopN (c.b1 - c.b0) (fun b tag => wr tag (cell (c.r0 + 1 + r) (c.g0 + 1 + g) (c.b0 + 1 + b)) label) tag) tag)
      (fun k t => IsArr t (fun r g b => if (c.r0 < r ∧ r ≤ c.r0 + k) ∧ (c.g0 < g ∧ g ≤ c.g1) ∧ c.b0 < b ∧ b ≤ c.b1 then label else f r g b)) (n := c.r1 - c.r0) (s := tag)
      (h.congr (fun r g b _ _ _ => if_neg (by omega))) (fun k t hk ht => by
        obtain ⟨t', e', ht'⟩ := hG (c.r0 + 1 + k) (by omega) t _ ht
        refine ⟨t', e', ht'.congr (fun r g b _ _ _ => ?_)⟩
        by_cases x : (c.r0 < r ∧ r ≤ c.r0 + (k + 1)) ∧ (c.g0 < g ∧ g ≤ c.g1) ∧ c.b0 < b ∧ b ≤ c.b1
        · rw [if_pos x]
          by_cases y : r = c.r0 + 1 + k
          · rw [if_pos (by omega)]
          · rw [if_neg (by omega), if_pos (by omega)]
        · rw [if_neg x, if_neg (by omega), if_neg (by omega)])
  exact ⟨t, e, ht.congr (fun r g b _ _ _ => by
      by_cases x : In c r g b
      · rw [if_pos x, if_pos (by unfold In at x; omega)]
      · rw [if_neg x, if_neg (by unfold In at x; omega)])⟩

theorem alloc_arr (junk : Nat → UInt8) : IsArr (alloc junk 35937) (fun r g b => junk (cell r g b)) := by
  refine ⟨alloc_length _ _, fun r g b hr hg hb => ?_⟩
  exact alloc_get _ _ _ (cell_lt hr hg hb)

/-- The average over a box. -/
def avg (data : List UInt8) (n c : Nat) (x : Box) : UInt8 :=
  if V (pl data 0) (pl data 1) (pl data 2) (fun _ => 1) n x ≠ 0 then
    quot (V (pl data 0) (pl data 1) (pl data 2) (comp data c) n x) (V (pl data 0) (pl data 1) (pl data 2) (fun _ => 1) n x) else 0

/-- The tables after `k` boxes. -/
structure Tables (data : List UInt8) (n : Nat) (cubes : List Box) (k : Nat) (t : List UInt8 × List UInt8 × List UInt8 × List UInt8) : Prop where
  tag : ∃ f, IsArr t.1 f ∧ ∀ j c x y z, j < k → cubes[j]? = some c → In c x y z → f x y z = UInt8.ofNat j
  lr : t.2.1.length = 256
  lg : t.2.2.1.length = 256
  lb : t.2.2.2.length = 256
  r : ∀ j c, j < k → cubes[j]? = some c → t.2.1[j]? = some (avg data n 0 c)
  g : ∀ j c, j < k → cubes[j]? = some c → t.2.2.1[j]? = some (avg data n 1 c)
  b : ∀ j c, j < k → cubes[j]? = some c → t.2.2.2[j]? = some (avg data n 2 c)

theorem set_keep {l : List UInt8} {k : Nat} {v : UInt8} {g : Nat → Box → UInt8} {cubes : List Box} {c : Box} (hl : k < l.length) (hc : cubes[k]? = some c) (hv : v = g k c)
    (h : ∀ j c, j < k → cubes[j]? = some c → l[j]? = some (g j c)) : ∀ j c, j < k + 1 → cubes[j]? = some c → (l.set k v)[j]? = some (g j c) := by
  intro j c' hj hc'
  by_cases e : j = k
  · subst e
    rw [hc] at hc'
    cases hc'
    rw [List.getElem?_set_self hl, hv]
  · rw [List.getElem?_set_ne (Ne.symm e)]
    exact h j c' (by omega) hc'

theorem in_box0 {c : Box} (hc : Ok c) {x y z : Nat} (h : In c x y z) : In box0 x y z := by
  obtain ⟨⟨a1, a2⟩, ⟨a3, a4⟩, a5, a6⟩ := hc
  obtain ⟨⟨b1, b2⟩, ⟨b3, b4⟩, b5, b6⟩ := h
  refine ⟨⟨?_, ?_⟩, ⟨?_, ?_⟩, ?_, ?_⟩ <;> simp only [box0] <;> omega

theorem four_V {data : List UInt8} {n : Nat} {s : Stats} (hs : Hist data n (fun w => P (pl data 0) (pl data 1) (pl data 2) w n) s) {c : Box} (hc : Ok c) :
    four (Vol c) s = .ok ⟨V (pl data 0) (pl data 1) (pl data 2) (comp data 0) n c, V (pl data 0) (pl data 1) (pl data 2) (comp data 1) n c,
      V (pl data 0) (pl data 1) (pl data 2) (comp data 2) n c, V (pl data 0) (pl data 1) (pl data 2) (fun _ => 1) n c⟩ := by
  unfold four
  rw [Vol_spec hs.mr hc, bind_ok, Vol_spec hs.mg hc, bind_ok, Vol_spec hs.mb hc, bind_ok, Vol_spec hs.wt hc, bind_ok, pure_eq_ok]

theorem entries_spec {data : List UInt8} {n : Nat} {s : Stats} (hs : Hist data n (fun w => P (pl data 0) (pl data 1) (pl data 2) w n) s) {cubes : List Box} (hp : Part cubes)
    (hl : cubes.length ≤ 256) {a r g b : List UInt8} {f0 : Nat → Nat → Nat → UInt8} (ha : IsArr a f0) (hr : r.length = 256) (hg : g.length = 256) (hb : b.length = 256) :
    ∃ t, loopN cubes.length (entryStep s cubes) (a, r, g, b) = .ok t ∧
      Tables data n cubes cubes.length t := by
  refine loopN_inv (fun k t => Tables data n cubes k t) ⟨⟨f0, ha, fun j _ _ _ _ hj => absurd hj (by omega)⟩,
    hr, hg, hb, fun j _ hj => absurd hj (by omega), fun j _ hj => absurd hj (by omega), fun j _ hj => absurd hj (by omega)⟩ (fun k t hk hI => ?_)
  obtain ⟨⟨f, hf, hf'⟩, h1, h2, h3, h4, h5, h6⟩ := hI
  have hget : cubes[k]? = some cubes[k] := List.getElem?_eq_getElem hk
  have hok := hp.1 _ (List.mem_of_getElem? hget)
  obtain ⟨tag', em, hm⟩ := Mark_spec hok (UInt8.ofNat k) hf
  unfold entryStep
  rw [rd_of_some hget, bind_ok, em, bind_ok, four_V hs hok, bind_ok, wr_of_lt (by omega), bind_ok, wr_of_lt (by omega), bind_ok, wr_of_lt (by omega), bind_ok, pure_eq_ok]
  refine ⟨_, rfl, ⟨_, hm, ?_⟩, (List.length_set ..).trans h1, (List.length_set ..).trans h2, (List.length_set ..).trans h3, set_keep (by omega) hget rfl h4, set_keep (by omega) hget rfl h5,
    set_keep (by omega) hget rfl h6⟩
  intro j c x y z hj hc hin
  by_cases e : j = k
  · subst e
    rw [hget] at hc
    cases hc
    rw [if_pos hin]
  · rw [if_neg, hf' j c x y z (by omega) hc hin]
    intro hin'
    obtain ⟨k0, c0, hk0, -, hu⟩ := hp.2 x y z (in_box0 hok hin')
    exact e ((hu j c hc hin).trans (hu k _ hget hin').symm)

theorem quot_toNat {a w : Int} (h0 : 0 ≤ a) (hw : 0 < w) (h1 : a ≤ 255 * w) : ((quot a w).toNat : Int) = a / w := by
  have e : a.tdiv w = a / w := Int.tdiv_eq_ediv_of_nonneg h0
  have b0 : 0 ≤ a / w := Int.ediv_nonneg h0 (by omega)
  have b1 : a / w ≤ 255 := Int.ediv_le_of_le_mul hw h1
  unfold quot
  rw [e, Int.emod_eq_of_lt b0 (by omega), UInt8.toNat_ofNat', Nat.mod_eq_of_lt (by omega)]
  omega

/-- The loop that fills the palette. -/
theorem pal_spec {r g b p : List UInt8} {K : Nat} (hr : r.length = 256) (hg : g.length = 256) (hb : b.length = 256) (hp : p.length = 768) (hK : K ≤ 256) :
    ∃ p', loopN K (palStep r g b) p = .ok p' ∧ p'.length = 768 ∧ (∀ j, j < K → p'[3 * j]? = b[j]? ∧ p'[3 * j + 1]? = g[j]? ∧ p'[3 * j + 2]? = r[j]?) ∧ ∀ j, 3 * K ≤ j → p'[j]? = p[j]? := by
  refine loopN_inv (fun k (p' : List UInt8) => p'.length = 768 ∧ (∀ j, j < k → p'[3 * j]? = b[j]? ∧ p'[3 * j + 1]? = g[j]? ∧ p'[3 * j + 2]? = r[j]?) ∧ ∀ j, 3 * k ≤ j → p'[j]? = p[j]?)
    ⟨hp, fun j hj => absurd hj (by omega), fun _ _ => rfl⟩
    (fun k t hk hI => ?_)
  obtain ⟨h1, h2, h3⟩ := hI
  unfold palStep
  have lr : k < r.length := by omega
  have lg : k < g.length := by omega
  have lb : k < b.length := by omega
  rw [rd_of_lt lb, bind_ok, wr_of_lt (by omega), bind_ok, rd_of_lt lg, bind_ok, wr_of_lt (by rw [List.length_set]; omega), bind_ok, rd_of_lt lr, bind_ok,
    wr_of_lt (by rw [List.length_set, List.length_set]; omega)]
  refine ⟨_, rfl, by rw [List.length_set, List.length_set, List.length_set]; exact h1, fun j hj => ?_, fun j hj => ?_⟩
  rotate_left
  · rw [List.getElem?_set_ne (by omega), List.getElem?_set_ne (by omega), List.getElem?_set_ne (by omega)]
    exact h3 j (by omega)
  by_cases e : j = k
  · subst e
    refine ⟨?_, ?_, ?_⟩
    · rw [List.getElem?_set_ne (by omega), List.getElem?_set_ne (by omega), Nat.mul_comm, List.getElem?_set_self (by omega), List.getElem?_eq_getElem lb]
    · rw [List.getElem?_set_ne (by omega), Nat.mul_comm, List.getElem?_set_self (by rw [List.length_set]; omega), List.getElem?_eq_getElem lg]
    · rw [Nat.mul_comm, List.getElem?_set_self (by rw [List.length_set, List.length_set]; omega), List.getElem?_eq_getElem lr]
  · rw [List.getElem?_set_ne (by omega), List.getElem?_set_ne (by omega), List.getElem?_set_ne (by omega), List.getElem?_set_ne (by omega), List.getElem?_set_ne (by omega), List.getElem?_set_ne (by omega),
      List.getElem?_set_ne (by omega), List.getElem?_set_ne (by omega), List.getElem?_set_ne (by omega)]
    exact h2 j (by omega)

section
variable {F : Type} [LinearOrder F] {fl : Fl F}

/-- What the quantizer delivers. -/
theorem quantize_spec (junk : Nat → UInt8) {data : List UInt8} {n K : Nat} (hd : data.length = 3 * n) (hn : 255 * n ≤ 2147483647) (hK0 : 1 ≤ K) (hK : K ≤ 256) :
    ∃ new pal cubes, iQuantizeImage fl junk data n K = .ok (new, pal, cubes.length) ∧ Part cubes ∧ 1 ≤ cubes.length ∧ cubes.length ≤ K ∧ new.length = n ∧ pal.length = 768 ∧
      (∀ i k c, i < n → cubes[k]? = some c → In c (pl data 0 i) (pl data 1 i) (pl data 2 i) → new[i]? = some (UInt8.ofNat k)) ∧
      (∀ (k : Nat) c, cubes[k]? = some c → pal[3 * k]? = some (avg data n 2 c) ∧ pal[3 * k + 1]? = some (avg data n 1 c) ∧ pal[3 * k + 2]? = some (avg data n 0 c)) ∧
      ∀ (j : Nat), 3 * K ≤ j → j < 768 → pal[j]? = some (junk j) := by
  obtain ⟨⟨h, q⟩, eh, hh, hq, hq'⟩ := Hist3d_spec hd hn
  simp only [] at hh hq hq'
  have px : ∀ i, i < n → 1 ≤ pl data 0 i := fun i _ => pl_pos data 0 i
  have py : ∀ i, i < n → 1 ≤ pl data 1 i := fun i _ => pl_pos data 1 i
  have pz : ∀ i, i < n → 1 ≤ pl data 2 i := fun i _ => pl_pos data 2 i
  obtain ⟨wt, e1, m1⟩ := M3d_spec px py pz (fun _ _ => by decide) (total_one hn) hh.wt
  obtain ⟨mr, e2, m2⟩ := M3d_spec px py pz (fun i _ => (comp_bounds data 0 i).1) (total_comp data 0 hn) hh.mr
  obtain ⟨mg, e3, m3⟩ := M3d_spec px py pz (fun i _ => (comp_bounds data 1 i).1) (total_comp data 1 hn) hh.mg
  obtain ⟨mb, e4, m4⟩ := M3d_spec px py pz (fun i _ => (comp_bounds data 2 i).1) (total_comp data 2 hn) hh.mb
  have hp0 : pos fl [fl.zero] = 0 := by unfold pos; simp
  have hfuel : (K - [box0].length) * (K + 1) + pos fl [fl.zero] < 66050 := by
    rw [hp0]
    have : (K - [box0].length) * (K + 1) ≤ 256 * 257 := Nat.mul_le_mul (by simp only [List.length_singleton]; omega) (by omega)
    omega
  obtain ⟨cubes, e5, hp, l1, l2⟩ := split_spec (fl := fl) (s := ⟨wt, mr, mg, mb⟩) ⟨m1.1, m2.1, m3.1, m4.1⟩ hK 66050 [box0] [fl.zero] 0 part_box0 rfl (Nat.le_refl _) hK0 (.inl ⟨rfl, rfl⟩) hfuel
  obtain ⟨⟨tag, r, g, b⟩, e6, ⟨f, hf, hf'⟩, t1, t2, t3, t4, t5, t6⟩ := entries_spec (s := ⟨wt, mr, mg, mb⟩) ⟨m1, m2, m3, m4⟩ hp (by omega) (alloc_arr junk) (alloc_length _ _) (alloc_length _ _) (alloc_length _ _)
  simp only [] at hf t1 t2 t3 t4 t5 t6
  have hnew : ∃ new, loopN n (fun i d => do
      let c ← rd q i
      let x ← rd tag c
      wr d i x) (alloc junk n) = .ok new ∧ new.length = n ∧ ∀ i, i < n → new[i]? = some (f (pl data 0 i) (pl data 1 i) (pl data 2 i)) := by
    refine loopN_inv (fun k (d : List UInt8) => d.length = n ∧ ∀ i, i < k → d[i]? = some (f (pl data 0 i) (pl data 1 i) (pl data 2 i))) ⟨alloc_length _ _, fun i hi => absurd hi (by omega)⟩
      (fun k t hk hI => ?_)
    rw [rd_of_some (hq' k hk), bind_ok, hf.rd (pl_le _ _ _) (pl_le _ _ _) (pl_le _ _ _), bind_ok, wr_of_lt (by omega)]
    refine ⟨_, rfl, (List.length_set ..).trans hI.1, fun i hi => ?_⟩
    by_cases e : i = k
    · subst e
      rw [List.getElem?_set_self (by omega)]
    · rw [List.getElem?_set_ne (Ne.symm e)]
      exact hI.2 i (by omega)
  obtain ⟨new, e7, n1, n2⟩ := hnew
  obtain ⟨pal, e8, p1, p2, p3⟩ := pal_spec (p := alloc junk 768) t1 t2 t3 (alloc_length _ _) hK
  refine ⟨new, pal, cubes, ?_, hp, l1, l2, n1, p1, fun i k c hi hc hin => ?_, fun k c hc => ?_, fun j hj hj' => by rw [p3 j hj, alloc_get _ _ _ hj']⟩
  · unfold iQuantizeImage
    rw [eh, bind_ok]
    simp only []
    rw [e1, bind_ok, e2, bind_ok, e3, bind_ok, e4, bind_ok, e5, bind_ok, e6, bind_ok]
    simp only []
    rw [e7, bind_ok, e8, bind_ok, pure_eq_ok]
  · rw [n2 i hi, hf' k c _ _ _ (List.getElem?_eq_some_iff.mp hc).1 hc hin]
  · have hk := (List.getElem?_eq_some_iff.mp hc).1
    obtain ⟨x1, x2, x3⟩ := p2 k (by omega)
    rw [x1, x2, x3]
    exact ⟨t6 k c hk hc, t5 k c hk hc, t4 k c hk hc⟩

/-- What the quantizer delivers, in the words of the specification. -/
theorem quantize_averages (junk : Nat → UInt8) {data : List UInt8} {n K : Nat} (hd : data.length = 3 * n) (hn : 255 * n ≤ 2147483647) (hK0 : 1 ≤ K) (hK : K ≤ 256) :
    ∃ new pal m, iQuantizeImage fl junk data n K = .ok (new, pal, m) ∧ 1 ≤ m ∧ m ≤ K ∧ new.length = n ∧ pal.length = 768 ∧ (∀ x ∈ new, x.toNat < m) ∧ Averages data new pal n ∧
      (∀ i j, i < n → j < n → (∀ c, c < 3 → pl data c i = pl data c j) → new[i]? = new[j]?) ∧ ∀ (j : Nat), 3 * K ≤ j → j < 768 → pal[j]? = some (junk j) := by
  obtain ⟨new, pal, cubes, e, hp, h1, h2, h3, h4, h5, h6, h7⟩ := quantize_spec (fl := fl) junk hd hn hK0 hK
  have hin : ∀ i, In box0 (pl data 0 i) (pl data 1 i) (pl data 2 i) := fun i =>
    ⟨⟨pl_pos data 0 i, pl_le data 0 i⟩, ⟨pl_pos data 1 i, pl_le data 1 i⟩, pl_pos data 2 i, pl_le data 2 i⟩
  have hbox : ∀ i, i < n → ∃ (k : Nat) (c : Box), cubes[k]? = some c ∧ In c (pl data 0 i) (pl data 1 i) (pl data 2 i) ∧ new[i]? = some (UInt8.ofNat k) ∧ k < 256 := fun i hi => by
    obtain ⟨k, c, hc, hi', -⟩ := hp.2 _ _ _ (hin i)
    have := (List.getElem?_eq_some_iff.mp hc).1
    exact ⟨k, c, hc, hi', h5 i k c hi hc hi', by omega⟩
  have hto : ∀ k : Nat, k < 256 → (UInt8.ofNat k).toNat = k := fun k hk => by rw [UInt8.toNat_ofNat', Nat.mod_eq_of_lt (by omega)]
  refine ⟨new, pal, cubes.length, e, h1, h2, h3, h4, fun x hx => ?_, fun i k0 c0 hi hk0 hc0 => ?_, fun i j hi hj hij => ?_, h7⟩
  · obtain ⟨i, hi, rfl⟩ := List.mem_iff_getElem.mp hx
    obtain ⟨k, c, hc, -, hnew, hk⟩ := hbox i (by omega)
    rw [List.getElem?_eq_getElem hi] at hnew
    rw [Option.some.inj hnew, hto k hk]
    exact (List.getElem?_eq_some_iff.mp hc).1
  · obtain ⟨k, c, hc, hic, hnew, hk⟩ := hbox i hi
    rw [hk0] at hnew
    obtain rfl := Option.some.inj hnew
    rw [hto k hk]
    have hsum : ∀ w : Nat → Int, sumAt new n (UInt8.ofNat k) w = V (pl data 0) (pl data 1) (pl data 2) w n c := fun w => by
      unfold sumAt V
      refine sum_congr (fun j hj => ?_)
      by_cases x : In c (pl data 0 j) (pl data 1 j) (pl data 2 j)
      · rw [if_pos x, if_pos (h5 j k c hj hc x)]
      · rw [if_neg x, if_neg]
        intro hj'
        obtain ⟨k', c', hc', hic', hnew', hk'⟩ := hbox j hj
        rw [hj'] at hnew'
        have he : k = k' := by rw [← hto k hk, Option.some.inj hnew', hto k' hk']
        subst he
        rw [hc] at hc'
        cases hc'
        exact x hic'
    have hpos : 0 < V (pl data 0) (pl data 1) (pl data 2) (fun _ => 1) n c := by
      have hmono := sum_mono (n := i + 1) (m := n) (f := fun i => if In c (pl data 0 i) (pl data 1 i) (pl data 2 i) then (1 : Int) else 0) (by omega) (fun j _ => by
        by_cases x : In c (pl data 0 j) (pl data 1 j) (pl data 2 j)
        · rw [if_pos x]; decide
        · rw [if_neg x]; decide)
      rw [sum_succ, if_pos hic] at hmono
      have := sum_nonneg (n := i) (f := fun i => if In c (pl data 0 i) (pl data 1 i) (pl data 2 i) then (1 : Int) else 0) (fun j _ => by
        by_cases x : In c (pl data 0 j) (pl data 1 j) (pl data 2 j)
        · rw [if_pos x]; decide
        · rw [if_neg x]; decide)
      show 0 < sumTo n (fun i => if In c (pl data 0 i) (pl data 1 i) (pl data 2 i) then (1 : Int) else 0)
      omega
    have hq : ∀ d, ((avg data n d c).toNat : Int) = V (pl data 0) (pl data 1) (pl data 2) (comp data d) n c / V (pl data 0) (pl data 1) (pl data 2) (fun _ => 1) n c := fun d => by
      unfold avg
      rw [if_pos (by omega)]
      refine quot_toNat (sum_nonneg (fun j _ => ?_)) hpos ?_
      · by_cases x : In c (pl data 0 j) (pl data 1 j) (pl data 2 j)
        · rw [if_pos x]; exact (comp_bounds data d j).1
        · rw [if_neg x]; exact Int.le_refl _
      · have h255 : ∀ m, 255 * sumTo m (fun i => if In c (pl data 0 i) (pl data 1 i) (pl data 2 i) then (1 : Int) else 0) =
            sumTo m (fun i => if In c (pl data 0 i) (pl data 1 i) (pl data 2 i) then 255 else 0) := fun m => by
          induction m with
          | zero => rfl
          | succ m ih =>
            rw [sum_succ, sum_succ, ← ih]
            by_cases x : In c (pl data 0 m) (pl data 1 m) (pl data 2 m)
            · rw [if_pos x, if_pos x]; omega
            · rw [if_neg x, if_neg x]; omega
        unfold V
        rw [h255]
        refine sum_le (fun j _ => ?_)
        by_cases x : In c (pl data 0 j) (pl data 1 j) (pl data 2 j)
        · rw [if_pos x, if_pos x]; exact (comp_bounds data d j).2
        · rw [if_neg x, if_neg x]; exact Int.le_refl _
    unfold count
    rw [hsum, hsum]
    obtain ⟨x1, x2, x3⟩ := h6 k c hc
    match c0, hc0 with
    | 0, _ => exact ⟨_, x3, hq 0⟩
    | 1, _ => exact ⟨_, x2, hq 1⟩
    | 2, _ => exact ⟨_, x1, hq 2⟩
  · obtain ⟨k, c, hc, hic, hnew, -⟩ := hbox i hi
    rw [hnew, h5 j k c hj hc (by rw [← hij 0 (by decide), ← hij 1 (by decide), ← hij 2 (by decide)]; exact hic)]

end
end DevIL.Wu
