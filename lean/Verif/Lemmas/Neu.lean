import Verif.Model.Neu
/-! Lemmas about the NeuQuant quantizer: learning. -/
set_option autoImplicit false
namespace DevIL.Neu

theorem chk_ok {x : Int} (h1 : -2147483648 ≤ x) (h2 : x ≤ 2147483647) : chk x = .ok x := by unfold chk; rw [if_pos ⟨h1, h2⟩]

theorem abs_bounds {x y m : Int} (h1 : 0 ≤ x) (h2 : x ≤ m) (h3 : 0 ≤ y) (h4 : y ≤ m) : 0 ≤ abs (x - y) ∧ abs (x - y) ≤ m := by
  unfold abs
  by_cases h : x - y < 0
  · rw [if_pos h]; omega
  · rw [if_neg h]; omega

/-- The colour of an entry is in range. -/
def Rng (m : Int) (p : Px) : Prop := (0 ≤ p.b ∧ p.b ≤ m) ∧ (0 ≤ p.g ∧ p.g ≤ m) ∧ 0 ≤ p.r ∧ p.r ≤ m

/-- `freq` and `bias` belong together: the first `k` entries have been lowered. -/
structure FB (n : Nat) (K : Int) (k : Nat) (freq bias : List Int) : Prop where
  lf : freq.length = n
  lb : bias.length = n
  each : ∀ (i : Nat) f, freq[i]? = some f → 0 ≤ f ∧ f ≤ 65536 ∧ (i < k → f ≤ 65472) ∧ bias[i]? = some (K - 1024 * f)

/-- What holds of the network between two pixels. -/
structure Inv (n : Nat) (K : Int) (net : List Px) (freq bias : List Int) : Prop where
  ln : net.length = n
  rng : ∀ p ∈ net, Rng 4080 p
  fb : FB n K 0 freq bias

section
variable {n : Nat} {K : Int} {net : List Px} {b g r : Int}

theorem rd_net {α : Type} {l : List α} {i : Nat} (h : i < l.length) : ∃ p, rd l i = .ok p ∧ p ∈ l ∧ l[i]? = some p := ⟨l[i], rd_of_lt h, List.getElem_mem h, List.getElem?_eq_getElem h⟩

theorem contestStep_spec (hK0 : 0 ≤ K) (hK : K ≤ 67108864) (hl : net.length = n) (hr : ∀ p ∈ net, Rng 4080 p) (hb : 0 ≤ b ∧ b ≤ 4080) (hg : 0 ≤ g ∧ g ≤ 4080) (hrr : 0 ≤ r ∧ r ≤ 4080) {i : Nat} (hi : i < n)
    {t : Ct} (hfb : FB n K i t.freq t.bias) (h1 : t.bestpos = none → t.bestd = 2147483647) (h2 : t.bestbiaspos = none → t.bestbiasd = 2147483647) (h3 : ∀ q, t.bestpos = some q → q < n)
    (h4 : ∀ q, t.bestbiaspos = some q → q < n) :
    ∃ t', contestStep net b g r i t = .ok t' ∧ FB n K (i + 1) t'.freq t'.bias ∧ (∃ q, t'.bestpos = some q ∧ q < n) ∧ ∃ q, t'.bestbiaspos = some q ∧ q < n := by
  obtain ⟨p, ep, hp, -⟩ := rd_net (show i < net.length by omega)
  obtain ⟨⟨p1, p2⟩, ⟨p3, p4⟩, p5, p6⟩ := hr p hp
  obtain ⟨a1, a2⟩ := abs_bounds p1 p2 hb.1 hb.2
  obtain ⟨a3, a4⟩ := abs_bounds p3 p4 hg.1 hg.2
  obtain ⟨a5, a6⟩ := abs_bounds p5 p6 hrr.1 hrr.2
  obtain ⟨f, ef, -, hf⟩ := rd_net (show i < t.freq.length by rw [hfb.lf]; exact hi)
  obtain ⟨f0, f1, -, hbi⟩ := hfb.each i f hf
  unfold contestStep
  rw [ep, bind_ok, chk_ok (by omega) (by omega), bind_ok, rd_of_some hbi, bind_ok, chk_ok (by omega) (by omega), bind_ok, ef, bind_ok, wr_of_lt (by rw [hfb.lf]; exact hi), bind_ok,
    chk_ok (by omega) (by omega), bind_ok, wr_of_lt (by rw [hfb.lb]; exact hi), bind_ok, pure_eq_ok]
  refine ⟨_, rfl, ⟨(List.length_set ..).trans hfb.lf, (List.length_set ..).trans hfb.lb, fun j f' hj => ?_⟩, ?_, ?_⟩
  · by_cases e : j = i
    · subst e
      rw [List.getElem?_set_self (by rw [hfb.lf]; exact hi)] at hj
      obtain rfl := Option.some.inj hj
      refine ⟨by omega, by omega, fun _ => by omega, ?_⟩
      rw [List.getElem?_set_self (by rw [hfb.lb]; exact hi)]
      congr 1
      omega
    · rw [List.getElem?_set_ne (Ne.symm e)] at hj
      obtain ⟨x1, x2, x3, x4⟩ := hfb.each j f' hj
      exact ⟨x1, x2, fun h => x3 (by omega), by rw [List.getElem?_set_ne (Ne.symm e)]; exact x4⟩
  · simp only []
    cases hb : t.bestpos with
    | none => exact ⟨i, by rw [if_pos (by rw [h1 hb]; omega)], hi⟩
    | some q =>
      by_cases c : abs (p.b - b) + abs (p.g - g) + abs (p.r - r) < t.bestd
      · exact ⟨i, by rw [if_pos c], hi⟩
      · exact ⟨q, by rw [if_neg c], h3 q hb⟩
  · simp only []
    cases hb : t.bestbiaspos with
    | none => exact ⟨i, by rw [if_pos (by rw [h2 hb]; omega)], hi⟩
    | some q =>
      by_cases c : abs (p.b - b) + abs (p.g - g) + abs (p.r - r) - (K - 1024 * f) / 4096 < t.bestbiasd
      · exact ⟨i, by rw [if_pos c], hi⟩
      · exact ⟨q, by rw [if_neg c], h4 q hb⟩

theorem contest_spec (hn : 1 ≤ n) (hK0 : 0 ≤ K) (hK : K ≤ 67108864) (hl : net.length = n) (hr : ∀ p ∈ net, Rng 4080 p) (hb : 0 ≤ b ∧ b ≤ 4080) (hg : 0 ≤ g ∧ g ≤ 4080) (hrr : 0 ≤ r ∧ r ≤ 4080)
    {freq bias : List Int} (hfb : FB n K 0 freq bias) : ∃ j freq' bias', contest net n b g r freq bias = .ok (some j, freq', bias') ∧ j < n ∧ FB n K 0 freq' bias' := by
  obtain ⟨t, e, h1, h2⟩ := loopN_inv (f := contestStep net b g r) (n := n) (s := ⟨2147483647, none, 2147483647, none, freq, bias⟩)
    (fun k t => FB n K k t.freq t.bias ∧ ((k = 0 ∧ t.bestpos = none ∧ t.bestbiaspos = none ∧ t.bestd = 2147483647 ∧ t.bestbiasd = 2147483647) ∨
      (∃ q, t.bestpos = some q ∧ q < n) ∧ ∃ q, t.bestbiaspos = some q ∧ q < n)) ⟨hfb, .inl ⟨rfl, rfl, rfl, rfl, rfl⟩⟩ (fun k t hk hI => by
      obtain ⟨i1, i2⟩ := hI
      obtain ⟨t', e', j1, j2, j3⟩ := contestStep_spec (t := t) hK0 hK hl hr hb hg hrr hk i1
        (fun h => by
          rcases i2 with ⟨-, -, -, x, -⟩ | ⟨⟨q, x, -⟩, -⟩
          · exact x
          · rw [h] at x; cases x)
        (fun h => by
          rcases i2 with ⟨-, -, -, -, x⟩ | ⟨-, q, x, -⟩
          · exact x
          · rw [h] at x; cases x)
        (fun q h => by
          rcases i2 with ⟨-, x, -⟩ | ⟨⟨q', x, y⟩, -⟩
          · rw [h] at x; cases x
          · rw [h] at x; cases x; exact y)
        (fun q h => by
          rcases i2 with ⟨-, -, x, -⟩ | ⟨-, q', x, y⟩
          · rw [h] at x; cases x
          · rw [h] at x; cases x; exact y)
      exact ⟨t', e', j1, .inr ⟨j2, j3⟩⟩)
  rcases h2 with ⟨h, -⟩ | ⟨⟨q, hq, hqn⟩, q', hq', hqn'⟩
  · omega
  obtain ⟨f, ef, -, hf⟩ := rd_net (show q < t.freq.length by rw [h1.lf]; exact hqn)
  obtain ⟨f0, f1, f2, hbi⟩ := h1.each q f hf
  have f3 := f2 hqn
  unfold contest
  rw [e, bind_ok, hq]
  simp only []
  rw [ef, bind_ok, chk_ok (by omega) (by omega), bind_ok, wr_of_lt (by rw [h1.lf]; exact hqn), bind_ok, rd_of_some hbi, bind_ok, chk_ok (by omega) (by omega), bind_ok,
    wr_of_lt (by rw [h1.lb]; exact hqn), bind_ok, pure_eq_ok, hq']
  refine ⟨q', _, _, rfl, hqn', (List.length_set ..).trans h1.lf, (List.length_set ..).trans h1.lb, fun j f' hj => ?_⟩
  by_cases c : j = q
  · subst c
    rw [List.getElem?_set_self (by rw [h1.lf]; exact hqn)] at hj
    obtain rfl := Option.some.inj hj
    refine ⟨by omega, by omega, fun h => absurd h (by omega), ?_⟩
    rw [List.getElem?_set_self (by rw [h1.lb]; exact hqn)]
    congr 1
    omega
  · rw [List.getElem?_set_ne (Ne.symm c)] at hj
    obtain ⟨x1, x2, x3, x4⟩ := h1.each j f' hj
    exact ⟨x1, x2, fun h => absurd h (by omega), by rw [List.getElem?_set_ne (Ne.symm c)]; exact x4⟩

theorem move_spec {a den x t : Int} (ha0 : 0 ≤ a) (ha : a ≤ den) (hden : 0 < den) (hd : den ≤ 262144) (hx0 : 0 ≤ x) (hx : x ≤ 4080) (ht0 : 0 ≤ t) (ht : t ≤ 4080) :
    ∃ y, move a den x t = .ok y ∧ 0 ≤ y ∧ y ≤ 4080 := by
  have key : ∀ d : Int, 0 ≤ d → d ≤ 4080 → 0 ≤ a * d ∧ a * d ≤ 1069547520 ∧ 0 ≤ a * d / den ∧ a * d / den ≤ d := fun d h0 h1 => by
    have e1 : 0 ≤ a * d := Int.mul_nonneg ha0 h0
    have e2 : a * d ≤ 262144 * 4080 := Int.mul_le_mul (by omega) h1 h0 (by decide)
    have e3 : a * d ≤ den * d := Int.mul_le_mul_of_nonneg_right ha h0
    have e3' : a * d ≤ d * den := by rw [Int.mul_comm d den]; exact e3
    refine ⟨e1, by omega, Int.ediv_nonneg e1 (by omega), Int.ediv_le_of_le_mul hden e3'⟩
  unfold move
  by_cases c : t ≤ x
  · obtain ⟨k1, k2, k3, k4⟩ := key (x - t) (by omega) (by omega)
    rw [chk_ok (by omega) (by omega), bind_ok, Int.tdiv_eq_ediv_of_nonneg k1, chk_ok (by omega) (by omega)]
    exact ⟨_, rfl, by omega, by omega⟩
  · obtain ⟨k1, k2, k3, k4⟩ := key (t - x) (by omega) (by omega)
    have e : a * (x - t) = -(a * (t - x)) := by rw [← Int.mul_neg]; congr 1; omega
    rw [e, chk_ok (by omega) (by omega), bind_ok, Int.neg_tdiv, Int.tdiv_eq_ediv_of_nonneg k1, chk_ok (by omega) (by omega)]
    exact ⟨_, rfl, by omega, by omega⟩

theorem movePx_spec {a den : Int} (ha0 : 0 ≤ a) (ha : a ≤ den) (hden : 0 < den) (hd : den ≤ 262144) (hl : net.length = n) (hr : ∀ p ∈ net, Rng 4080 p) (hb : 0 ≤ b ∧ b ≤ 4080)
    (hg : 0 ≤ g ∧ g ≤ 4080) (hrr : 0 ≤ r ∧ r ≤ 4080) {i : Nat} (hi : i < n) : ∃ net', movePx a den b g r i net = .ok net' ∧ net'.length = n ∧ ∀ p ∈ net', Rng 4080 p := by
  obtain ⟨p, ep, hp, -⟩ := rd_net (show i < net.length by omega)
  obtain ⟨⟨p1, p2⟩, ⟨p3, p4⟩, p5, p6⟩ := hr p hp
  obtain ⟨x, ex, x1, x2⟩ := move_spec ha0 ha hden hd p1 p2 hb.1 hb.2
  obtain ⟨y, ey, y1, y2⟩ := move_spec ha0 ha hden hd p3 p4 hg.1 hg.2
  obtain ⟨z, ez, z1, z2⟩ := move_spec ha0 ha hden hd p5 p6 hrr.1 hrr.2
  unfold movePx
  rw [ep, bind_ok, ex, bind_ok, ey, bind_ok, ez, bind_ok, wr_of_lt (by omega)]
  refine ⟨_, rfl, (List.length_set ..).trans hl, fun q hq => ?_⟩
  rcases List.mem_or_eq_of_mem_set hq with h | h
  · exact hr q h
  · rw [h]; exact ⟨⟨x1, x2⟩, ⟨y1, y2⟩, z1, z2⟩

/-- `radpower` is in range. -/
def Pw (pw : List Int) : Prop := pw.length = 32 ∧ ∀ a ∈ pw, 0 ≤ a ∧ a ≤ 262144

theorem neigh_spec {pw : List Int} (hpw : Pw pw) (hb : 0 ≤ b ∧ b ≤ 4080) (hg : 0 ≤ g ∧ g ≤ 4080) (hrr : 0 ≤ r ∧ r ≤ 4080) {hi lo : Int} (hhi : hi ≤ n) (hlo : -1 ≤ lo) (fuel : Nat) (q : Nat) (j k : Int)
    (hj : 0 ≤ j) (hk : k < n) (m : Nat) (hm1 : hi - j ≤ m) (hm2 : k - lo ≤ m) (hq : q + m ≤ 31) (hf : m < fuel) (net : List Px) (hl : net.length = n) (hr : ∀ p ∈ net, Rng 4080 p) :
    ∃ net', neigh pw b g r hi lo fuel q j k net = .ok net' ∧ net'.length = n ∧ ∀ p ∈ net', Rng 4080 p := by
  induction fuel generalizing q j k m net with
  | zero => omega
  | succ fuel ih =>
    unfold neigh
    by_cases c : j < hi ∨ lo < k
    · rw [if_pos c]
      have hm : 1 ≤ m := by omega
      obtain ⟨a, ea, ha, -⟩ := rd_net (show q + 1 < pw.length by rw [hpw.1]; omega)
      obtain ⟨a0, a1⟩ := hpw.2 a ha
      rw [ea, bind_ok]
      have s1 : ∃ net1, (if j < hi then movePx a 262144 b g r j.toNat net else pure net) = .ok net1 ∧ net1.length = n ∧ ∀ p ∈ net1, Rng 4080 p := by
        by_cases d : j < hi
        · rw [if_pos d]; exact movePx_spec a0 a1 (by decide) (by decide) hl hr hb hg hrr (by omega)
        · rw [if_neg d]; exact ⟨net, rfl, hl, hr⟩
      obtain ⟨net1, e1, l1, r1⟩ := s1
      have s2 : ∃ net2, (if lo < k then movePx a 262144 b g r k.toNat net1 else pure net1) = .ok net2 ∧ net2.length = n ∧ ∀ p ∈ net2, Rng 4080 p := by
        by_cases d : lo < k
        · rw [if_pos d]; exact movePx_spec a0 a1 (by decide) (by decide) l1 r1 hb hg hrr (by omega)
        · rw [if_neg d]; exact ⟨net1, rfl, l1, r1⟩
      obtain ⟨net2, e2, l2, r2⟩ := s2
      rw [e1, bind_ok, e2, bind_ok]
      refine ih (q + 1) _ _ ?_ ?_ (m - 1) ?_ ?_ (by omega) (by omega) net2 l2 r2
      · by_cases d : j < hi
        · rw [if_pos d]; omega
        · rw [if_neg d]; omega
      · by_cases d : lo < k
        · rw [if_pos d]; omega
        · rw [if_neg d]; omega
      · by_cases d : j < hi
        · rw [if_pos d]; omega
        · rw [if_neg d]; omega
      · by_cases d : lo < k
        · rw [if_pos d]; omega
        · rw [if_neg d]; omega
    · rw [if_neg c]
      exact ⟨net, rfl, hl, hr⟩

theorem alterneigh_spec {pw : List Int} (hpw : Pw pw) (hb : 0 ≤ b ∧ b ≤ 4080) (hg : 0 ≤ g ∧ g ≤ 4080) (hrr : 0 ≤ r ∧ r ≤ 4080) {rad i : Nat} (hrad0 : 1 ≤ rad) (hrad : rad ≤ 32) (hi : i < n)
    (hl : net.length = n) (hr : ∀ p ∈ net, Rng 4080 p) : ∃ net', alterneigh pw n rad i b g r net = .ok net' ∧ net'.length = n ∧ ∀ p ∈ net', Rng 4080 p := by
  unfold alterneigh
  have h1 : (if (i : Int) + rad > n then (n : Int) else i + rad) ≤ n ∧ (if (i : Int) + rad > n then (n : Int) else i + rad) ≤ i + rad := by
    by_cases d : (i : Int) + rad > n
    · rw [if_pos d]; omega
    · rw [if_neg d]; omega
  have h2 : -1 ≤ (if (i : Int) - rad < -1 then -1 else (i : Int) - rad) ∧ (i : Int) - rad ≤ (if (i : Int) - rad < -1 then -1 else (i : Int) - rad) := by
    by_cases d : (i : Int) - rad < -1
    · rw [if_pos d]; omega
    · rw [if_neg d]; omega
  generalize (if (i : Int) + rad > n then (n : Int) else i + rad) = hi' at *
  generalize (if (i : Int) - rad < -1 then -1 else (i : Int) - rad) = lo' at *
  exact neigh_spec hpw hb hg hrr h1.1 h2.1 40 0 _ _ (by omega) (by omega) 31 (by omega) (by omega) (by omega) (by omega) net hl hr

theorem power_le {alpha rad i : Nat} (ha : alpha ≤ 1024) : alpha * (((rad * rad - i * i) * 256) / (rad * rad)) ≤ 262144 := by
  have h : ((rad * rad - i * i) * 256) / (rad * rad) ≤ 256 := by
    by_cases h0 : rad * rad = 0
    · rw [h0, Nat.div_zero]; omega
    · exact Nat.div_le_of_le_mul (Nat.mul_le_mul_right 256 (Nat.sub_le _ _))
  exact Nat.mul_le_mul ha h

theorem powers_spec {alpha rad : Nat} (ha : alpha ≤ 1024) (hrad : rad ≤ 32) {pw : List Int} (hl : pw.length = 32) :
    ∃ pw', powers alpha rad pw = .ok pw' ∧ pw'.length = 32 ∧ (∀ (i : Nat) a, pw'[i]? = some a → (0 ≤ a ∧ a ≤ 262144) ∨ rad ≤ i ∧ a ∈ pw) := by
  unfold powers
  obtain ⟨p, e, h1, h2⟩ := loopN_inv (f := fun i pw => do
      let v ← chk ((alpha * (((rad * rad - i * i) * 256) / (rad * rad)) : Nat) : Int)
      wr pw i v) (n := rad) (s := pw)
    (fun k (p : List Int) => p.length = 32 ∧ ∀ (i : Nat) a, p[i]? = some a → (0 ≤ a ∧ a ≤ 262144) ∨ k ≤ i ∧ a ∈ pw) ⟨hl, fun i a h => .inr ⟨Nat.zero_le _, List.mem_of_getElem? h⟩⟩ (fun k p hk hI => by
      obtain ⟨i1, i2⟩ := hI
      have hp := power_le (alpha := alpha) (rad := rad) (i := k) ha
      rw [chk_ok (by omega) (by omega), bind_ok, wr_of_lt (by omega)]
      refine ⟨_, rfl, (List.length_set ..).trans i1, fun i a h => ?_⟩
      by_cases c : i = k
      · subst c
        rw [List.getElem?_set_self (by omega)] at h
        obtain rfl := Option.some.inj h
        exact .inl ⟨by omega, by omega⟩
      · rw [List.getElem?_set_ne (Ne.symm c)] at h
        rcases i2 i a h with x | x
        · exact .inl x
        · exact .inr ⟨by omega, x.2⟩)
  exact ⟨p, e, h1, h2⟩

theorem radOf_le {radius : Nat} (h : radius ≤ 2048) : radOf radius ≤ 32 := by
  unfold radOf
  by_cases c : radius / 64 ≤ 1
  · rw [if_pos c]; omega
  · rw [if_neg c]; omega

/-- What holds between two pixels. -/
structure Lrn (n : Nat) (K : Int) (t : L) : Prop where
  inv : Inv n K t.net t.freq t.bias
  pw : Pw t.pw
  alpha : t.alpha ≤ 1024
  radius : t.radius ≤ 2048

/-- The place of the next pixel. -/
def next (len pos : Nat) : Nat := if len ≤ pos + stride len then pos + stride len - len else pos + stride len

/-- A pixel is learnt, and then comes the remainder by `delta`. -/
theorem learnStep_spec (hn : 1 ≤ n) (hK0 : 0 ≤ K) (hK : K ≤ 67108864) {data : List UInt8} {s delta i : Nat} {t : L} (hI : Lrn n K t) (hp : t.pos + 2 < data.length) :
    (delta = 0 → learnStep data n s delta i t = .error .overflow) ∧
    (delta ≠ 0 → ∃ t', learnStep data n s delta i t = .ok t' ∧ Lrn n K t' ∧ t'.pos = next data.length t.pos) := by
  obtain ⟨⟨h1, h2, h3⟩, h4, h5, h6⟩ := hI
  have hu : ∀ x : UInt8, (0 : Int) ≤ x.toNat * 16 ∧ (x.toNat : Int) * 16 ≤ 4080 := fun x => by have := x.toNat_lt; omega
  obtain ⟨j, freq, bias, e1, hj, hfb⟩ := contest_spec (net := t.net) hn hK0 hK h1 h2 (hu data[t.pos]) (hu data[t.pos + 1]) (hu data[t.pos + 2]) h3
  obtain ⟨net1, e2, l1, r1⟩ := movePx_spec (a := t.alpha) (den := 1024) (by omega) (by omega) (by decide) (by decide) h1 h2 (hu data[t.pos]) (hu data[t.pos + 1]) (hu data[t.pos + 2]) hj
  have s2 : ∃ net2, (if radOf t.radius ≠ 0 then alterneigh t.pw n (radOf t.radius) j (data[t.pos].toNat * 16 : Int) (data[t.pos + 1].toNat * 16 : Int) (data[t.pos + 2].toNat * 16 : Int) net1 else pure net1)
      = .ok net2 ∧ net2.length = n ∧ ∀ p ∈ net2, Rng 4080 p := by
    by_cases c : radOf t.radius ≠ 0
    · rw [if_pos c]
      exact alterneigh_spec h4 (hu data[t.pos]) (hu data[t.pos + 1]) (hu data[t.pos + 2]) (by omega) (radOf_le h6) hj l1 r1
    · rw [if_neg c]; exact ⟨net1, rfl, l1, r1⟩
  obtain ⟨net2, e3, l2, r2⟩ := s2
  unfold learnStep
  rw [rd_of_lt (show t.pos < data.length by omega), bind_ok, rd_of_lt (show t.pos + 1 < data.length by omega), bind_ok, rd_of_lt hp, bind_ok]
  simp only []
  rw [e1, bind_ok]
  simp only []
  rw [e2, bind_ok, e3, bind_ok]
  refine ⟨fun c => by rw [if_pos c], fun c => ?_⟩
  rw [if_neg c]
  by_cases d : (i + 1) % delta = 0
  · rw [if_pos d]
    obtain ⟨pw, ep, lp, hp'⟩ := powers_spec (alpha := t.alpha - t.alpha / (30 + (s - 1) / 3)) (rad := radOf (t.radius - t.radius / 30)) (Nat.le_trans (Nat.sub_le _ _) h5)
      (radOf_le (Nat.le_trans (Nat.sub_le _ _) h6)) h4.1
    rw [ep, bind_ok, pure_eq_ok]
    refine ⟨_, rfl, ⟨⟨l2, r2, hfb⟩, ⟨lp, fun a ha => ?_⟩, Nat.le_trans (Nat.sub_le _ _) h5, Nat.le_trans (Nat.sub_le _ _) h6⟩, rfl⟩
    obtain ⟨k, hk⟩ := List.mem_iff_getElem?.mp ha
    rcases hp' k a hk with x | x
    · exact x
    · exact h4.2 a x.2
  · rw [if_neg d, pure_eq_ok]
    exact ⟨_, rfl, ⟨⟨l2, r2, hfb⟩, h4, h5, h6⟩, rfl⟩

theorem learnStep_out {data : List UInt8} {s delta i : Nat} {t : L} (hp : data.length ≤ t.pos) : learnStep data n s delta i t = .error .oobRead := by
  unfold learnStep
  rw [rd_of_ge hp, bind_error]

theorem fb_start {m : Nat} (hm : m ≤ 65536) : FB n (1024 * (m : Int)) 0 (List.replicate n (m : Int)) (List.replicate n 0) := by
  refine ⟨List.length_replicate, List.length_replicate, fun i f hi => ?_⟩
  rw [List.getElem?_replicate] at hi ⊢
  by_cases c : i < n
  · rw [if_pos c] at hi ⊢
    obtain rfl := Option.some.inj hi
    refine ⟨by omega, by omega, fun h => absurd h (by omega), ?_⟩
    congr 1
    omega
  · rw [if_neg c] at hi; cases hi

theorem initnet_spec (hn' : n ≤ 256) (junk : Nat → Int) : (initnet junk n).length = n ∧ ∀ p ∈ initnet junk n, Rng 4080 p := by
  refine ⟨by unfold initnet; simp, fun p hp => ?_⟩
  unfold initnet at hp
  obtain ⟨i, hi, rfl⟩ := List.mem_map.mp hp
  have := List.mem_range.mp hi
  have h : (0 : Int) ≤ (i * 4096 / 256 : Nat) ∧ ((i * 4096 / 256 : Nat) : Int) ≤ 4080 := by omega
  exact ⟨h, h, h⟩

/-- How learning begins. -/
theorem start_spec (hn' : n ≤ 256) (junk : Nat → Int) {m : Nat} (hm : m ≤ 65536) : ∃ pw, powers 1024 (radOf 2048) (alloc junk 32) = .ok pw ∧
    Lrn n (1024 * (m : Int)) ⟨initnet junk n, List.replicate n (m : Int), List.replicate n 0, pw, 0, 1024, 2048⟩ := by
  obtain ⟨pw, e, h1, h2⟩ := powers_spec (alpha := 1024) (rad := radOf 2048) (by decide) (by decide) (alloc_length junk 32)
  refine ⟨pw, e, ⟨(initnet_spec hn' junk).1, (initnet_spec hn' junk).2, fb_start hm⟩, ⟨h1, fun a ha => ?_⟩, Nat.le_refl _, Nat.le_refl _⟩
  obtain ⟨k, hk⟩ := List.mem_iff_getElem?.mp ha
  rcases h2 k a hk with x | x
  · exact x
  · have : k < pw.length := (List.getElem?_eq_some_iff.mp hk).1
    have : radOf 2048 = 32 := rfl
    omega

theorem K_bounds : 0 ≤ 1024 * ((65536 / n : Nat) : Int) ∧ 1024 * ((65536 / n : Nat) : Int) ≤ 67108864 := by
  have hq : 65536 / n ≤ 65536 := Nat.div_le_self _ _
  generalize 65536 / n = m at hq
  omega

theorem stride_spec (len : Nat) : stride len ≤ 1509 ∧ stride len % 3 = 0 := by
  unfold stride
  split
  · decide
  · split
    · decide
    · split <;> decide

/-- Learning, for pictures that are large enough. -/
theorem learn_spec (hn : 1 ≤ n) (hn' : n ≤ 256) (junk : Nat → Int) {data : List UInt8} {s : Nat} (h3 : data.length % 3 = 0) (h1 : 1509 ≤ data.length) (hs : 1 ≤ s) (h2 : 300 * s ≤ data.length) :
    ∃ net, learn junk data n s = .ok net ∧ net.length = n ∧ ∀ p ∈ net, Rng 4080 p := by
  obtain ⟨pw, e, hL⟩ := start_spec hn' junk (Nat.div_le_self 65536 n)
  obtain ⟨k1, k2⟩ := K_bounds (n := n)
  have hdelta : data.length / (3 * s) / 100 ≠ 0 := by
    rw [Nat.div_div_eq_div_mul]
    have : 1 ≤ data.length / (3 * s * 100) := (Nat.one_le_div_iff (by omega)).mpr (by omega)
    omega
  obtain ⟨t1, t2⟩ := stride_spec data.length
  unfold learn
  simp only []
  rw [e, bind_ok]
  obtain ⟨t, et, hI, -⟩ := loopN_inv (f := learnStep data n s (data.length / (3 * s) / 100)) (n := data.length / (3 * s))
    (fun _ (t : L) => Lrn n (1024 * ((65536 / n : Nat) : Int)) t ∧ t.pos % 3 = 0 ∧ t.pos < data.length) ⟨hL, rfl, by show 0 < _; omega⟩ (fun k t _ hI => by
      obtain ⟨i1, i2, i3⟩ := hI
      obtain ⟨t', e', j1, j2⟩ := (learnStep_spec (s := s) (i := k) hn k1 k2 i1 (show t.pos + 2 < data.length by omega)).2 hdelta
      refine ⟨t', e', j1, ?_⟩
      rw [j2]
      unfold next
      by_cases c : data.length ≤ t.pos + stride data.length
      · rw [if_pos c]; omega
      · rw [if_neg c]; omega)
  rw [et, bind_ok, pure_eq_ok]
  exact ⟨_, rfl, hI.inv.ln, hI.inv.rng⟩

end
end DevIL.Neu
