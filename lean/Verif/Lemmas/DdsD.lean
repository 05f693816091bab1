import Verif.Lemmas.DdsC
import Mathlib.Tactic.Ring
import Mathlib.Tactic.NormNum
/-! DDS files with ATI1N and 3Dc blocks. -/
set_option autoImplicit false
namespace DevIL.Dds

open DevIL.Detect DevIL.DetectSpec DevIL.DdsSpec DevIL.Image DevIL.Games DevIL.GamesSpec

variable {σ : Type} {o : Ops σ} {At : σ → List UInt8 → Nat → Prop}

/-- Where component `c` of pixel `(x, y)` is. -/
def at3 (w k y x c : Nat) : Nat := (y * w + x) * k + c

/-- The components of the pixels of a block that are inside the image. -/
def Cell (w h k y x : Nat) (J : Nat → Prop) (idx : Nat) : Prop :=
  ∃ j i c, j < 4 ∧ J j ∧ i < 4 ∧ y + j < h ∧ x + i < w ∧ c < k ∧ idx = at3 w k (y + j) (x + i) c

theorem band_carry (w h bps size : Nat) (block : Nat → Nat → Nat → Nat → List UInt8 → C (List UInt8)) (data : List UInt8) :
    (·.1) <$> bandLoop w h 1 bps size block data = loopN ((h + 3) / 4) (fun y d => loopN ((w + 3) / 4) (fun x d =>
      block ((y * ((w + 3) / 4) + x) * size) (4 * y * bps) (4 * x) (4 * y) d) d) data := by
  have fs : ∀ {σ : Type} (n : Nat) (g : Nat → σ → C σ) (s : σ), forStep 0 n 4 g s = loopN ((n + 3) / 4) (fun k s => g (4 * k) s) s := by
    intro σ n g s
    rw [forStep_pos (by decide), show n - 0 + (4 - 1) = n + 3 by omega]
    exact loopN_congr (fun k t _ => by rw [Nat.zero_add, Nat.mul_comm])
  unfold bandLoop
  rw [loopN_succ, loopN_zero, bind_ok, fs]
  have h2 := loopN_carry (n := (h + 3) / 4)
    (F := fun y s => do
      let s ← forStep 0 w 4 (fun x s => do
        let d ← block s.2.1 s.2.2 x (4 * y) s.1
        pure (d, s.2.1 + size, s.2.2)) s
      pure (s.1, s.2.1, s.2.2 + bps * 4))
    (tk := fun y => (y * ((w + 3) / 4) * size, 4 * y * bps))
    (G := fun y d => loopN ((w + 3) / 4) (fun x d => block ((y * ((w + 3) / 4) + x) * size) (4 * y * bps) (4 * x) (4 * y) d) d) (fun y d hy => by
      rw [fs]
      have h1 := loopN_carry (n := (w + 3) / 4)
        (F := fun x s => do
          let d ← block s.2.1 s.2.2 (4 * x) (4 * y) s.1
          pure (d, s.2.1 + size, s.2.2))
        (tk := fun x => ((y * ((w + 3) / 4) + x) * size, 4 * y * bps))
        (G := fun x d => block ((y * ((w + 3) / 4) + x) * size) (4 * y * bps) (4 * x) (4 * y) d)
        (fun x d hx => by
          simp only [pure_eq_ok]
          rw [← Nat.add_one_mul, Nat.add_assoc]) d
      simp only [Nat.add_zero] at h1
      rw [h1]
      cases loopN ((w + 3) / 4) (fun x d => block ((y * ((w + 3) / 4) + x) * size) (4 * y * bps) (4 * x) (4 * y) d) d with
      | error e => rfl
      | ok a =>
        rw [bind_ok, bind_ok, bind_ok]
        simp only [pure_eq_ok]
        congr 3
        · rw [Nat.add_one_mul]
        · rw [Nat.mul_comm bps 4, ← Nat.add_mul]; rfl) data
  simp only [Nat.zero_mul, Nat.mul_zero] at h2
  rw [h2]
  cases loopN ((h + 3) / 4) _ data <;> rfl

/-- Every pixel gets the value its block determines. -/
theorem band_spec {w h k size : Nat} {data comp : List UInt8} {block : Nat → Nat → Nat → Nat → List UInt8 → C (List UInt8)}
    {val : Nat → Nat → Nat → Nat → UInt8} (hl : data.length = w * h * k) (hc : (w + 3) / 4 * ((h + 3) / 4) * size ≤ comp.length)
    (hf : ∀ (V : Nat → Option UInt8) t x y, t + size ≤ comp.length → y < h →
      (∀ j i c, j < 4 → i < 4 → y + j < h → x + i < w → c < k → V (at3 w k (y + j) (x + i) c) = some (val t j i c)) →
      Sets (block t (y * (w * k)) x y) (w * h * k) V (Cell w h k y x (fun _ => True))) :
    ∃ d', (·.1) <$> bandLoop w h 1 (w * k) size block data = .ok d' ∧ d'.length = w * h * k ∧ ∀ y x c, y < h → x < w → c < k →
      d'[at3 w k y x c]? = some (val ((y / 4 * ((w + 3) / 4) + x / 4) * size) (y % 4) (x % 4) c) := by
  let V : Nat → Option UInt8 := fun i =>
    let c := i % k
    let x := i / k % w
    let y := i / k / w
    some (val ((y / 4 * ((w + 3) / 4) + x / 4) * size) (y % 4) (x % 4) c)
  have hV : ∀ y x c, x < w → c < k → V (at3 w k y x c) = some (val ((y / 4 * ((w + 3) / 4) + x / 4) * size) (y % 4) (x % 4) c) := by
    intro y x c hx hc
    simp only [V, at3]
    rw [idx_mod hc, idx_div hc, idx_mod hx, idx_div hx]
  rw [band_carry]
  have key : Sets (fun d => loopN ((h + 3) / 4) (fun y d => loopN ((w + 3) / 4) (fun x d =>
      block ((y * ((w + 3) / 4) + x) * size) (4 * y * (w * k)) (4 * x) (4 * y) d) d) d) (w * h * k) V
      (fun i => ∃ y, y < (h + 3) / 4 ∧ ∃ x, x < (w + 3) / 4 ∧ Cell w h k (4 * y) (4 * x) (fun _ => True) i) := by
    refine Sets.loop fun y hy => Sets.loop fun x hx => ?_
    refine hf V _ (4 * x) (4 * y) ?_ (by omega) ?_
    · have h2 := idx_lt (k := (w + 3) / 4) hy hx
      have h3 := Nat.mul_le_mul_right size (show (y * ((w + 3) / 4) + x) + 1 ≤ _ from h2)
      rw [Nat.add_one_mul, Nat.mul_comm ((h + 3) / 4)] at h3
      omega
    · intro j i c hj hi hy' hx' hc'
      rw [hV _ _ c hx' hc']
      rw [show (4 * y + j) / 4 = y by omega, show (4 * x + i) / 4 = x by omega, show (4 * y + j) % 4 = j by omega,
        show (4 * x + i) % 4 = i by omega]
  obtain ⟨d', e, l, s⟩ := key data hl
  refine ⟨d', e, l, fun y x c hy hx hc' => ?_⟩
  rw [← hV y x c hx hc']
  refine (s _).1 ⟨y / 4, by omega, x / 4, by omega, y % 4, x % 4, c, Nat.mod_lt _ (by decide), trivial, Nat.mod_lt _ (by decide), by omega,
    by omega, hc', ?_⟩
  rw [show 4 * (y / 4) + y % 4 = y by omega, show 4 * (x / 4) + x % 4 = x by omega]

/-- Two rows, of which those inside the image are written. -/
theorem half_spec {τ : Type} (h bps y : Nat) (row : Nat → List UInt8 × τ → C (List UInt8 × τ)) (G : Nat → τ → List UInt8 → C (List UInt8)) (next : τ → τ)
    (hrow : ∀ cur d b, row cur (d, b) = (G cur b d >>= fun d' => .ok (d', next b))) (d : List UInt8) (b : τ) (cur : Nat) :
    ∃ (b' : τ) (cur' : Nat), (y + 1 < h → cur' = cur + 2 * bps) ∧
      loopN 2 (fun j r => if y + j < h then do
        let q ← row r.2.2 (r.1, r.2.1)
        pure (q.1, q.2, r.2.2 + bps)
      else pure r) (d, b, cur) =
      (((if y < h then G cur b d else .ok d) >>= fun d => if y + 1 < h then G (cur + bps) (next b) d else .ok d) >>= fun d' => .ok (d', b', cur')) := by
  rw [loopN_succ, loopN_succ, loopN_zero, bind_ok]
  by_cases h0 : y < h
  · by_cases h1 : y + 1 < h
    · refine ⟨next (next b), cur + bps + bps, fun _ => by omega, ?_⟩
      simp only [Nat.add_zero, if_pos h0, if_pos h1, hrow]
      cases G cur b d with
      | error e => rfl
      | ok d1 =>
        simp only [bind_ok, pure_eq_ok]
        cases G (cur + bps) (next b) d1 <;> rfl
    · refine ⟨next b, cur + bps, fun h => absurd h h1, ?_⟩
      simp only [Nat.add_zero, if_pos h0, if_neg h1, hrow]
      cases G cur b d <;> rfl
  · refine ⟨b, cur, fun h => by omega, ?_⟩
    have h1 : ¬ y + 1 < h := by omega
    simp only [Nat.add_zero, if_neg h0, if_neg h1, bind_ok, pure_eq_ok]

theorem low3 (w : Nat) : w &&& 7 = w % 8 := by rw [show (7 : Nat) = 2 ^ 3 - 1 by rfl, Nat.and_two_pow_sub_one_eq_mod]

theorem rd8 {β : Type} {as : List β} (h : as.length = 8) (w : Nat) (z : β) : rd as (w &&& 7) = .ok (as.getD (w % 8) z) := by
  have : w % 8 < 8 := Nat.mod_lt _ (by decide)
  rw [low3, rd_of_lt (by omega), List.getD_eq_getElem?_getD, List.getElem?_eq_getElem (by omega)]
  rfl

theorem levels_length (a b : Nat) : (levels a b).length = 8 := by unfold levels; split <;> rfl

/-- Rows that are written if they are inside the image. -/
theorem Sets.cond {N : Nat} {V : Nat → Option UInt8} {R : Nat → Prop} {b : List UInt8 → C (List UInt8)} {p : Prop} [Decidable p]
    (h : p → Sets b N V R) : Sets (fun d => if p then b d else .ok d) N V (fun i => p ∧ R i) := by
  by_cases hp : p
  · simp only [if_pos hp]
    exact (h hp).mono (fun _ hh => hh.2)
  · simp only [if_neg hp]
    exact (Sets.skip N V).mono (fun _ hh => hp hh.1)

/-- Two rows, as both decoders have them. -/
def half {τ : Type} (h bps : Nat) (row : Nat → List UInt8 × τ → C (List UInt8 × τ)) (b : τ) (y : Nat) (s : List UInt8 × Nat) : C (List UInt8 × Nat) := do
  let r ← loopN 2 (fun j r => if y + j < h then do
      let q ← row r.2.2 (r.1, r.2.1)
      pure (q.1, q.2, r.2.2 + bps)
    else pure r) (s.1, b, s.2)
  pure (r.1, r.2.2)

/-- The rows of a block. -/
theorem halves_sets {τ : Type} {w h k : Nat} {row : Nat → List UInt8 × τ → C (List UInt8 × τ)} {G : Nat → τ → List UInt8 → C (List UInt8)} {next : τ → τ}
    (hrow : ∀ cur d b, row cur (d, b) = (G cur b d >>= fun d' => .ok (d', next b))) {b1 b2 : τ} {V : Nat → Option UInt8} {x y : Nat} (hy : y < h)
    (hs : ∀ j, j < 4 → y + j < h → Sets (G ((y + j) * (w * k)) (if j = 0 then b1 else if j = 1 then next b1 else if j = 2 then b2 else next b2)) (w * h * k) V
      (Cell w h k y x (· = j))) :
    Sets (fun d => do
      let s ← half h (w * k) row b1 y (d, y * (w * k))
      let s ← half h (w * k) row b2 (y + 2) s
      pure s.1) (w * h * k) V (Cell w h k y x (fun _ => True)) := by
  have s0 : Sets (G (y * (w * k)) b1) (w * h * k) V (Cell w h k y x (· = 0)) := hs 0 (by decide) hy
  have s1 : y + 1 < h → Sets (G (y * (w * k) + w * k) (next b1)) (w * h * k) V (Cell w h k y x (· = 1)) := fun hp => by
    have := hs 1 (by decide) hp
    rw [Nat.add_one_mul] at this
    exact this
  have s2 : y + 2 < h → Sets (G (y * (w * k) + 2 * (w * k)) b2) (w * h * k) V (Cell w h k y x (· = 2)) := fun hp => by
    have := hs 2 (by decide) hp
    rw [Nat.add_mul] at this
    exact this
  have s3 : y + 2 + 1 < h → Sets (G (y * (w * k) + 2 * (w * k) + w * k) (next b2)) (w * h * k) V (Cell w h k y x (· = 3)) := fun hp => by
    have := hs 3 (by decide) hp
    rw [show (y + 3) * (w * k) = y * (w * k) + 2 * (w * k) + w * k by rw [Nat.add_mul]; omega] at this
    exact this
  have key := ((Sets.cond (p := y < h) (fun _ => s0)).seq (Sets.cond s1)).seq ((Sets.cond s2).seq (Sets.cond s3))
  intro d hd
  obtain ⟨d', e, l, s⟩ := key d hd
  refine ⟨d', ?_, l, fun idx => ⟨fun hc => (s idx).1 ?_, (s idx).2⟩⟩
  · unfold half
    obtain ⟨b', cur', hcur, hh⟩ := half_spec h (w * k) y row G next hrow d b1 (y * (w * k))
    dsimp only
    rw [hh]
    dsimp only at e
    cases e0 : ((if y < h then G (y * (w * k)) b1 d else .ok d) >>= fun d => if y + 1 < h then G (y * (w * k) + w * k) (next b1) d else .ok d) with
    | error g =>
      rw [e0] at e
      cases e
    | ok d1 =>
      rw [e0, bind_ok] at e
      rw [bind_ok, bind_ok, pure_eq_ok, bind_ok]
      obtain ⟨b'', cur'', -, hh2⟩ := half_spec h (w * k) (y + 2) row G next hrow d1 b2 cur'
      rw [hh2]
      have e3 : ((if y + 2 < h then G cur' b2 d1 else .ok d1) >>= fun d => if y + 2 + 1 < h then G (cur' + w * k) (next b2) d else .ok d) = .ok d' := by
        rw [← e]
        by_cases hy1 : y + 1 < h
        · rw [hcur hy1]
        · rw [if_neg (show ¬ y + 2 < h by omega), if_neg (show ¬ y + 2 < h by omega), bind_ok, bind_ok, if_neg (by omega), if_neg (by omega)]
      rw [e3]
      rfl
  · obtain ⟨j, i, c, hj, -, hi, hyj, hx, hc, e⟩ := hc
    have cell : Cell w h k y x (· = j) idx := ⟨j, i, c, hj, rfl, hi, hyj, hx, hc, e⟩
    obtain rfl | rfl | rfl | rfl : j = 0 ∨ j = 1 ∨ j = 2 ∨ j = 3 := by omega
    · exact .inl (.inl ⟨hy, cell⟩)
    · exact .inl (.inr ⟨hyj, cell⟩)
    · exact .inr (.inl ⟨hyj, cell⟩)
    · exact .inr (.inr ⟨hyj, cell⟩)

/-! ### ATI1N -/

/-- Four pixels. -/
def rowA (w : Nat) (cols : List UInt8) (x cur bits : Nat) (d : List UInt8) : C (List UInt8) :=
  loopN 4 (fun i d => if x + i < w then wr d (cur + (x + i)) (cols.getD (bits / 8 ^ i % 8) 0) else pure d) d

theorem ati1Row_eq {w : Nat} {cols : List UInt8} (hc : cols.length = 8) (x cur : Nat) (d : List UInt8) (bits : Nat) :
    ati1Row w cols x cur (d, bits) = (rowA w cols x cur bits d >>= fun d' => .ok (d', bits / 8 ^ 4)) := by
  have := loopN_carry (n := 4) (tk := fun k => bits / 8 ^ k)
    (F := fun i s => do
      let d ← (if x + i < w then do
          let c ← rd cols (s.2 &&& 7)
          wr s.1 (cur + (x + i)) c
        else pure s.1)
      pure (d, s.2 >>> 3))
    (G := fun i d => if x + i < w then wr d (cur + (x + i)) (cols.getD (bits / 8 ^ i % 8) 0) else pure d) (fun k d hk => by
      simp only [Nat.shiftRight_eq_div_pow, Nat.div_div_eq_div_mul, Nat.reducePow, ← Nat.pow_succ, pure_eq_ok, rd8 hc _ 0, bind_ok]) d
  simp only [Nat.pow_zero, Nat.div_one] at this
  exact this

theorem rowA_sets {w N : Nat} {cols : List UInt8} {x cur bits : Nat} {V : Nat → Option UInt8} (hb : ∀ i, i < 4 → x + i < w → cur + (x + i) < N)
    (hv : ∀ i, i < 4 → x + i < w → V (cur + (x + i)) = some (cols.getD (bits / 8 ^ i % 8) 0)) :
    Sets (rowA w cols x cur bits) N V (fun idx => ∃ i, i < 4 ∧ (x + i < w ∧ idx = cur + (x + i))) := by
  refine Sets.loop fun i hi => ?_
  by_cases h : x + i < w
  · simp only [if_pos h]
    exact (Sets.wr (hb i hi h) (hv i hi h)).mono (fun idx hh => hh.2)
  · simp only [if_neg h]
    exact (Sets.skip N V).mono (fun idx hh => h hh.1)

/-- The value of a pixel of an ATI1N block. -/
def valA (comp : List UInt8) (t j i : Nat) : UInt8 :=
  (levels (Dxt.at_ comp t 0) (Dxt.at_ comp t 1)).getD (Dxt.code5 (Dxt.at_ comp t) j i) 0

theorem code5_bits (β : Nat → Nat) {j : Nat} (hj : j < 4) (i : Nat) :
    (if j = 0 then Dxt.w24 β 2 else if j = 1 then Dxt.w24 β 2 / 8 ^ 4 else if j = 2 then Dxt.w24 β 5 else Dxt.w24 β 5 / 8 ^ 4) / 8 ^ i % 8 = Dxt.code5 β j i := by
  unfold Dxt.code5
  obtain rfl | rfl | rfl | rfl : j = 0 ∨ j = 1 ∨ j = 2 ∨ j = 3 := by omega
  · simp
  · rw [if_neg (by decide), if_pos rfl, Nat.div_div_eq_div_mul, ← Nat.pow_add]
  · simp
  · rw [if_neg (by decide), if_neg (by decide), if_neg (by decide), Nat.div_div_eq_div_mul, ← Nat.pow_add]

theorem ati1Block_sets {w h : Nat} {comp : List UInt8} {V : Nat → Option UInt8} {t x y : Nat} (ht : t + 8 ≤ comp.length) (hy : y < h)
    (hv : ∀ j i c, j < 4 → i < 4 → y + j < h → x + i < w → c < 1 → V (at3 w 1 (y + j) (x + i) c) = some (valA comp t j i)) :
    Sets (ati1Block w h (w * 1) comp t (y * (w * 1)) x y) (w * h * 1) V (Cell w h 1 y x (fun _ => True)) := by
  obtain ⟨a, e1, h1⟩ := Dxt.rd_at (comp := comp) (t := t) (i := 0) (by omega)
  obtain ⟨b, e2, h2⟩ := Dxt.rd_at (comp := comp) (t := t) (i := 1) (by omega)
  rw [Nat.add_zero] at e1
  have lev := levels_length (Dxt.at_ comp t 0) (Dxt.at_ comp t 1)
  have key := halves_sets (k := 1) (w := w) (row := fun cur s => ati1Row w (levels (Dxt.at_ comp t 0) (Dxt.at_ comp t 1)) x cur s)
    (G := fun cur bits d => rowA w (levels (Dxt.at_ comp t 0) (Dxt.at_ comp t 1)) x cur bits d) (next := fun b => b / 8 ^ 4)
    (fun cur d b => ati1Row_eq lev x cur d b) (b1 := Dxt.w24 (Dxt.at_ comp t) 2) (b2 := Dxt.w24 (Dxt.at_ comp t) 5) (V := V) (x := x) hy (fun j hj hjh => by
      refine (rowA_sets (fun i hi hx => ?_) (fun i hi hx => ?_)).mono ?_
      · have := pix_lt (k := 1) (c := 0) hx hjh (by decide)
        rw [Nat.mul_one] at this ⊢
        omega
      · have := hv j i 0 hj hi hjh hx (by decide)
        rw [show at3 w 1 (y + j) (x + i) 0 = (y + j) * (w * 1) + (x + i) by unfold at3; simp only [Nat.mul_one, Nat.add_zero]] at this
        rw [this, code5_bits _ hj]
        rfl
      · rintro idx ⟨j', i, c, -, rfl, hi, -, hx, hc, e⟩
        exact ⟨i, hi, hx, by rw [e, show c = 0 by omega]; unfold at3; simp only [Nat.mul_one, Nat.add_zero]⟩)
  intro d hd
  obtain ⟨d', e, l⟩ := key d hd
  refine ⟨d', ?_, l⟩
  rw [← e]
  unfold ati1Block ati1Half
  rw [e1, e2]
  simp only [bind_ok, h1, h2, Dxt.word24_eq (comp := comp) (t := t) (o := 2) (by omega), Dxt.word24_eq (comp := comp) (t := t) (o := 5) (by omega)]
  rfl

/-! ### 3Dc -/

/-- Four pixels. -/
def rowD (w : Nat) (ys xs : List UInt8) (x cur : Nat) (bits : Nat × Nat) (d : List UInt8) : C (List UInt8) :=
  loopN 4 (fun i d => if x + i < w then ((wr d (cur + (x + i) * 3 + 1) (ys.getD (bits.1 / 8 ^ i % 8) 0)) >>= fun d =>
    (wr d (cur + (x + i) * 3) (xs.getD (bits.2 / 8 ^ i % 8) 0))) >>= fun d =>
    wr d (cur + (x + i) * 3 + 2) (third (xs.getD (bits.2 / 8 ^ i % 8) 0) (ys.getD (bits.1 / 8 ^ i % 8) 0)) else pure d) d

theorem dcRow_eq {w : Nat} {ys xs : List UInt8} (hy : ys.length = 8) (hx : xs.length = 8) (x cur : Nat) (d : List UInt8) (bits : Nat × Nat) :
    dcRow w ys xs x cur (d, bits) = (rowD w ys xs x cur bits d >>= fun d' => .ok (d', (bits.1 / 8 ^ 4, bits.2 / 8 ^ 4))) := by
  have := loopN_carry (n := 4) (tk := fun k => (bits.1 / 8 ^ k, bits.2 / 8 ^ k))
    (F := fun i s => do
      let d ← (if x + i < w then do
          let ty ← rd ys (s.2.1 &&& 7)
          let d ← wr s.1 (cur + (x + i) * 3 + 1) ty
          let tx ← rd xs (s.2.2 &&& 7)
          let d ← wr d (cur + (x + i) * 3) tx
          wr d (cur + (x + i) * 3 + 2) (third tx ty)
        else pure s.1)
      pure (d, s.2.1 >>> 3, s.2.2 >>> 3))
    (G := fun i d => if x + i < w then ((wr d (cur + (x + i) * 3 + 1) (ys.getD (bits.1 / 8 ^ i % 8) 0)) >>= fun d =>
      (wr d (cur + (x + i) * 3) (xs.getD (bits.2 / 8 ^ i % 8) 0))) >>= fun d =>
      wr d (cur + (x + i) * 3 + 2) (third (xs.getD (bits.2 / 8 ^ i % 8) 0) (ys.getD (bits.1 / 8 ^ i % 8) 0)) else pure d) (fun k d hk => by
      simp only [Nat.shiftRight_eq_div_pow, Nat.div_div_eq_div_mul, Nat.reducePow, ← Nat.pow_succ, pure_eq_ok, rd8 hy _ 0, rd8 hx _ 0, bind_ok, bind_assoc]) d
  simp only [Nat.pow_zero, Nat.div_one] at this
  exact this

theorem rowD_sets {w N : Nat} {ys xs : List UInt8} {x cur : Nat} {bits : Nat × Nat} {V : Nat → Option UInt8}
    (hb : ∀ i, i < 4 → x + i < w → cur + (x + i) * 3 + 2 < N)
    (hv : ∀ i, i < 4 → x + i < w → V (cur + (x + i) * 3) = some (xs.getD (bits.2 / 8 ^ i % 8) 0) ∧ V (cur + (x + i) * 3 + 1) = some (ys.getD (bits.1 / 8 ^ i % 8) 0) ∧
      V (cur + (x + i) * 3 + 2) = some (third (xs.getD (bits.2 / 8 ^ i % 8) 0) (ys.getD (bits.1 / 8 ^ i % 8) 0))) :
    Sets (rowD w ys xs x cur bits) N V (fun idx => ∃ i, i < 4 ∧ (x + i < w ∧ ∃ c, c < 3 ∧ idx = cur + (x + i) * 3 + c)) := by
  refine Sets.loop fun i hi => ?_
  by_cases h : x + i < w
  · simp only [if_pos h]
    have hbi := hb i hi h
    obtain ⟨v0, v1, v2⟩ := hv i hi h
    refine (((Sets.wr (N := N) (by omega) v1).seq (Sets.wr (by omega) v0)).seq (Sets.wr hbi v2)).mono ?_
    rintro idx ⟨-, c, hc, e⟩
    obtain rfl | rfl | rfl : c = 0 ∨ c = 1 ∨ c = 2 := by omega
    · exact .inl (.inr e)
    · exact .inl (.inl e)
    · exact .inr e
  · simp only [if_neg h]
    exact (Sets.skip N V).mono (fun idx hh => h hh.1)

/-- The components of a pixel of a 3Dc block. -/
def valD (comp : List UInt8) (t j i c : Nat) : UInt8 :=
  if c = 0 then valA comp (t + 8) j i else if c = 1 then valA comp t j i else third (valA comp (t + 8) j i) (valA comp t j i)

theorem at_add (comp : List UInt8) (t n : Nat) : Dxt.at_ comp t (n + 8) = Dxt.at_ comp (t + 8) n := by
  unfold Dxt.at_
  rw [Nat.add_comm n 8, Nat.add_assoc]

theorem dcBlock_sets {w h : Nat} {comp : List UInt8} {V : Nat → Option UInt8} {t x y : Nat} (ht : t + 16 ≤ comp.length) (hy : y < h)
    (hv : ∀ j i c, j < 4 → i < 4 → y + j < h → x + i < w → c < 3 → V (at3 w 3 (y + j) (x + i) c) = some (valD comp t j i c)) :
    Sets (dcBlock w h (w * 3) comp t (y * (w * 3)) x y) (w * h * 3) V (Cell w h 3 y x (fun _ => True)) := by
  obtain ⟨a, e1, h1⟩ := Dxt.rd_at (comp := comp) (t := t) (i := 0) (by omega)
  obtain ⟨b, e2, h2⟩ := Dxt.rd_at (comp := comp) (t := t) (i := 1) (by omega)
  obtain ⟨a2, e3, h3⟩ := Dxt.rd_at (comp := comp) (t := t) (i := 8) (by omega)
  obtain ⟨b2, e4, h4⟩ := Dxt.rd_at (comp := comp) (t := t) (i := 9) (by omega)
  rw [Nat.add_zero] at e1
  rw [show (8 : Nat) = 0 + 8 by rfl, at_add] at h3
  rw [show (9 : Nat) = 1 + 8 by rfl, at_add] at h4
  have lev := levels_length (Dxt.at_ comp t 0) (Dxt.at_ comp t 1)
  have lev2 := levels_length (Dxt.at_ comp (t + 8) 0) (Dxt.at_ comp (t + 8) 1)
  have hp : ∀ j i c, (y + j) * (w * 3) + (x + i) * 3 + c = at3 w 3 (y + j) (x + i) c := by
    intro j i c
    unfold at3
    rw [Nat.add_mul ((y + j) * w), Nat.mul_assoc]
  have key := halves_sets (k := 3) (w := w)
    (row := fun cur s => dcRow w (levels (Dxt.at_ comp t 0) (Dxt.at_ comp t 1)) (levels (Dxt.at_ comp (t + 8) 0) (Dxt.at_ comp (t + 8) 1)) x cur s)
    (G := fun cur bits d => rowD w (levels (Dxt.at_ comp t 0) (Dxt.at_ comp t 1)) (levels (Dxt.at_ comp (t + 8) 0) (Dxt.at_ comp (t + 8) 1)) x cur bits d)
    (next := fun b => (b.1 / 8 ^ 4, b.2 / 8 ^ 4))
    (fun cur d b => dcRow_eq lev lev2 x cur d b) (b1 := (Dxt.w24 (Dxt.at_ comp t) 2, Dxt.w24 (Dxt.at_ comp (t + 8)) 2))
    (b2 := (Dxt.w24 (Dxt.at_ comp t) 5, Dxt.w24 (Dxt.at_ comp (t + 8)) 5)) (V := V) (x := x) hy (fun j hj hjh => by
      refine (rowD_sets (fun i hi hx => ?_) (fun i hi hx => ?_)).mono ?_
      · rw [hp]
        exact pix_lt (k := 3) (c := 2) hx hjh (by decide)
      · have hA := code5_bits (Dxt.at_ comp t) hj i
        have hB := code5_bits (Dxt.at_ comp (t + 8)) hj i
        have g : ∀ c, c < 3 → V ((y + j) * (w * 3) + (x + i) * 3 + c) = some (valD comp t j i c) := fun c hc => by
          rw [hp]
          exact hv j i c hj hi hjh hx hc
        have g0 := g 0 (by decide)
        rw [Nat.add_zero] at g0
        rw [g0, g 1 (by decide), g 2 (by decide), show valD comp t j i 0 = valA comp (t + 8) j i from rfl, show valD comp t j i 1 = valA comp t j i from rfl,
          show valD comp t j i 2 = third (valA comp (t + 8) j i) (valA comp t j i) from rfl]
        unfold valA
        rw [← hA, ← hB]
        simp only [apply_ite Prod.fst, apply_ite Prod.snd]
        exact ⟨trivial, trivial, trivial⟩
      · rintro idx ⟨j', i, c, -, rfl, hi, -, hx, hc, e⟩
        exact ⟨i, hi, hx, c, hc, by rw [e, hp]⟩)
  intro d hd
  obtain ⟨d', e, l⟩ := key d hd
  refine ⟨d', ?_, l⟩
  rw [← e]
  unfold dcBlock dcHalf
  rw [e1, e2, e3, e4]
  have w1 := Dxt.word24_eq (comp := comp) (t := t + 8) (o := 2) (by omega)
  have w2 := Dxt.word24_eq (comp := comp) (t := t + 8) (o := 5) (by omega)
  rw [show t + 8 + 2 = t + 2 + 8 by omega] at w1
  rw [show t + 8 + 5 = t + 5 + 8 by omega] at w2
  simp only [bind_ok, h1, h2, h3, h4, Dxt.word24_eq (comp := comp) (t := t) (o := 2) (by omega), Dxt.word24_eq (comp := comp) (t := t) (o := 5) (by omega), w1, w2]
  rfl

/-! ### The values -/

theorem level_within (a b k : Nat) (ha : a < 256) (hb : b < 256) (hk : k < 8) : DxtSpec.Within 1 ((levels a b).getD k 0).toNat (DxtSpec.eight a b k) := by
  unfold levels DxtSpec.eight DxtSpec.Within
  have hof : ∀ n, n < 256 → (UInt8.ofNat n).toNat = n := fun n hn => by simp; omega
  by_cases hab : a > b
  · simp only [if_pos hab]
    obtain rfl | rfl | rfl | rfl | rfl | rfl | rfl | rfl : k = 0 ∨ k = 1 ∨ k = 2 ∨ k = 3 ∨ k = 4 ∨ k = 5 ∨ k = 6 ∨ k = 7 := by omega
    all_goals
      simp only [List.map_cons, List.map_nil, List.getD_cons_zero, List.getD_cons_succ]
      rw [hof _ (by omega)]
      simp
      try omega
  · simp only [if_neg hab]
    obtain rfl | rfl | rfl | rfl | rfl | rfl | rfl | rfl : k = 0 ∨ k = 1 ∨ k = 2 ∨ k = 3 ∨ k = 4 ∨ k = 5 ∨ k = 6 ∨ k = 7 := by omega
    all_goals
      simp only [List.map_cons, List.map_nil, List.getD_cons_zero, List.getD_cons_succ]
      rw [hof _ (by omega)]
      simp
      try omega

theorem iSqrt_table : ∀ i : Fin 256, ∀ r : Fin 4, let p := 4 ^ r.val
    let s := sqrtTable.getD i 0 / (16 / 2 ^ r.val)
    (r = 0 ∨ 64 ≤ i.val) → s * s ≤ p * i ∧ p * i.val + p ≤ (s + 2) * (s + 2) ∧ s < 128 := by decide +kernel

theorem iSqrt_spec {t : Nat} (h : t ≤ 16256) : iSqrt t * iSqrt t ≤ t ∧ t < (iSqrt t + 2) * (iSqrt t + 2) ∧ iSqrt t < 128 := by
  unfold iSqrt
  simp only [Nat.shiftRight_eq_div_pow, Nat.reducePow]
  by_cases h1 : t ≥ 256
  · by_cases h2 : t ≥ 4096
    · have := iSqrt_table ⟨t / 64, by omega⟩ 3 (.inr (by simp only; omega))
      simp only [Nat.reducePow, Nat.reduceDiv, show ((3 : Fin 4) : Nat) = 3 from rfl] at this
      rw [if_pos h1, if_pos h2, if_neg (by omega)]
      omega
    · by_cases h3 : t ≥ 1024
      · have := iSqrt_table ⟨t / 16, by omega⟩ 2 (.inr (by simp only; omega))
        simp only [Nat.reducePow, Nat.reduceDiv, show ((2 : Fin 4) : Nat) = 2 from rfl] at this
        rw [if_pos h1, if_neg h2, if_pos h3]
        omega
      · have := iSqrt_table ⟨t / 4, by omega⟩ 1 (.inr (by simp only; omega))
        simp only [Nat.reducePow, Nat.reduceDiv, show ((1 : Fin 4) : Nat) = 1 from rfl] at this
        rw [if_pos h1, if_neg h2, if_neg h3]
        omega
  · have := iSqrt_table ⟨t, by omega⟩ 0 (.inl rfl)
    simp only [Nat.reducePow, Nat.reduceDiv, show ((0 : Fin 4) : Nat) = 0 from rfl] at this
    rw [if_neg h1]
    omega

theorem third_normal (r g : UInt8) : Normal r.toNat g.toNat (third r g).toNat := by
  have hr := r.toNat_lt
  have hg := g.toNat_lt
  generalize er : r.toNat = a at *
  generalize eg : g.toNat = b at *
  have sq : ∀ n : Nat, (0 : Int) ≤ ((n : Int) - 127) * ((n : Int) - 128) := fun n => by
    rcases Nat.lt_or_ge n 128 with h | h
    · have h1 : (0 : Int) ≤ 127 - n := by omega
      have h2 : (0 : Int) ≤ 128 - n := by omega
      have := Int.mul_nonneg h1 h2
      rw [← Int.neg_mul_neg]
      convert this using 2 <;> omega
    · exact Int.mul_nonneg (by omega) (by omega)
  have four : ∀ n : Nat, (2 * (n : Int) - 255) * (2 * (n : Int) - 255) = 4 * (((n : Int) - 127) * ((n : Int) - 128)) + 1 := fun n => by ring
  unfold Normal third
  simp only [er, eg]
  rw [four, four]
  have ha := sq a
  have hb := sq b
  generalize ((a : Int) - 127) * ((a : Int) - 128) = A at *
  generalize ((b : Int) - 127) * ((b : Int) - 128) = B at *
  by_cases ht : (127 * 128 - A - B : Int) > 0
  · rw [if_pos ht]
    generalize et : (127 * 128 - A - B : Int).toNat = t
    obtain ⟨s1, s2, s3⟩ := iSqrt_spec (t := t) (by omega)
    refine ⟨fun _ => ⟨iSqrt t, ?_, ?_, ?_⟩, fun h => by omega⟩
    · simp only [UInt8.toNat_ofNat']
      omega
    · have : (4 * (iSqrt t * iSqrt t : Nat) : Int) ≤ 4 * (t : Nat) := by exact_mod_cast Nat.mul_le_mul_left 4 s1
      push_cast at this
      have e : (2 * (iSqrt t : Int)) * (2 * (iSqrt t : Int)) = 4 * ((iSqrt t : Int) * iSqrt t) := by ring
      rw [e]
      omega
    · have : (4 * (t : Nat) : Int) + 4 ≤ 4 * ((iSqrt t + 2) * (iSqrt t + 2) : Nat) := by exact_mod_cast (show 4 * t + 4 ≤ 4 * ((iSqrt t + 2) * (iSqrt t + 2)) by omega)
      push_cast at this
      have e : (2 * (iSqrt t : Int) + 4) * (2 * (iSqrt t : Int) + 4) = 4 * (((iSqrt t : Int) + 2) * (iSqrt t + 2)) := by ring
      rw [e]
      omega
  · rw [if_neg ht]
    exact ⟨fun h => by omega, fun _ => rfl⟩

/-! ### The files -/

/-- ATI1N and 3Dc files. -/
theorem ati_load (L : Laws2 o At) (junk : Nat → UInt8) (cube : Hd → σ → C (Bool × List Img × σ)) (cur : Img) {t : σ} {bs : List UInt8} {w h : Nat}
    {cc : List UInt8} {k size fm : Nat} {val : List UInt8 → Nat → Nat → Nat → Nat → UInt8} (hs : At t bs 0) (H : Header bs w h) (K : Code bs cc) (hwh : w * h < 2 ^ 27)
    (hcc : (cc = [65, 84, 73, 49] ∧ k = 1 ∧ fm = IL_LUMINANCE ∧ size = 8 ∧ val = fun comp t j i _ => valA comp t j i) ∨
      (cc = [65, 84, 73, 50] ∧ k = 3 ∧ fm = IL_RGB ∧ size = 16 ∧ val = valD))
    (hsize : Declares bs (DxtSpec.bytes size w h 1)) :
    Holds (iLoadDdsInternal o junk cube cur t) (fun r => ((128 + DxtSpec.bytes size w h 1 ≤ bs.length → r.1 = true ∧ ∃ m, r.2.1 = [m] ∧
        Shows m w h k fm (fun x y c => some (val (at_ bs 128 (DxtSpec.bytes size w h 1)) (DxtSpec.block size w h x y 0) (y % 4) (x % 4) c))) ∧
      (bs.length < 128 + DxtSpec.bytes size w h 1 → r.1 = false ∧ r.2.1 = [cur])) ∧ ∃ q, At r.2.2 bs q) := by
  have hww : w ≤ w * h := Nat.le_mul_of_pos_right w H.h0
  have hhh : h ≤ w * h := Nat.le_mul_of_pos_left h H.w0
  have iw : ints w = w := ints_of (by omega)
  have ih : ints h = h := ints_of (by omega)
  have i1 : ints 1 = 1 := ints_of (by omega)
  have hcomp : 128 + DxtSpec.bytes size w h 1 ≤ bs.length → (w + 3) / 4 * ((h + 3) / 4) * size ≤ (at_ bs 128 (DxtSpec.bytes size w h 1)).length := fun hl => by
    rw [show (at_ bs 128 (DxtSpec.bytes size w h 1)).length = DxtSpec.bytes size w h 1 by unfold DetectSpec.at_; rw [List.length_take, List.length_drop]; omega]
    unfold DxtSpec.bytes
    rw [Nat.mul_one]
  have hpos : ∀ x y, (y / 4 * ((w + 3) / 4) + x / 4) * size = DxtSpec.block size w h x y 0 := fun x y => by
    unfold DxtSpec.block
    rw [Nat.zero_mul, Nat.zero_add]
  rcases hcc with ⟨rfl, rfl, rfl, rfl, rfl⟩ | ⟨rfl, rfl, rfl, rfl, rfl⟩
  · refine block_load L junk cube cur hs H K hwh (by decide) (f := .ati1n) (fun _ _ => rfl) (by decide) (by decide) hsize (fun hl => ?_)
    have hk : imageKind (hdOf bs) .ati1n = (1, IL_LUMINANCE, IL_UNSIGNED_BYTE) := rfl
    obtain ⟨-, -, f3, -, f9, f10⟩ := texN_fields junk w h 1 IL_LUMINANCE H.w0 H.h0 (by decide) (by omega)
    rw [hk]
    obtain ⟨p, e, lp, g⟩ := band_spec (w := w) (h := h) (k := 1) (size := 8) (data := alloc junk (w * h * 1)) (comp := at_ bs 128 (DxtSpec.bytes 8 w h 1))
      (block := ati1Block w h (w * 1) (at_ bs 128 (DxtSpec.bytes 8 w h 1))) (val := fun t j i _ => valA (at_ bs 128 (DxtSpec.bytes 8 w h 1)) t j i)
      (alloc_length _ _) (hcomp hl) (fun V t x y ht hy hv => ati1Block_sets ht hy hv)
    refine ⟨p, fun fl li => ?_, ?_⟩
    · show (decompressAti1n w h 1 _ _ >>= fun p => pure (true, p)) = _
      unfold decompressAti1n
      rw [iw, ih, i1, f3, f10, e]
      rfl
    · dsimp only
      rw [texN_eq]
      refine shows_tex junk w h 1 IL_LUMINANCE H.w0 H.h0 (by decide) (by omega) p lp _ (fun x y c hx hy hc => ?_)
      rw [← hpos]
      exact g y x c hy hx hc
  · refine block_load L junk cube cur hs H K hwh (by decide) (f := .threeDc) (fun _ _ => rfl) (by decide) (by decide) hsize (fun hl => ?_)
    have hk : imageKind (hdOf bs) .threeDc = (3, IL_RGB, IL_UNSIGNED_BYTE) := rfl
    obtain ⟨-, -, f3, -, f9, f10⟩ := texN_fields junk w h 3 IL_RGB H.w0 H.h0 (by decide) (by omega)
    rw [hk]
    obtain ⟨p, e, lp, g⟩ := band_spec (w := w) (h := h) (k := 3) (size := 16) (data := alloc junk (w * h * 3)) (comp := at_ bs 128 (DxtSpec.bytes 16 w h 1))
      (block := dcBlock w h (w * 3) (at_ bs 128 (DxtSpec.bytes 16 w h 1))) (val := valD (at_ bs 128 (DxtSpec.bytes 16 w h 1)))
      (alloc_length _ _) (hcomp hl) (fun V t x y ht hy hv => dcBlock_sets ht hy hv)
    refine ⟨p, fun fl li => ?_, ?_⟩
    · show (decompress3Dc w h 1 _ _ >>= fun p => pure (true, p)) = _
      unfold decompress3Dc
      rw [iw, ih, i1, f3, f10, e]
      rfl
    · dsimp only
      rw [texN_eq]
      refine shows_tex junk w h 3 IL_RGB H.w0 H.h0 (by decide) (by omega) p lp _ (fun x y c hx hy hc => ?_)
      rw [← hpos]
      exact g y x c hy hx hc

end DevIL.Dds
