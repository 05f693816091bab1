import Verif.Lemmas.NeuB
import Verif.Lemmas.Rotate
import Verif.Spec.Neu
/-! The NeuQuant colour reduction: C225 (safety), C226 (nearest colours). -/
set_option autoImplicit false
namespace DevIL.Neu
open DevIL.NeuSpec

theorem u8_toNat {x : Int} (h0 : 0 ≤ x) (h1 : x ≤ 255) : ((u8 x).toNat : Int) = x := by
  unfold u8
  rw [UInt8.toNat_ofNat']
  omega

theorem palette_length (net : List Px) : (palette net).length = 3 * net.length := by
  unfold palette
  induction net with
  | nil => rfl
  | cons p net ih => rw [List.flatMap_cons, List.length_append, ih]; simp only [List.length_cons, List.length_nil]; omega

theorem palette_get {net : List Px} {j : Nat} {p : Px} (h : net[j]? = some p) :
    (palette net)[3 * j]? = some (u8 p.b) ∧ (palette net)[3 * j + 1]? = some (u8 p.g) ∧ (palette net)[3 * j + 2]? = some (u8 p.r) := by
  unfold palette
  induction net generalizing j with
  | nil => simp at h
  | cons q net ih =>
    rw [List.flatMap_cons]
    cases j with
    | zero => simp at h; subst h; exact ⟨rfl, rfl, rfl⟩
    | succ j =>
      have := ih (j := j) (by simpa using h)
      have e : ∀ c, ([u8 q.b, u8 q.g, u8 q.r] ++ net.flatMap (fun p => [u8 p.b, u8 p.g, u8 p.r]))[3 * (j + 1) + c]? = (net.flatMap (fun p => [u8 p.b, u8 p.g, u8 p.r]))[3 * j + c]? := fun c => by
        rw [List.getElem?_append_right (by simp only [List.length_cons, List.length_nil]; omega)]
        congr 1
        simp only [List.length_cons, List.length_nil]
        omega
      exact ⟨(e 0).trans this.1, (e 1).trans this.2.1, (e 2).trans this.2.2⟩

theorem apart_eq (a : Nat) {x : Int} (h0 : 0 ≤ x) (h1 : x ≤ 255) : (apart a (u8 x).toNat : Int) = abs (x - a) := by
  have := u8_toNat h0 h1
  unfold apart abs
  by_cases h : x - a < 0
  · rw [if_pos h]; omega
  · rw [if_neg h]; omega

theorem byte_of {l : List UInt8} {k : Nat} {b : UInt8} (h : l[k]? = some b) : byte l k = b.toNat := by
  unfold byte
  rw [List.getD_eq_getElem?_getD, h]
  rfl

theorem distance_eq {pic : List UInt8} {net : List Px} {i j : Nat} {b g r : UInt8} {e : Px} (hb : pic[3 * i]? = some b) (hg : pic[3 * i + 1]? = some g) (hr : pic[3 * i + 2]? = some r)
    (he : net[j]? = some e) (hrng : Rng 255 e) : (distance pic (palette net) i j : Int) = D b.toNat g.toNat r.toNat e := by
  obtain ⟨p1, p2, p3⟩ := palette_get he
  unfold distance D
  rw [byte_of hb, byte_of hg, byte_of hr, byte_of p1, byte_of p2, byte_of p3]
  have x1 := apart_eq b.toNat hrng.1.1 hrng.1.2
  have x2 := apart_eq g.toNat hrng.2.1.1 hrng.2.1.2
  have x3 := apart_eq r.toNat hrng.2.2.1 hrng.2.2.2
  omega

/-- For every picture of at least 503 pixels and of 100 pixels for each step of the sampling factor, and every number of colours, the reduction ends without a fault. -/
theorem reduce_spec (junk : Nat → Int) (fill : Nat → UInt8) (data : List UInt8) (n s : Nat) (hn : 1 ≤ n) (hn' : n ≤ 256) (hs : 1 ≤ s) (h3 : data.length % 3 = 0) (h1 : 1509 ≤ data.length)
    (h2 : 300 * s ≤ data.length) : ∃ new pal, iNeuQuant junk fill data n s = .ok (new, pal) ∧ Nearest n data new pal := by
  obtain ⟨net0, e0, l0, r0⟩ := learn_spec hn hn' junk h3 h1 hs h2
  have hu : ∀ p ∈ unbias net0, Rng 255 p := fun p hp => by
    obtain ⟨i, hi⟩ := List.mem_iff_getElem?.mp hp
    exact (unbias_spec r0 hi).1
  have lu : (unbias net0).length = n := (unbias_length _).trans l0
  obtain ⟨net, idx, e1, l1, m1, s1, i1⟩ := inxbuild_spec junk hn lu hu
  have hrn : ∀ p ∈ net, Rng 255 p := fun p hp => hu p ((m1 p).mp hp)
  unfold iNeuQuant
  rw [e0, bind_ok]
  simp only []
  rw [e1, bind_ok]
  simp only []
  obtain ⟨d, e, hl, hd⟩ := loopN_inv (f := fun i d => do
    let b ← rd data (3 * i)
    let g ← rd data (3 * i + 1)
    let r ← rd data (3 * i + 2)
    let v ← inxsearch net idx n b g r
    wr d i v) (n := data.length / 3) (s := alloc fill (data.length / 3))
    (fun k (d : List UInt8) => d.length = data.length / 3 ∧ ∀ (i : Nat) v, i < k → d[i]? = some v → v.toNat < n ∧ ∀ j, j < n → distance data (palette (unbias net0)) i v.toNat ≤
      distance data (palette (unbias net0)) i j)
    ⟨alloc_length _ _, fun i v h => absurd h (by omega)⟩ (fun k d hk hI => by
      obtain ⟨a1, a2⟩ := hI
      obtain ⟨b, eb, -, hb⟩ := rd_net (show 3 * k < data.length by omega)
      obtain ⟨g, eg, -, hg⟩ := rd_net (show 3 * k + 1 < data.length by omega)
      obtain ⟨r, er, -, hr⟩ := rd_net (show 3 * k + 2 < data.length by omega)
      obtain ⟨q, hq, eq, hmin⟩ := inxsearch_spec hn l1 s1 hrn i1 b g r
      rw [eb, bind_ok, eg, bind_ok, er, bind_ok, eq, bind_ok, wr_of_lt (by omega)]
      refine ⟨_, rfl, (List.length_set ..).trans a1, fun i v hi hv => ?_⟩
      by_cases c : i = k
      · subst c
        rw [List.getElem?_set_self (by omega)] at hv
        obtain rfl := Option.some.inj hv
        obtain ⟨m, hm⟩ := List.mem_iff_getElem?.mp ((m1 q).mp hq)
        obtain ⟨hqr, hqc⟩ := unbias_spec r0 hm
        have hmn : m < n := by rw [← lu]; exact (List.getElem?_eq_some_iff.mp hm).1
        have hv' : (u8 q.c).toNat = m := by
          have := u8_toNat (x := q.c) (by omega) (by omega)
          omega
        rw [hv']
        refine ⟨hmn, fun j hj => ?_⟩
        have hje := List.getElem?_eq_getElem (l := unbias net0) (i := j) (by omega)
        have x1 := distance_eq hb hg hr hm hqr
        have x2 := distance_eq hb hg hr hje (unbias_spec r0 hje).1
        have x3 := hmin _ ((m1 _).mpr (List.mem_of_getElem? hje))
        omega
      · rw [List.getElem?_set_ne (Ne.symm c)] at hv
        exact a2 i v (by omega) hv)
  rw [e, bind_ok, pure_eq_ok]
  refine ⟨d, _, rfl, hl, by rw [palette_length, lu], fun i v hv => ?_, fun i v hv => ?_⟩
  · exact (hd i v (by rw [← hl]; exact (List.getElem?_eq_some_iff.mp hv).1) hv).1
  · exact (hd i v (by rw [← hl]; exact (List.getElem?_eq_some_iff.mp hv).1) hv).2

/-- **C225** (partial): for every picture of at least 503 pixels that has at least 100 pixels for each unit of the sampling factor, and every palette size from 1 to 256, the
colour reduction ends without a fault, whatever the pixels are.  Missing: smaller pictures, see the violations below. -/
theorem C225_safe_partial (junk : Nat → Int) (fill : Nat → UInt8) (data : List UInt8) (n s : Nat) (hn : 1 ≤ n) (hn' : n ≤ 256) (hs : 1 ≤ s) (h3 : data.length % 3 = 0)
    (h1 : 1509 ≤ data.length) (h2 : 300 * s ≤ data.length) : ∃ r, iNeuQuant junk fill data n s = .ok r := by
  obtain ⟨new, pal, e, -⟩ := reduce_spec junk fill data n s hn hn' hs h3 h1 h2
  exact ⟨_, e⟩

/-- **C225 violated**: for every picture with fewer than 100 pixels for each unit of the sampling factor (fewer than 1500 pixels with the default factor of 15), but enough to be
sampled at all, the reduction divides by zero. -/
theorem C225_violated_small (junk : Nat → Int) (fill : Nat → UInt8) (data : List UInt8) (n s : Nat) (hn : 1 ≤ n) (hn' : n ≤ 256) (hs : 1 ≤ s) (h1 : 3 * s ≤ data.length)
    (h2 : data.length < 300 * s) : iNeuQuant junk fill data n s = .error .overflow := by
  obtain ⟨pw, e, hL⟩ := start_spec hn' junk (Nat.div_le_self 65536 n)
  obtain ⟨k1, k2⟩ := K_bounds (n := n)
  have hdelta : data.length / (3 * s) / 100 = 0 := by
    rw [Nat.div_div_eq_div_mul]
    exact Nat.div_eq_of_lt (by omega)
  have hsp : 0 < data.length / (3 * s) := (Nat.div_pos_iff).mpr (by omega)
  have e1 := (learnStep_spec (data := data) (s := s) (i := 0) hn k1 k2 hL (show 0 + 2 < data.length by omega)).1 hdelta
  unfold iNeuQuant learn
  simp only []
  rw [e, bind_ok, loopN_error (k := 0) hsp rfl e1, bind_error, bind_error]

/-- **C225 violated**: for every picture of 100 to 243 pixels that is sampled in full, or of 200 to 243 with a factor of 2, the reduction reads outside the pixels. -/
theorem C225_violated_stride (junk : Nat → Int) (fill : Nat → UInt8) (data : List UInt8) (n s : Nat) (hn : 1 ≤ n) (hn' : n ≤ 256) (hs : 1 ≤ s)
    (h2 : 300 * s ≤ data.length) (h1 : data.length ≤ 730) : iNeuQuant junk fill data n s = .error .oobRead := by
  obtain ⟨pw, e, hL⟩ := start_spec hn' junk (Nat.div_le_self 65536 n)
  obtain ⟨k1, k2⟩ := K_bounds (n := n)
  have hdelta : data.length / (3 * s) / 100 ≠ 0 := by
    rw [Nat.div_div_eq_div_mul]
    have : 1 ≤ data.length / (3 * s * 100) := (Nat.one_le_div_iff (by omega)).mpr (by omega)
    omega
  have hsp : 1 < data.length / (3 * s) := by
    have : 2 ≤ data.length / (3 * s) := (Nat.le_div_iff_mul_le (by omega)).mpr (by omega)
    omega
  obtain ⟨t, e1, -, ht⟩ := (learnStep_spec (data := data) (s := s) (i := 0) hn k1 k2 hL (show 0 + 2 < data.length by omega)).2 hdelta
  have hst : 1461 ≤ stride data.length := by
    unfold stride
    split
    · decide
    · split
      · decide
      · split <;> decide
  have hp : data.length ≤ t.pos := by
    rw [ht]
    unfold next
    show data.length ≤ if data.length ≤ 0 + stride data.length then _ else _
    rw [if_pos (by omega)]
    show data.length ≤ 0 + stride data.length - data.length
    omega
  have e2 : loopN 1 (learnStep data n s (data.length / (3 * s) / 100)) ⟨initnet junk n, List.replicate n ((65536 / n : Nat) : Int), List.replicate n 0, pw, 0, 1024, 2048⟩ = .ok t := by
    rw [loopN_succ]
    exact e1
  unfold iNeuQuant learn
  simp only []
  rw [e, bind_ok, loopN_error (k := 1) hsp e2 (learnStep_out hp), bind_error, bind_error]

/-- **C226** (partial): for every such picture and palette size, each pixel becomes the number of a colour of the palette, and no other colour of the palette is nearer to the pixel by the sum
of the differences of the components.  Missing: smaller pictures, for which the reduction fails (`C225_violated_small`, `C225_violated_stride`). -/
theorem C226_nearest_partial (junk : Nat → Int) (fill : Nat → UInt8) (data : List UInt8) (n s : Nat) (hn : 1 ≤ n) (hn' : n ≤ 256) (hs : 1 ≤ s) (h3 : data.length % 3 = 0)
    (h1 : 1509 ≤ data.length) (h2 : 300 * s ≤ data.length) : ∃ new pal, iNeuQuant junk fill data n s = .ok (new, pal) ∧ Nearest n data new pal :=
  reduce_spec junk fill data n s hn hn' hs h3 h1 h2

/-- A picture of 50 by 40 pixels. -/
def grid : List UInt8 := (List.range 2000).flatMap (fun i => [UInt8.ofNat (i % 50 * 5), UInt8.ofNat (i / 50 * 6), UInt8.ofNat (i % 7)])

example : grid.length = 6000 ∧ grid.length % 3 = 0 ∧ 1509 ≤ grid.length ∧ 300 * 15 ≤ grid.length := by
  have h : grid.length = 6000 := by decide +kernel
  rw [h]; decide

example : ∃ new pal, iNeuQuant (fun _ => 7) (fun _ => 9) grid 256 15 = .ok (new, pal) ∧ new.length = 2000 ∧ pal.length = 768 := by
  have h : grid.length = 6000 := by decide +kernel
  obtain ⟨new, pal, e, hN⟩ := C226_nearest_partial (fun _ => 7) (fun _ => 9) grid 256 15 (by decide) (by decide) (by decide) (by rw [h]) (by rw [h]; decide) (by rw [h]; decide)
  exact ⟨new, pal, e, by rw [hN.pixels, h], hN.colours⟩

/-- What the specification asks of a small example: a palette of two colours. -/
example : Nearest 2 [10, 10, 10, 200, 0, 0] [0, 1] [0, 20, 10, 210, 0, 5] := by
  refine ⟨by decide, by decide, fun i v h => ?_, fun i v h => ?_⟩
  · match i, h with
    | 0, h => cases h; decide
    | 1, h => cases h; decide
    | i + 2, h => simp at h
  · match i, h with
    | 0, h => cases h; decide
    | 1, h => cases h; decide
    | i + 2, h => simp at h

example : 3 * 15 ≤ (List.replicate 300 (0 : UInt8)).length ∧ (List.replicate 300 (0 : UInt8)).length < 300 * 15 := by rw [List.length_replicate]; decide
example : iNeuQuant (fun _ => 0) (fun _ => 0) (List.replicate 300 5) 256 1 = .error .oobRead :=
  C225_violated_stride _ _ _ 256 1 (by decide) (by decide) (by decide) (by rw [List.length_replicate]; decide) (by rw [List.length_replicate]; decide)

end DevIL.Neu
