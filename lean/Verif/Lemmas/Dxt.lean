import Verif.Model.Dxt
import Verif.Lemmas.Block
/-! The values the DXT decoders store, block by block. -/
set_option autoImplicit false
namespace DevIL
variable {β : Type}

/-- `b` leaves a buffer of the same length in which every element either is kept or gets the value `V` gives it; those in `R` get it. -/
def Sets (b : List β → C (List β)) (N : Nat) (V : Nat → Option β) (R : Nat → Prop) : Prop :=
  ∀ d : List β, d.length = N → ∃ d' : List β, b d = .ok d' ∧ d'.length = N ∧
    ∀ i, (R i → d'[i]? = V i) ∧ (d'[i]? = V i ∨ d'[i]? = d[i]?)

theorem Sets.mono {b : List β → C (List β)} {N : Nat} {V : Nat → Option β} {R R' : Nat → Prop} (h : Sets b N V R) (hr : ∀ i, R' i → R i) :
    Sets b N V R' := by
  intro d hl
  obtain ⟨d', e, l, s⟩ := h d hl
  exact ⟨d', e, l, fun i => ⟨fun hi => (s i).1 (hr i hi), (s i).2⟩⟩

theorem Sets.skip (N : Nat) (V : Nat → Option β) : Sets (fun d => .ok d) N V (fun _ => False) :=
  fun d hl => ⟨d, rfl, hl, fun _ => ⟨False.elim, .inr rfl⟩⟩

theorem Sets.wr {N k : Nat} {x : β} {V : Nat → Option β} (hk : k < N) (hv : V k = some x) : Sets (fun d => DevIL.wr d k x) N V (fun i => i = k) := by
  intro d hl
  refine ⟨d.set k x, wr_of_lt (by omega), by simp [hl], fun i => ?_⟩
  by_cases e : i = k
  · subst e
    rw [List.getElem?_set_self (by omega), hv]
    exact ⟨fun _ => rfl, .inl rfl⟩
  · rw [List.getElem?_set_ne (by omega)]
    exact ⟨fun h => absurd h e, .inr rfl⟩

theorem Sets.seq {b1 b2 : List β → C (List β)} {N : Nat} {V : Nat → Option β} {R1 R2 : Nat → Prop} (h1 : Sets b1 N V R1) (h2 : Sets b2 N V R2) :
    Sets (fun d => b1 d >>= b2) N V (fun i => R1 i ∨ R2 i) := by
  intro d hl
  obtain ⟨d1, e1, l1, s1⟩ := h1 d hl
  obtain ⟨d2, e2, l2, s2⟩ := h2 d1 l1
  refine ⟨d2, by dsimp only; rw [e1, bind_ok, e2], l2, fun i => ⟨fun hr => ?_, ?_⟩⟩
  · rcases hr with hr | hr
    · rcases (s2 i).2 with h | h
      · exact h
      · rw [h]; exact (s1 i).1 hr
    · exact (s2 i).1 hr
  · rcases (s2 i).2 with h | h
    · exact .inl h
    · rw [h]; exact (s1 i).2

theorem Sets.loop {n N : Nat} {body : Nat → List β → C (List β)} {V : Nat → Option β} {R : Nat → Nat → Prop}
    (h : ∀ k, k < n → Sets (body k) N V (R k)) : Sets (fun d => loopN n body d) N V (fun i => ∃ k, k < n ∧ R k i) := by
  induction n with
  | zero => exact (Sets.skip N V).mono (fun i ⟨_, hk, _⟩ => by omega)
  | succ n ih =>
    have := (ih fun k hk => h k (by omega)).seq (h n (by omega))
    intro d hl
    obtain ⟨d', e, l, s⟩ := this d hl
    refine ⟨d', by dsimp only; rw [loopN_succ]; exact e, l, fun i => ⟨fun ⟨k, hk, hr⟩ => (s i).1 ?_, (s i).2⟩⟩
    rcases Nat.lt_succ_iff_lt_or_eq.mp hk with h | rfl
    · exact .inl ⟨k, h, hr⟩
    · exact .inr hr

/-- A loop whose state has a second part that does not depend on the buffer. -/
theorem loopN_carry {δ τ : Type} {n : Nat} {F : Nat → δ × τ → C (δ × τ)} {G : Nat → δ → C δ} {tk : Nat → τ}
    (h : ∀ k d, k < n → F k (d, tk k) = (G k d >>= fun d' => .ok (d', tk (k + 1)))) (d : δ) :
    loopN n F (d, tk 0) = (loopN n G d >>= fun d' => .ok (d', tk n)) := by
  induction n with
  | zero => rfl
  | succ n ih =>
    rw [loopN_succ, ih (fun k d hk => h k d (by omega)), loopN_succ]
    cases loopN n G d with
    | error e => rfl
    | ok a => rw [bind_ok, bind_ok, bind_ok, h n a (by omega)]

namespace Dxt
open DevIL.Image

/-- Byte `i` of the block at offset `t`. -/
def at_ (comp : List UInt8) (t i : Nat) : Nat := (comp.getD (t + i) 0).toNat

theorem at_lt (comp : List UInt8) (t i : Nat) : at_ comp t i < 256 := UInt8.toNat_lt _

theorem rd_at {comp : List UInt8} {t i : Nat} (h : t + i < comp.length) : ∃ b, rd comp (t + i) = .ok b ∧ b.toNat = at_ comp t i :=
  ⟨comp[t + i], rd_of_lt h, by unfold at_; rw [List.getD_eq_getElem?_getD, List.getElem?_eq_getElem h]; rfl⟩

/-- The 16-bit number at offset `o`. -/
def w16 (β : Nat → Nat) (o : Nat) : Nat := β o + 256 * β (o + 1)
/-- The 24-bit number at offset `o`. -/
def w24 (β : Nat → Nat) (o : Nat) : Nat := β o + 256 * β (o + 1) + 65536 * β (o + 2)
/-- The 32-bit number at offset `o`. -/
def w32 (β : Nat → Nat) (o : Nat) : Nat := w16 β o + 65536 * w16 β (o + 2)

theorem word16_eq {comp : List UInt8} {t o : Nat} (h : t + o + 1 < comp.length) : word16 comp (t + o) = .ok (w16 (at_ comp t) o) := by
  obtain ⟨a, e1, h1⟩ := rd_at (comp := comp) (t := t) (i := o) (by omega)
  obtain ⟨b, e2, h2⟩ := rd_at (comp := comp) (t := t) (i := o + 1) (by omega)
  unfold word16 w16
  rw [e1, bind_ok, show t + o + 1 = t + (o + 1) by omega, e2, bind_ok, h1, h2]
  rfl

theorem word24_eq {comp : List UInt8} {t o : Nat} (h : t + o + 2 < comp.length) : word24 comp (t + o) = .ok (w24 (at_ comp t) o) := by
  obtain ⟨a, e1, h1⟩ := rd_at (comp := comp) (t := t) (i := o) (by omega)
  obtain ⟨b, e2, h2⟩ := rd_at (comp := comp) (t := t) (i := o + 1) (by omega)
  obtain ⟨c, e3, h3⟩ := rd_at (comp := comp) (t := t) (i := o + 2) (by omega)
  unfold word24 w24
  rw [e1, bind_ok, show t + o + 1 = t + (o + 1) by omega, e2, bind_ok, show t + o + 2 = t + (o + 2) by omega, e3, bind_ok, h1, h2, h3]
  rfl

theorem word32_eq {comp : List UInt8} {t o : Nat} (h : t + o + 3 < comp.length) : word32 comp (t + o) = .ok (w32 (at_ comp t) o) := by
  unfold word32 w32
  rw [word16_eq (by omega), bind_ok, show t + o + 2 = t + (o + 2) by omega, word16_eq (by omega), bind_ok]
  rfl

/-- The two bits of pixel `(i, j)` among the four bytes at `o`. -/
def sel (β : Nat → Nat) (o j i : Nat) : Nat := β (o + j) / 4 ^ i % 4

theorem sel_lt (β : Nat → Nat) (o j i : Nat) : sel β o j i < 4 := Nat.mod_lt _ (by decide)

theorem select_div (n k : Nat) : select n k = n / 4 ^ k % 4 := by
  unfold select
  rw [Nat.shiftRight_and_distrib, Nat.shiftLeft_shiftRight, Nat.shiftRight_eq_div_pow, show (3 : Nat) = 2 ^ 2 - 1 by rfl,
    Nat.and_two_pow_sub_one_eq_mod, Nat.mul_comm k 2, Nat.pow_mul]

theorem select_eq {β : Nat → Nat} (hβ : ∀ i, β i < 256) (o : Nat) {j i : Nat} (hj : j < 4) (hi : i < 4) :
    select (w32 β o) (4 * j + i) = sel β o j i := by
  rw [select_div]
  unfold sel w32 w16
  have h0 := hβ o
  have h1 := hβ (o + 1)
  have h2 := hβ (o + 2)
  have h3 := hβ (o + 2 + 1)
  obtain rfl | rfl | rfl | rfl : j = 0 ∨ j = 1 ∨ j = 2 ∨ j = 3 := by omega
  all_goals
    obtain rfl | rfl | rfl | rfl : i = 0 ∨ i = 1 ∨ i = 2 ∨ i = 3 := by omega
  all_goals
    simp only [Nat.reducePow, Nat.reduceMul, Nat.reduceAdd, Nat.add_zero, Nat.add_assoc]
    omega

/-- A component of a colour. -/
def Col.nth (c : Col) (k : Nat) : Nat := [c.r, c.g, c.b, c.a].getD k 0

/-- The colours of a DXT1 block. -/
def cols1 (β : Nat → Nat) : List Col :=
  let a := readColor (w16 β 0)
  let b := readColor (w16 β 2)
  if w16 β 0 > w16 β 2 then [a, b, third a b, fourth a b] else [a, b, middle a b, { fourth a b with a := 0 }]

/-- The colours of a DXT3 or DXT5 block. -/
def colsC (β : Nat → Nat) : List Col :=
  let a := readBytes (β 8) (β 9)
  let b := readBytes (β 10) (β 11)
  [a, b, third a b, fourth a b]

/-- The alpha of a pixel of a DXT3 block. -/
def al3 (β : Nat → Nat) (j i : Nat) : Nat := 17 * (β (2 * j + i / 2) / 16 ^ (i % 2) % 16)

/-- The alpha code of a pixel of a DXT5 block. -/
def code5 (β : Nat → Nat) (j i : Nat) : Nat := w24 β (2 + 3 * (j / 2)) / 8 ^ (4 * (j % 2) + i) % 8

/-- The alpha of a pixel of a DXT5 block. -/
def al5 (β : Nat → Nat) (j i : Nat) : Nat := (alphas (β 0) (β 1)).getD (code5 β j i) 0

/-- The value of component `c` of pixel `(i, j)` of a block. -/
def dec (fmt : Nat) (β : Nat → Nat) (j i c : Nat) : Nat :=
  if fmt = IL_DXT1 then ((cols1 β).getD (sel β 4 j i) ⟨0, 0, 0, 0⟩).nth c
  else if c = 3 then (if fmt = IL_DXT3 then al3 β j i else al5 β j i)
  else ((colsC β).getD (sel β 12 j i) ⟨0, 0, 0, 0⟩).nth c

/-- An image decoded into. -/
structure Rgba (m : Img) : Prop where
  bpp : m.bpp = 4
  bps : m.bps = m.width * 4
  plane : m.plane = m.width * 4 * m.height
  size : m.size = m.depth * m.height * m.width * 4
  fit : m.size < 4294967296

theorem Rgba.idx {m : Img} (h : Rgba m) {z y x c : Nat} (hz : z < m.depth) (hy : y < m.height) (hx : x < m.width) (hc : c < 4) :
    u32 (z * m.plane + y * m.bps + x * m.bpp + c) = pos m.width m.height 4 z y x c ∧ pos m.width m.height 4 z y x c < m.size := by
  have h1 := pos_lt (k := 4) (n := m.size) hz hy hx hc (by rw [h.size]; exact Nat.le_refl _)
  have h2 := h.fit
  rw [h.plane, h.bps, h.bpp, ← Manip.pos_eq, u32_of_lt (by omega)]
  exact ⟨rfl, h1⟩

theorem put_sets {m : Img} (h : Rgba m) {V : Nat → Option UInt8} {z y x c v : Nat} (hz : z < m.depth) (hy : y < m.height) (hx : x < m.width)
    (hc : c < 4) (hv : V (pos m.width m.height 4 z y x c) = some (UInt8.ofNat v)) :
    Sets (put m z y x c v) m.size V (fun i => i = pos m.width m.height 4 z y x c) := by
  obtain ⟨e, hl⟩ := h.idx hz hy hx hc
  intro d hd
  unfold put
  rw [e]
  exact Sets.wr hl hv d hd

theorem putCol_sets {m : Img} (h : Rgba m) {V : Nat → Option UInt8} {z y x : Nat} {col : Col} (withA : Bool) (hz : z < m.depth)
    (hy : y < m.height) (hx : x < m.width)
    (hv : ∀ c, c < (if withA then 4 else 3) → V (pos m.width m.height 4 z y x c) = some (UInt8.ofNat (col.nth c))) :
    Sets (putCol m withA z y x col) m.size V (fun i => ∃ c, c < (if withA then 4 else 3) ∧ i = pos m.width m.height 4 z y x c) := by
  have p0 := put_sets h (v := col.r) hz hy hx (by decide) (hv 0 (by split <;> decide))
  have p1 := put_sets h (v := col.g) hz hy hx (by decide) (hv 1 (by split <;> decide))
  have p2 := put_sets h (v := col.b) hz hy hx (by decide) (hv 2 (by split <;> decide))
  have p3 : Sets (fun d => if withA then put m z y x 3 col.a d else pure d) m.size V
      (fun i => withA = true ∧ i = pos m.width m.height 4 z y x 3) := by
    cases withA with
    | false => exact (Sets.skip m.size V).mono (fun i hi => Bool.noConfusion hi.1)
    | true => exact (put_sets h (v := col.a) hz hy hx (by decide) (hv 3 (by decide))).mono (fun i hi => hi.2)
  have := p0.seq (p1.seq (p2.seq p3))
  refine this.mono fun i ⟨c, hc, e⟩ => ?_
  subst e
  have h4 : c = 0 ∨ c = 1 ∨ c = 2 ∨ (withA = true ∧ c = 3) := by
    cases withA <;> simp at hc ⊢ <;> omega
  rcases h4 with rfl | rfl | rfl | ⟨h', rfl⟩
  · exact .inl rfl
  · exact .inr (.inl rfl)
  · exact .inr (.inr (.inl rfl))
  · exact .inr (.inr (.inr ⟨h', rfl⟩))

/-- The positions of components `c` with `P c` of the pixels of a block that are inside the image. -/
def Blk (m : Img) (z y x : Nat) (P : Nat → Prop) (idx : Nat) : Prop :=
  ∃ j i c, j < 4 ∧ i < 4 ∧ y + j < m.height ∧ x + i < m.width ∧ P c ∧ idx = pos m.width m.height 4 z (y + j) (x + i) c

theorem putCols_sets {m : Img} (h : Rgba m) {V : Nat → Option UInt8} {z y x o : Nat} {cols : List Col} {β : Nat → Nat} (hβ : ∀ i, β i < 256)
    (hcols : cols.length = 4) (withA : Bool) (hz : z < m.depth)
    (hv : ∀ j i c, j < 4 → i < 4 → y + j < m.height → x + i < m.width → c < (if withA then 4 else 3) →
      V (pos m.width m.height 4 z (y + j) (x + i) c) = some (UInt8.ofNat ((cols.getD (sel β o j i) ⟨0, 0, 0, 0⟩).nth c))) :
    Sets (putCols m withA cols (w32 β o) z y x) m.size V (Blk m z y x (fun c => c < (if withA then 4 else 3))) := by
  unfold putCols
  refine (Sets.loop (R := fun j idx => ∃ i, i < 4 ∧ (y + j < m.height ∧ x + i < m.width ∧ ∃ c, c < (if withA then 4 else 3) ∧
    idx = pos m.width m.height 4 z (y + j) (x + i) c)) fun j hj => Sets.loop fun i hi => ?_).mono
    (fun idx ⟨j, i, c, hj, hi, hy, hx, hc, e⟩ => ⟨j, hj, i, hi, hy, hx, c, hc, e⟩)
  rw [select_eq hβ o hj hi]
  have hr : rd cols (sel β o j i) = .ok (cols.getD (sel β o j i) ⟨0, 0, 0, 0⟩) := by
    have := sel_lt β o j i
    rw [rd_of_lt (by omega), List.getD_eq_getElem?_getD, List.getElem?_eq_getElem (by omega)]
    rfl
  rw [hr]
  simp only [bind_ok]
  by_cases hin : x + i < m.width ∧ y + j < m.height
  · simp only [if_pos hin]
    exact (putCol_sets h withA hz hin.2 hin.1 (fun c hc => hv j i c hj hi hin.2 hin.1 hc)).mono (fun idx hi => hi.2.2)
  · simp only [if_neg hin]
    exact (Sets.skip m.size V).mono (fun idx hi => hin ⟨hi.2.1, hi.1⟩)

theorem cols1_length (β : Nat → Nat) : (cols1 β).length = 4 := by unfold cols1; split <;> rfl

theorem block1_sets {m : Img} (h : Rgba m) {V : Nat → Option UInt8} {z y x t : Nat} {comp : List UInt8} (ht : t + 8 ≤ comp.length)
    (hz : z < m.depth)
    (hv : ∀ j i c, j < 4 → i < 4 → y + j < m.height → x + i < m.width → c < 4 →
      V (pos m.width m.height 4 z (y + j) (x + i) c) = some (UInt8.ofNat (dec IL_DXT1 (at_ comp t) j i c))) :
    Sets (block1 m comp t z y x) m.size V (Blk m z y x (· < 4)) := by
  have e0 : word16 comp t = .ok (w16 (at_ comp t) 0) := word16_eq (t := t) (o := 0) (by omega)
  unfold block1
  rw [e0, word16_eq (by omega), word32_eq (by omega)]
  simp only [bind_ok]
  exact putCols_sets h (β := at_ comp t) (at_lt comp t) (cols1_length _) true hz (fun j i c hj hi hy hx hc => by
    rw [hv j i c hj hi hy hx hc]; rfl)

theorem colours_sets {m : Img} (h : Rgba m) {V : Nat → Option UInt8} {z y x t : Nat} {comp : List UInt8} (ht : t + 16 ≤ comp.length)
    (hz : z < m.depth)
    (hv : ∀ j i c, j < 4 → i < 4 → y + j < m.height → x + i < m.width → c < 3 →
      V (pos m.width m.height 4 z (y + j) (x + i) c) =
        some (UInt8.ofNat (((colsC (at_ comp t)).getD (sel (at_ comp t) 12 j i) ⟨0, 0, 0, 0⟩).nth c))) :
    Sets (colours m comp (t + 8) z y x) m.size V (Blk m z y x (· < 3)) := by
  obtain ⟨a, e1, h1⟩ := rd_at (comp := comp) (t := t) (i := 8) (by omega)
  obtain ⟨b, e2, h2⟩ := rd_at (comp := comp) (t := t) (i := 9) (by omega)
  obtain ⟨c, e3, h3⟩ := rd_at (comp := comp) (t := t) (i := 10) (by omega)
  obtain ⟨e, e4, h4⟩ := rd_at (comp := comp) (t := t) (i := 11) (by omega)
  unfold colours
  simp only [Nat.add_assoc, Nat.reduceAdd]
  rw [e1, e2, e3, e4, word32_eq (by omega)]
  simp only [bind_ok, h1, h2, h3, h4]
  exact putCols_sets h (β := at_ comp t) (o := 12) (at_lt comp t) rfl false hz (fun j i c hj hi hy hx hc => hv j i c hj hi hy hx hc)

/-- The double store of a DXT3 alpha is one store. -/
theorem alpha3_store {m : Img} (h : Rgba m) {z y x w : Nat} (hz : z < m.depth) (hy : y < m.height) (hx : x < m.width) {d : List UInt8}
    (hd : d.length = m.size) :
    (do
      let d ← put m z y x 3 (w &&& 15) d
      let v ← rd d (u32 (z * m.plane + y * m.bps + x * m.bpp + 3))
      put m z y x 3 (v.toNat ||| v.toNat <<< 4) d) = put m z y x 3 (17 * (w % 16)) d := by
  obtain ⟨e, hl⟩ := h.idx hz hy hx (c := 3) (by decide)
  unfold put
  rw [e, wr_of_lt (by omega), bind_ok, rd_of_lt (by simp; omega), bind_ok, List.getElem_set_self, wr_of_lt (by simp; omega), List.set_set,
    wr_of_lt (by omega)]
  congr 2
  rw [show (15 : Nat) = 2 ^ 4 - 1 by rfl, Nat.and_two_pow_sub_one_eq_mod]
  have : w % 2 ^ 4 < 16 := Nat.mod_lt _ (by decide)
  rw [show w % 16 = w % 2 ^ 4 by rfl]
  generalize w % 2 ^ 4 = q at *
  have key : ∀ q : Fin 16, UInt8.ofNat ((UInt8.ofNat q).toNat ||| (UInt8.ofNat q).toNat <<< 4) = UInt8.ofNat (17 * q) := by decide
  exact key ⟨q, this⟩

theorem row3 {β : Nat → Nat} (hβ : ∀ i, β i < 256) (j : Nat) {i : Nat} (hi : i < 4) : 17 * (w16 β (2 * j) / 16 ^ i % 16) = al3 β j i := by
  unfold w16 al3
  have h0 := hβ (2 * j)
  have h1 := hβ (2 * j + 1)
  obtain rfl | rfl | rfl | rfl : i = 0 ∨ i = 1 ∨ i = 2 ∨ i = 3 := by omega
  all_goals
    simp only [Nat.reducePow, Nat.reduceMod, Nat.reduceDiv, Nat.add_zero]
    omega

theorem alpha3_sets {m : Img} (h : Rgba m) {V : Nat → Option UInt8} {z y x t : Nat} {comp : List UInt8} (ht : t + 16 ≤ comp.length)
    (hz : z < m.depth)
    (hv : ∀ j i, j < 4 → i < 4 → y + j < m.height → x + i < m.width →
      V (pos m.width m.height 4 z (y + j) (x + i) 3) = some (UInt8.ofNat (al3 (at_ comp t) j i))) :
    Sets (alpha3 m comp t z y x) m.size V (Blk m z y x (· = 3)) := by
  have inner : ∀ j, j < 4 → Sets (fun d => do
      let s ← loopN 4 (alpha3Step m z (y + j) x) (d, w16 (at_ comp t) (2 * j))
      pure s.1) m.size V (fun idx => ∃ i, i < 4 ∧ (y + j < m.height ∧ x + i < m.width ∧ idx = pos m.width m.height 4 z (y + j) (x + i) 3)) := by
    intro j hj d hd
    have hc := loopN_carry (n := 4) (F := alpha3Step m z (y + j) x) (tk := fun k => w16 (at_ comp t) (2 * j) / 16 ^ k)
      (G := fun i d => if x + i < m.width ∧ y + j < m.height then (do
        let d ← put m z (y + j) (x + i) 3 ((w16 (at_ comp t) (2 * j) / 16 ^ i) &&& 15) d
        let v ← rd d (u32 (z * m.plane + (y + j) * m.bps + (x + i) * m.bpp + 3))
        put m z (y + j) (x + i) 3 (v.toNat ||| v.toNat <<< 4) d) else pure d) (fun k d hk => by
          unfold alpha3Step
          simp only [Nat.shiftRight_eq_div_pow, Nat.div_div_eq_div_mul, Nat.reducePow, ← Nat.pow_succ, pure_eq_ok]) d
    simp only [Nat.pow_zero, Nat.div_one] at hc
    have hs := Sets.loop (n := 4) (N := m.size) (V := V)
      (body := fun i d => if x + i < m.width ∧ y + j < m.height then (do
        let d ← put m z (y + j) (x + i) 3 ((w16 (at_ comp t) (2 * j) / 16 ^ i) &&& 15) d
        let v ← rd d (u32 (z * m.plane + (y + j) * m.bps + (x + i) * m.bpp + 3))
        put m z (y + j) (x + i) 3 (v.toNat ||| v.toNat <<< 4) d) else pure d)
      (R := fun i idx => y + j < m.height ∧ x + i < m.width ∧ idx = pos m.width m.height 4 z (y + j) (x + i) 3) (fun i hi => by
        by_cases hin : x + i < m.width ∧ y + j < m.height
        · simp only [if_pos hin]
          intro d hd
          dsimp only
          rw [alpha3_store h hz hin.2 hin.1 hd]
          refine ((put_sets h hz hin.2 hin.1 (by decide) ?_).mono (fun idx hi => hi.2.2)) d hd
          rw [hv j i hj hi hin.2 hin.1, row3 (at_lt comp t) j hi]
        · simp only [if_neg hin]
          exact (Sets.skip m.size V).mono (fun idx hi => hin ⟨hi.2.1, hi.1⟩))
    obtain ⟨d', e, l, s⟩ := hs d hd
    refine ⟨d', ?_, l, s⟩
    dsimp only
    rw [hc]
    dsimp only at e
    rw [e]
    rfl
  unfold alpha3
  refine (Sets.loop (R := fun j idx => ∃ i, i < 4 ∧ (y + j < m.height ∧ x + i < m.width ∧ idx = pos m.width m.height 4 z (y + j) (x + i) 3))
    fun j hj => ?_).mono (fun idx ⟨j, i, c, hj, hi, hy, hx, hc, e⟩ => ⟨j, hj, i, hi, hy, hx, by rw [e, hc]⟩)
  rw [word16_eq (by omega)]
  exact inner j hj

theorem Blk.split {m : Img} {z y x idx : Nat} (h : Blk m z y x (· < 4) idx) : Blk m z y x (· < 3) idx ∨ Blk m z y x (· = 3) idx := by
  obtain ⟨j, i, c, hj, hi, hy, hx, hc, e⟩ := h
  by_cases h3 : c = 3
  · exact .inr ⟨j, i, c, hj, hi, hy, hx, h3, e⟩
  · exact .inl ⟨j, i, c, hj, hi, hy, hx, by omega, e⟩

theorem block3_sets {m : Img} (h : Rgba m) {V : Nat → Option UInt8} {z y x t : Nat} {comp : List UInt8} (ht : t + 16 ≤ comp.length)
    (hz : z < m.depth)
    (hv : ∀ j i c, j < 4 → i < 4 → y + j < m.height → x + i < m.width → c < 4 →
      V (pos m.width m.height 4 z (y + j) (x + i) c) = some (UInt8.ofNat (dec IL_DXT3 (at_ comp t) j i c))) :
    Sets (block3 m comp t z y x) m.size V (Blk m z y x (· < 4)) := by
  refine ((colours_sets h ht hz fun j i c hj hi hy hx hc => ?_).seq (alpha3_sets h ht hz fun j i hj hi hy hx => ?_)).mono (fun _ => Blk.split)
  · rw [hv j i c hj hi hy hx (by omega)]
    unfold dec
    rw [if_neg (by decide), if_neg (by omega)]
  · rw [hv j i 3 hj hi hy hx (by omega)]
    rfl

theorem alphas_length (a b : Nat) : (alphas a b).length = 8 := by unfold alphas; split <;> rfl

/-- Two rows of alphas. -/
theorem alpha5Rows_sets {m : Img} (h : Rgba m) {V : Nat → Option UInt8} {z y x bits : Nat} {as : List Nat} (has : as.length = 8)
    (hz : z < m.depth)
    (hv : ∀ j i, j < 2 → i < 4 → y + j < m.height → x + i < m.width →
      V (pos m.width m.height 4 z (y + j) (x + i) 3) = some (UInt8.ofNat (as.getD (bits / 8 ^ (4 * j + i) % 8) 0))) :
    Sets (alpha5Rows m as bits z y x) m.size V
      (fun idx => ∃ j, j < 2 ∧ ∃ i, i < 4 ∧ (y + j < m.height ∧ x + i < m.width ∧ idx = pos m.width m.height 4 z (y + j) (x + i) 3)) := by
  have hlow : ∀ w : Nat, w &&& 7 = w % 8 := fun w => by
    rw [show (7 : Nat) = 2 ^ 3 - 1 by rfl, Nat.and_two_pow_sub_one_eq_mod]
  have hrd : ∀ w : Nat, rd as (w &&& 7) = .ok (as.getD (w % 8) 0) := fun w => by
    have : w % 8 < 8 := Nat.mod_lt _ (by decide)
    rw [hlow, rd_of_lt (by omega), List.getD_eq_getElem?_getD, List.getElem?_eq_getElem (by omega)]
    rfl
  intro d hd
  have hin : ∀ j d, loopN 4 (alpha5Step m as z (y + j) x) (d, bits / 8 ^ (4 * j)) = (loopN 4 (fun i d =>
      if x + i < m.width ∧ y + j < m.height then put m z (y + j) (x + i) 3 (as.getD (bits / 8 ^ (4 * j + i) % 8) 0) d else pure d) d >>=
      fun d' => .ok (d', bits / 8 ^ (4 * (j + 1)))) := fun j d => by
    have := loopN_carry (n := 4) (F := alpha5Step m as z (y + j) x) (tk := fun k => bits / 8 ^ (4 * j + k))
      (G := fun i d => if x + i < m.width ∧ y + j < m.height then put m z (y + j) (x + i) 3 (as.getD (bits / 8 ^ (4 * j + i) % 8) 0) d
        else pure d) (fun k d hk => by
          unfold alpha5Step
          simp only [Nat.shiftRight_eq_div_pow, Nat.div_div_eq_div_mul, Nat.reducePow, ← Nat.pow_succ, pure_eq_ok, hrd, bind_ok]
          rfl) d
    exact this
  have hout := loopN_carry (n := 2) (F := fun j s => loopN 4 (alpha5Step m as z (y + j) x) s) (tk := fun j => bits / 8 ^ (4 * j))
    (G := fun j d => loopN 4 (fun i d =>
      if x + i < m.width ∧ y + j < m.height then put m z (y + j) (x + i) 3 (as.getD (bits / 8 ^ (4 * j + i) % 8) 0) d else pure d) d)
    (fun j d _ => hin j d) d
  have hs : Sets (fun d => loopN 2 (fun j d => loopN 4 (fun i d =>
      if x + i < m.width ∧ y + j < m.height then put m z (y + j) (x + i) 3 (as.getD (bits / 8 ^ (4 * j + i) % 8) 0) d else pure d) d) d)
      m.size V (fun idx => ∃ j, j < 2 ∧ ∃ i, i < 4 ∧ (y + j < m.height ∧ x + i < m.width ∧
        idx = pos m.width m.height 4 z (y + j) (x + i) 3)) := by
    refine Sets.loop fun j hj => Sets.loop fun i hi => ?_
    by_cases hin : x + i < m.width ∧ y + j < m.height
    · simp only [if_pos hin]
      exact (put_sets h hz hin.2 hin.1 (by decide) (hv j i hj hi hin.2 hin.1)).mono (fun idx hi => hi.2.2)
    · simp only [if_neg hin]
      exact (Sets.skip m.size V).mono (fun idx hi => hin ⟨hi.2.1, hi.1⟩)
  obtain ⟨d', e, l, s⟩ := hs d hd
  refine ⟨d', ?_, l, s⟩
  unfold alpha5Rows
  simp only [Nat.mul_zero, Nat.pow_zero, Nat.div_one] at hout
  dsimp only at e
  rw [hout, e]
  rfl

theorem block5_sets {m : Img} (h : Rgba m) {V : Nat → Option UInt8} {z y x t : Nat} {comp : List UInt8} (ht : t + 16 ≤ comp.length)
    (hz : z < m.depth)
    (hv : ∀ j i c, j < 4 → i < 4 → y + j < m.height → x + i < m.width → c < 4 →
      V (pos m.width m.height 4 z (y + j) (x + i) c) = some (UInt8.ofNat (dec IL_DXT5 (at_ comp t) j i c))) :
    Sets (block5 m comp t z y x) m.size V (Blk m z y x (· < 4)) := by
  obtain ⟨a, e1, h1⟩ := rd_at (comp := comp) (t := t) (i := 0) (by omega)
  obtain ⟨b, e2, h2⟩ := rd_at (comp := comp) (t := t) (i := 1) (by omega)
  rw [Nat.add_zero] at e1
  have s0 := colours_sets (V := V) (y := y) (x := x) h ht hz fun j i c hj hi hy hx hc => by
    rw [hv j i c hj hi hy hx (by omega)]
    unfold dec
    rw [if_neg (by decide), if_neg (by omega)]
  have s1 := alpha5Rows_sets (V := V) (y := y) (x := x) (bits := w24 (at_ comp t) 2) h (alphas_length (at_ comp t 0) (at_ comp t 1)) hz
    fun j i hj hi hy hx => by
      rw [hv j i 3 (by omega) hi hy hx (by omega)]
      show some (UInt8.ofNat (al5 (at_ comp t) j i)) = _
      unfold al5 code5
      rw [show j / 2 = 0 by omega, show j % 2 = j by omega]
  have s2 := alpha5Rows_sets (V := V) (y := y + 2) (x := x) (bits := w24 (at_ comp t) 5) h (alphas_length (at_ comp t 0) (at_ comp t 1)) hz
    fun j i hj hi hy hx => by
      rw [Nat.add_assoc, hv (2 + j) i 3 (by omega) hi (by omega) hx (by omega)]
      show some (UInt8.ofNat (al5 (at_ comp t) (2 + j) i)) = _
      unfold al5 code5
      rw [show (2 + j) / 2 = 1 by omega, show (2 + j) % 2 = j by omega]
  unfold block5
  rw [e1, e2]
  simp only [bind_ok, h1, h2]
  rw [word24_eq (by omega), word24_eq (by omega)]
  simp only [bind_ok]
  refine (s0.seq (s1.seq s2)).mono fun idx hb => ?_
  rcases hb.split with hb | ⟨j, i, c, hj, hi, hy, hx, hc, e⟩
  · exact .inl hb
  · subst hc
    by_cases h2 : j < 2
    · exact .inr (.inl ⟨j, h2, i, hi, hy, hx, e⟩)
    · refine .inr (.inr ⟨j - 2, by omega, i, hi, by omega, hx, ?_⟩)
      rw [e, show y + 2 + (j - 2) = y + j by omega]

/-- Bytes of a block. -/
def bsize (fmt : Nat) : Nat := if fmt = IL_DXT1 then 8 else 16

/-- The offset of the block of a pixel. -/
def boff (fmt w h z y x : Nat) : Nat := ((z * ((h + 3) / 4) + y / 4) * ((w + 3) / 4) + x / 4) * bsize fmt

theorem eachBlock_carry (m : Img) (size : Nat) (f : Nat → Nat → Nat → Nat → List UInt8 → C (List UInt8)) :
    (·.1) <$> eachBlock m size f = loopN m.depth (fun z d => loopN ((m.height + 3) / 4) (fun y d => loopN ((m.width + 3) / 4) (fun x d =>
      f (((z * ((m.height + 3) / 4) + y) * ((m.width + 3) / 4) + x) * size) z (4 * y) (4 * x) d) d) d) m.data := by
  have fs : ∀ {σ : Type} (n : Nat) (g : Nat → σ → C σ) (s : σ), forStep 0 n 4 g s = loopN ((n + 3) / 4) (fun k s => g (4 * k) s) s := by
    intro σ n g s
    rw [forStep_pos (by decide), show n - 0 + (4 - 1) = n + 3 by omega]
    exact loopN_congr (fun k t _ => by rw [Nat.zero_add, Nat.mul_comm])
  unfold eachBlock
  have h3 := loopN_carry (n := m.depth)
    (F := fun z s => forStep 0 m.height 4 (fun y s => forStep 0 m.width 4 (fun x s => do
      let d ← f s.2 z y x s.1
      pure (d, s.2 + size)) s) s)
    (tk := fun z => z * ((m.height + 3) / 4) * ((m.width + 3) / 4) * size)
    (G := fun z d => loopN ((m.height + 3) / 4) (fun y d => loopN ((m.width + 3) / 4) (fun x d =>
      f (((z * ((m.height + 3) / 4) + y) * ((m.width + 3) / 4) + x) * size) z (4 * y) (4 * x) d) d) d) (fun z d hz => by
        rw [fs]
        have h2 := loopN_carry (n := (m.height + 3) / 4)
          (F := fun y s => forStep 0 m.width 4 (fun x s => do
            let d ← f s.2 z (4 * y) x s.1
            pure (d, s.2 + size)) s)
          (tk := fun y => (z * ((m.height + 3) / 4) + y) * ((m.width + 3) / 4) * size)
          (G := fun y d => loopN ((m.width + 3) / 4) (fun x d =>
            f (((z * ((m.height + 3) / 4) + y) * ((m.width + 3) / 4) + x) * size) z (4 * y) (4 * x) d) d) (fun y d hy => by
              rw [fs]
              have h1 := loopN_carry (n := (m.width + 3) / 4)
                (F := fun x s => do
                  let d ← f s.2 z (4 * y) (4 * x) s.1
                  pure (d, s.2 + size))
                (tk := fun x => ((z * ((m.height + 3) / 4) + y) * ((m.width + 3) / 4) + x) * size)
                (G := fun x d => f (((z * ((m.height + 3) / 4) + y) * ((m.width + 3) / 4) + x) * size) z (4 * y) (4 * x) d)
                (fun x d hx => by
                  simp only [pure_eq_ok]
                  rw [← Nat.add_one_mul, Nat.add_assoc]) d
              simp only [Nat.add_zero] at h1
              rw [h1]
              congr 1
              funext d'
              congr 2
              rw [← Nat.add_assoc, Nat.add_one_mul]) d
        simp only [Nat.add_zero] at h2
        rw [h2]
        congr 1
        funext d'
        congr 2
        rw [Nat.add_one_mul]) m.data
  simp only [Nat.zero_mul] at h3
  rw [h3]
  cases loopN m.depth _ m.data <;> rfl

/-- Every pixel gets the value its block determines. -/
theorem eachBlock_spec {m : Img} (h : Rgba m) (hl : m.data.length = m.size) {comp : List UInt8} {fmt : Nat}
    {f : Nat → Nat → Nat → Nat → List UInt8 → C (List UInt8)}
    (hc : m.depth * ((m.height + 3) / 4) * ((m.width + 3) / 4) * bsize fmt ≤ comp.length)
    (hf : ∀ (V : Nat → Option UInt8) t z y x, t + bsize fmt ≤ comp.length → z < m.depth →
      (∀ j i c, j < 4 → i < 4 → y + j < m.height → x + i < m.width → c < 4 →
        V (pos m.width m.height 4 z (y + j) (x + i) c) = some (UInt8.ofNat (dec fmt (at_ comp t) j i c))) →
      Sets (f t z y x) m.size V (Blk m z y x (· < 4))) :
    ∃ d', (·.1) <$> eachBlock m (bsize fmt) f = .ok d' ∧ d'.length = m.size ∧ ∀ z y x c, z < m.depth → y < m.height → x < m.width → c < 4 →
      d'[pos m.width m.height 4 z y x c]? =
        some (UInt8.ofNat (dec fmt (at_ comp (boff fmt m.width m.height z y x)) (y % 4) (x % 4) c)) := by
  let V : Nat → Option UInt8 := fun i =>
    let c := i % 4
    let x := i / 4 % m.width
    let y := i / 4 / m.width % m.height
    let z := i / 4 / m.width / m.height
    some (UInt8.ofNat (dec fmt (at_ comp (boff fmt m.width m.height z y x)) (y % 4) (x % 4) c))
  have hV : ∀ z y x c, y < m.height → x < m.width → c < 4 → V (pos m.width m.height 4 z y x c) =
      some (UInt8.ofNat (dec fmt (at_ comp (boff fmt m.width m.height z y x)) (y % 4) (x % 4) c)) := by
    intro z y x c hy hx hc
    simp only [V, pos]
    rw [idx_mod hc, idx_div hc, idx_mod hx, idx_div hx, idx_mod hy, idx_div hy]
  rw [eachBlock_carry]
  have key : Sets (fun d => loopN m.depth (fun z d => loopN ((m.height + 3) / 4) (fun y d => loopN ((m.width + 3) / 4) (fun x d =>
      f (((z * ((m.height + 3) / 4) + y) * ((m.width + 3) / 4) + x) * bsize fmt) z (4 * y) (4 * x) d) d) d) d) m.size V
      (fun i => ∃ z, z < m.depth ∧ ∃ y, y < (m.height + 3) / 4 ∧ ∃ x, x < (m.width + 3) / 4 ∧ Blk m z (4 * y) (4 * x) (· < 4) i) := by
    refine Sets.loop fun z hz => Sets.loop fun y hy => Sets.loop fun x hx => ?_
    refine hf V _ z (4 * y) (4 * x) ?_ hz ?_
    · have h1 := idx_lt (k := (m.height + 3) / 4) hz hy
      have h2 := idx_lt (k := (m.width + 3) / 4) h1 hx
      have h3 := Nat.mul_le_mul_right (bsize fmt) (show ((z * ((m.height + 3) / 4) + y) * ((m.width + 3) / 4) + x) + 1 ≤ _ from h2)
      rw [Nat.add_one_mul] at h3
      omega
    · intro j i c hj hi hy' hx' hc'
      rw [hV z _ _ c hy' hx' hc']
      unfold boff
      rw [show (4 * y + j) / 4 = y by omega, show (4 * x + i) / 4 = x by omega, show (4 * y + j) % 4 = j by omega,
        show (4 * x + i) % 4 = i by omega]
  obtain ⟨d', e, l, s⟩ := key m.data hl
  refine ⟨d', e, l, fun z y x c hz hy hx hc' => ?_⟩
  rw [← hV z y x c hy hx hc']
  refine (s _).1 ⟨z, hz, y / 4, by omega, x / 4, by omega, y % 4, x % 4, c, Nat.mod_lt _ (by decide), Nat.mod_lt _ (by decide), by omega,
    by omega, hc', ?_⟩
  rw [show 4 * (y / 4) + y % 4 = y by omega, show 4 * (x / 4) + x % 4 = x by omega]

/-- Decompressing stores the values of the blocks. -/
theorem decompress {m : Img} (h : Rgba m) (hl : m.data.length = m.size) {comp : List UInt8} {fmt : Nat}
    (hfmt : fmt = IL_DXT1 ∨ fmt = IL_DXT3 ∨ fmt = IL_DXT5)
    (hc : m.depth * ((m.height + 3) / 4) * ((m.width + 3) / 4) * bsize fmt ≤ comp.length) :
    ∃ d', DdsDecompress m fmt comp = .ok d' ∧ d'.length = m.size ∧ ∀ z y x c, z < m.depth → y < m.height → x < m.width → c < 4 →
      d'[pos m.width m.height 4 z y x c]? =
        some (UInt8.ofNat (dec fmt (at_ comp (boff fmt m.width m.height z y x)) (y % 4) (x % 4) c)) := by
  rcases hfmt with rfl | rfl | rfl
  · exact eachBlock_spec h hl (fmt := IL_DXT1) hc (fun V t z y x ht hz hv => block1_sets h ht hz hv)
  · exact eachBlock_spec h hl (fmt := IL_DXT3) hc (fun V t z y x ht hz hv => block3_sets h ht hz hv)
  · exact eachBlock_spec h hl (fmt := IL_DXT5) hc (fun V t z y x ht hz hv => block5_sets h ht hz hv)

end Dxt
end DevIL
