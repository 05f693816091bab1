import Verif.Model.Filter
import Verif.Spec.Filter
import Verif.Hoare
/-! Lemmas about block averages. -/
set_option autoImplicit false
namespace DevIL.Filter
open DevIL.FilterSpec Utility

/-- A step that adds the numbers `l` to a sum and their number to a count, in 32 bits. -/
def Adds (f : Nat × Nat → C (Nat × Nat)) (l : List Nat) : Prop :=
  ∀ A B, f (u32 A, u32 B) = .ok (u32 (A + l.sum), u32 (B + l.length))

theorem u32_add (a b : Nat) : u32 (u32 a + b) = u32 (a + b) := by unfold u32; omega

theorem Adds.one {g : C Nat} {v : Nat} (h : g = .ok v) : Adds (fun a => do let v ← g; pure (u32 (a.1 + v), u32 (a.2 + 1))) [v] := by
  intro A B
  simp only [h, bind_ok, pure_eq_ok, List.sum_cons, List.sum_nil, List.length_cons, List.length_nil, u32_add, Nat.add_zero, Nat.zero_add]

theorem Adds.loop {n : Nat} {f : Nat → Nat × Nat → C (Nat × Nat)} {l : Nat → List Nat} (h : ∀ k, k < n → Adds (f k) (l k)) :
    Adds (fun a => loopN n f a) ((List.range n).flatMap l) := by
  induction n with
  | zero => intro A B; simp
  | succ n ih =>
    intro A B
    have h1 := ih (fun k hk => h k (by omega)) A B
    have h2 := h n (by omega)
    simp only [loopN_succ, h1, bind_ok]
    rw [h2, List.range_succ, List.flatMap_append, List.sum_append, List.length_append]
    simp [Nat.add_assoc]

theorem Adds.start {f : Nat × Nat → C (Nat × Nat)} {l : List Nat} (h : Adds f l) : f (0, 0) = .ok (u32 l.sum, u32 l.length) := by
  have := h 0 0
  simpa [u32] using this

theorem flatMap_len {α β : Type} {l : List α} {f : α → List β} {k : Nat} (h : ∀ a ∈ l, (f a).length = k) : (l.flatMap f).length = l.length * k := by
  induction l with
  | nil => simp
  | cons a l ih =>
    rw [List.flatMap_cons, List.length_append, h a (by simp), ih (fun b hb => h b (by simp [hb])), List.length_cons, Nat.add_mul, Nat.one_mul, Nat.add_comm]

theorem _root_.DevIL.FilterSpec.Bytes.len {m : Img} (h : Bytes m) : m.data.length = m.depth * m.height * m.width * m.bpp := by
  rw [h.consistent.len, h.bpc, Nat.mul_one]

theorem _root_.DevIL.FilterSpec.Bytes.px {m : Img} (h : Bytes m) (x y z c : Nat) : m.px x y z c = m.data[pos m.width m.height m.bpp z y x c]? := by
  unfold Img.px pos
  rw [h.bpc, Nat.mul_one]

theorem _root_.DevIL.FilterSpec.Bytes.size_eq {m : Img} (h : Bytes m) : m.size = m.depth * m.height * m.width * m.bpp := by
  rw [← h.len, h.consistent.2.2.2]

theorem _root_.DevIL.FilterSpec.Bytes.at {m : Img} (h : Bytes m) {x y z c : Nat} (hx : x < m.width) (hy : y < m.height) (hz : z < m.depth) (hc : c < m.bpp) :
    at_ m m.bps x y z c = pos m.width m.height m.bpp z y x c := by
  have hlt := pos_lt hz hy hx hc (Nat.le_of_eq h.size_eq.symm)
  have hs := h.size
  obtain ⟨e1, e2, -, -⟩ := h.consistent
  unfold at_
  rw [e2, e1, h.bpc]
  have e : z * (m.width * m.bpp * 1 * m.height) + y * (m.width * m.bpp * 1) + x * m.bpp + c = pos m.width m.height m.bpp z y x c := by
    unfold pos; grind
  rw [e]
  exact u32_of_lt (by omega)

theorem px_some {m : Img} (h : Bytes m) {x y z c : Nat} (hx : x < m.width) (hy : y < m.height) (hz : z < m.depth) (hc : c < m.bpp) :
    ∃ v, m.px x y z c = some v ∧ m.data[pos m.width m.height m.bpp z y x c]? = some v := by
  have hlt := pos_lt hz hy hx hc (Nat.le_of_eq h.len.symm)
  exact ⟨_, by rw [h.px, List.getElem?_eq_getElem hlt], List.getElem?_eq_getElem hlt⟩

/-- The byte `i` belongs to the component `c` of the block `xb, yb, zb`. -/
def Cell (m : Img) (p zb yb xb c i : Nat) : Prop :=
  ∃ z y x, z < m.depth ∧ y < m.height ∧ x < m.width ∧ z / p = zb ∧ y / p = yb ∧ x / p = xb ∧ i = pos m.width m.height m.bpp z y x c

theorem div_block {p b i : Nat} (h : i < p) : (b * p + i) / p = b := by
  rw [Nat.mul_comm, Nat.mul_add_div (by omega), Nat.div_eq_of_lt h, Nat.add_zero]

theorem span_block {n p b i : Nat} (h : i < min p (n - b * p)) : span n p (b * p + i) = (List.range (min p (n - b * p))).map (b * p + ·) := by
  unfold span
  rw [div_block (by omega), List.range'_eq_map_range]

theorem range_flatMap {α : Type} (n b : Nat) (f : Nat → List α) : ((List.range n).map (b + ·)).flatMap f = (List.range n).flatMap (fun k => f (b + k)) := by
  rw [List.flatMap_map]

/-- The values of a block, from its corner. -/
def vals (m : Img) (p zb yb xb c : Nat) : List Nat :=
  (List.range (min p (m.depth - zb * p))).flatMap fun k => (List.range (min p (m.height - yb * p))).flatMap fun j =>
    (List.range (min p (m.width - xb * p))).flatMap fun i => (m.px (xb * p + i) (yb * p + j) (zb * p + k) c).toList.map UInt8.toNat

theorem span_of {n p v : Nat} : span n p v = (List.range (min p (n - v / p * p))).map (v / p * p + ·) := by
  unfold span
  rw [List.range'_eq_map_range]

theorem blockVals_eq (m : Img) (p x y z c : Nat) : blockVals m p x y z c = vals m p (z / p) (y / p) (x / p) c := by
  unfold blockVals vals
  simp only [span_of, range_flatMap]

theorem vals_len {m : Img} (h : Bytes m) {p zb yb xb c : Nat} (hc : c < m.bpp) :
    (vals m p zb yb xb c).length = min p (m.depth - zb * p) * (min p (m.height - yb * p) * min p (m.width - xb * p)) := by
  unfold vals
  rw [flatMap_len (k := min p (m.height - yb * p) * min p (m.width - xb * p)), List.length_range]
  intro k hk
  rw [flatMap_len (k := min p (m.width - xb * p)), List.length_range]
  intro j hj
  rw [flatMap_len (k := 1), List.length_range, Nat.mul_one]
  intro i hi
  rw [List.mem_range] at hi hj hk
  obtain ⟨v, e, -⟩ := px_some h (x := xb * p + i) (y := yb * p + j) (z := zb * p + k) (by omega) (by omega) (by omega) hc
  rw [e]; rfl

theorem blockSum_ok {m : Img} (h : Bytes m) {p zb yb xb c : Nat} (hc : c < m.bpp) {d : List UInt8}
    (hd : ∀ i, Cell m p zb yb xb c i → d[i]? = m.data[i]?) :
    blockSum (fun i => do let v ← rd d i; pure v.toNat) m m.bps p (xb * p) (yb * p) (zb * p) c =
      .ok (u32 (vals m p zb yb xb c).sum, u32 (vals m p zb yb xb c).length) := by
  unfold blockSum within
  refine Adds.start (f := fun a => loopN (min p (m.depth - zb * p)) _ a) (Adds.loop (fun k hk => Adds.loop (fun j hj => Adds.loop (fun i hi => ?_))))
  obtain ⟨v, e1, e2⟩ := px_some h (x := xb * p + i) (y := yb * p + j) (z := zb * p + k) (by omega) (by omega) (by omega) hc
  rw [e1]
  refine Adds.one ?_
  rw [h.at (by omega) (by omega) (by omega) hc]
  dsimp only
  rw [rd_of_some (v := v)]
  · rfl
  · rw [hd _ ⟨zb * p + k, yb * p + j, xb * p + i, by omega, by omega, by omega, div_block (by omega), div_block (by omega), div_block (by omega), rfl⟩, e2]


/-- The byte `i` belongs to the component `c` of the block, and the region contains its pixel. -/
def Hit (m : Img) (mask : Option (List UInt8)) (p zb yb xb c i : Nat) : Prop :=
  ∃ z y x, z < m.depth ∧ y < m.height ∧ x < m.width ∧ z / p = zb ∧ y / p = yb ∧ x / p = xb ∧ i = pos m.width m.height m.bpp z y x c ∧
    selected mask m.width x y

theorem inRegion_ok {mask : Option (List UInt8)} {w h x y : Nat} (hm : ∀ r, mask = some r → r.length = w * h) (hx : x < w) (hy : y < h) :
    ∃ b, Colour.inRegion mask (y * w + x) = .ok b ∧ (b = true ↔ selected mask w x y) := by
  unfold Colour.inRegion selected
  cases mask with
  | none => exact ⟨true, rfl, by simp⟩
  | some r =>
    have hl := hm r rfl
    have hlt : y * w + x < r.length := by rw [hl, Nat.mul_comm w h]; exact add_mul_lt hy hx
    refine ⟨r[y * w + x] != 0, ?_, ?_⟩
    · simp only [rd_of_lt hlt, bind_ok]; rfl
    · simp only [List.getElem?_eq_getElem hlt]
      constructor
      · intro h; exact ⟨_, rfl, by simpa using h⟩
      · rintro ⟨v, e, hv⟩; cases e; simpa using hv

theorem blockPut_upd {m : Img} (h : Bytes m) {mask : Option (List UInt8)} (hmask : ∀ r, mask = some r → r.length = m.width * m.height)
    {p zb yb xb c total : Nat} (hp : 0 < p) (hc : c < m.bpp) {v : Nat → Option UInt8} (hv : ∀ i, Hit m mask p zb yb xb c i → v i = some (UInt8.ofNat total)) :
    Upd (fun d => blockPut m mask p (xb * p) (yb * p) (zb * p) c total d) m.data (fun _ => False) (Hit m mask p zb yb xb c) v := by
  unfold blockPut within
  have key : Upd (fun d => loopN (min p (m.depth - zb * p)) (fun k d => loopN (min p (m.height - yb * p)) (fun j d => loopN (min p (m.width - xb * p)) (fun i d => do
      let r ← Colour.inRegion mask (u32 ((yb * p + j) * m.width + (xb * p + i)))
      if r then wr d (at_ m m.bps (xb * p + i) (yb * p + j) (zb * p + k) c) (UInt8.ofNat total) else pure d) d) d) d) m.data (fun _ => False)
      (fun q => ∃ k, k < min p (m.depth - zb * p) ∧ ∃ j, j < min p (m.height - yb * p) ∧ ∃ i, i < min p (m.width - xb * p) ∧
        (q = pos m.width m.height m.bpp (zb * p + k) (yb * p + j) (xb * p + i) c ∧ selected mask m.width (xb * p + i) (yb * p + j))) v := by
    refine Upd.loopW (fun k hk => Upd.loopW (fun j hj => Upd.loopW (fun i hi => ?_)))
    have hx : xb * p + i < m.width := by omega
    have hy : yb * p + j < m.height := by omega
    have hz : zb * p + k < m.depth := by omega
    obtain ⟨b, e, hb⟩ := inRegion_ok hmask hx hy
    have hu : u32 ((yb * p + j) * m.width + (xb * p + i)) = (yb * p + j) * m.width + (xb * p + i) := by
      refine u32_of_lt ?_
      have h1 := add_mul_lt hy hx
      have h2 := h.size
      have h3 : m.height * m.width ≤ m.size := by
        rw [h.size_eq]
        calc m.height * m.width = 1 * (m.height * m.width) * 1 := by omega
          _ ≤ m.depth * (m.height * m.width) * m.bpp := Nat.mul_le_mul (Nat.mul_le_mul h.depth (Nat.le_refl _)) h.bpp
          _ = _ := by grind
      omega
    rw [hu, e, h.at hx hy hz hc]
    have hlt := pos_lt hz hy hx hc (Nat.le_of_eq h.len.symm)
    simp only [bind_ok]
    cases b with
    | true =>
      have hs := hb.mp rfl
      refine (Upd.wr (x := UInt8.ofNat total) hlt (hv _ ⟨_, _, _, hz, hy, hx, div_block (by omega), div_block (by omega), div_block (by omega), rfl, hs⟩)).congr
        (fun _ _ => rfl) (fun _ h => h) (fun q _ => ⟨fun e => ⟨e, hs⟩, fun e => e.1⟩) (fun _ _ _ => rfl)
    | false =>
      have hs : ¬ selected mask m.width (xb * p + i) (yb * p + j) := fun hs => by have := hb.mpr hs; cases this
      exact (Upd.skip m.data v).congr (fun _ _ => rfl) (fun _ h => h) (fun q _ => ⟨False.elim, fun e => hs e.2⟩) (fun _ _ _ => rfl)
  refine key.congr (fun _ _ => rfl) (fun _ h => h) (fun q _ => ?_) (fun _ _ _ => rfl)
  constructor
  · rintro ⟨k, hk, j, hj, i, hi, e, hs⟩
    exact ⟨_, _, _, by omega, by omega, by omega, div_block (by omega), div_block (by omega), div_block (by omega), e, hs⟩
  · rintro ⟨z, y, x, hz, hy, hx, ez, ey, ex, e, hs⟩
    have dz := Nat.div_add_mod z p
    have dy := Nat.div_add_mod y p
    have dx := Nat.div_add_mod x p
    have mz := Nat.mod_lt z hp
    have my := Nat.mod_lt y hp
    have mx := Nat.mod_lt x hp
    rw [ez, Nat.mul_comm] at dz
    rw [ey, Nat.mul_comm] at dy
    rw [ex, Nat.mul_comm] at dx
    refine ⟨z % p, by omega, y % p, by omega, x % p, by omega, ?_⟩
    rw [dz, dy, dx]
    exact ⟨e, hs⟩

/-- What the code writes for the block of a byte. -/
def blockByte (m : Img) (p zb yb xb c : Nat) : UInt8 :=
  UInt8.ofNat (u32 (vals m p zb yb xb c).sum / u32 (vals m p zb yb xb c).length)

theorem Hit.cell {m : Img} {mask : Option (List UInt8)} {p zb yb xb c i : Nat} (h : Hit m mask p zb yb xb c i) : Cell m p zb yb xb c i := by
  obtain ⟨z, y, x, a, b, c, d, e, f, g, -⟩ := h
  exact ⟨z, y, x, a, b, c, d, e, f, g⟩

theorem Cell.inj {m : Img} {p zb yb xb c zb' yb' xb' c' i : Nat} (h : Cell m p zb yb xb c i) (h' : Cell m p zb' yb' xb' c' i) (hc : c < m.bpp)
    (hc' : c' < m.bpp) : zb = zb' ∧ yb = yb' ∧ xb = xb' ∧ c = c' := by
  obtain ⟨z, y, x, hz, hy, hx, rfl, rfl, rfl, e⟩ := h
  obtain ⟨z', y', x', hz', hy', hx', rfl, rfl, rfl, e'⟩ := h'
  obtain ⟨rfl, rfl, rfl, rfl⟩ := pos_inj hy hx hc hy' hx' hc' (e.symm.trans e')
  exact ⟨rfl, rfl, rfl, rfl⟩

theorem block_upd {m : Img} (h : Bytes m) {mask : Option (List UInt8)} (hmask : ∀ r, mask = some r → r.length = m.width * m.height)
    {p zb yb xb c : Nat} (hp : 0 < p) (hc : c < m.bpp) {v : Nat → Option UInt8} (hv : ∀ i, Hit m mask p zb yb xb c i → v i = some (blockByte m p zb yb xb c)) :
    Upd (fun d => do
      let (total, tested) ← blockSum (fun i => do let v ← rd d i; pure v.toNat) m m.bps p (xb * p) (yb * p) (zb * p) c
      blockPut m mask p (xb * p) (yb * p) (zb * p) c (total / tested) d) m.data (Cell m p zb yb xb c) (Hit m mask p zb yb xb c) v := by
  intro d hl hu
  have := blockPut_upd h hmask hp hc (total := u32 (vals m p zb yb xb c).sum / u32 (vals m p zb yb xb c).length) hv d hl (fun _ h => h.elim)
  simp only [blockSum_ok h hc hu, bind_ok]
  exact this

theorem steps_eq {σ : Type} {stop p : Nat} {f : Nat → σ → C σ} {s : σ} (hp : 0 < p) (hs : stop ≤ 2147483648) :
    steps stop p f s = loopN ((stop + (p - 1)) / p) (fun k => f (k * p)) s := by
  unfold steps forStep
  rw [if_pos hs, if_neg (by omega)]
  simp only [Nat.zero_add, Nat.sub_zero]

theorem dims_le {m : Img} (h : Bytes m) : m.width ≤ m.size ∧ m.height ≤ m.size ∧ m.depth ≤ m.size := by
  rw [h.size_eq]
  obtain ⟨-, -, hw, hh, hd, hb, -⟩ := h
  have t : ∀ a b : Nat, 0 < b → a ≤ a * b := fun a b hb => Nat.le_mul_of_pos_right a hb
  have t' : ∀ a b : Nat, 0 < a → b ≤ a * b := fun a b ha => Nat.le_mul_of_pos_left b ha
  refine ⟨?_, ?_, ?_⟩
  · exact Nat.le_trans (t' _ _ (Nat.mul_pos hd hh)) (t _ _ hb)
  · exact Nat.le_trans (t' _ _ hd) (Nat.le_trans (t _ _ hw) (t _ _ hb))
  · exact Nat.le_trans (t _ _ hh) (Nat.le_trans (t _ _ hw) (t _ _ hb))

theorem div_lt_blocks {a n p : Nat} (hp : 0 < p) (h : a < n) : a / p < (n + (p - 1)) / p := by
  rw [Nat.div_lt_iff_lt_mul hp]
  have h1 := Nat.div_add_mod (n + (p - 1)) p
  have h2 := Nat.mod_lt (n + (p - 1)) hp
  rw [Nat.mul_comm] at h1
  omega

theorem pixelBytes_ok {m : Img} (h : Bytes m) {mask : Option (List UInt8)} (hmask : ∀ r, mask = some r → r.length = m.width * m.height)
    {p : Nat} (hp : 0 < p) : ∃ d : List UInt8, pixelBytes m mask p m.data = .ok d ∧ d.length = m.data.length ∧
      ∀ z y x c, z < m.depth → y < m.height → x < m.width → c < m.bpp →
        (selected mask m.width x y → d[pos m.width m.height m.bpp z y x c]? = some (blockByte m p (z / p) (y / p) (x / p) c)) ∧
        (¬ selected mask m.width x y → d[pos m.width m.height m.bpp z y x c]? = m.data[pos m.width m.height m.bpp z y x c]?) := by
  have hs := h.size
  obtain ⟨d1, d2, d3⟩ := dims_le h
  let v : Nat → Option UInt8 := fun i => some (blockByte m p (i / m.bpp / m.width / m.height / p) (i / m.bpp / m.width % m.height / p) (i / m.bpp % m.width / p) (i % m.bpp))
  have hv : ∀ zb yb xb c i, c < m.bpp → Hit m mask p zb yb xb c i → v i = some (blockByte m p zb yb xb c) := by
    rintro zb yb xb c i hc ⟨z, y, x, hz, hy, hx, rfl, rfl, rfl, rfl, -⟩
    have e1 : pos m.width m.height m.bpp z y x c / m.bpp = (z * m.height + y) * m.width + x := div_block hc
    have e2 : pos m.width m.height m.bpp z y x c % m.bpp = c := by
      unfold pos; rw [Nat.mul_add_mod_of_lt hc]
    have e3 : ((z * m.height + y) * m.width + x) / m.width = z * m.height + y := div_block hx
    have e4 : ((z * m.height + y) * m.width + x) % m.width = x := Nat.mul_add_mod_of_lt hx
    show some (blockByte _ _ _ _ _ _) = _
    rw [e1, e2, e3, e4, div_block hy, Nat.mul_add_mod_of_lt hy]
  have key : Upd (fun d => pixelBytes m mask p d) m.data
      (fun i => ∃ zb, zb < (m.depth + (p - 1)) / p ∧ ∃ yb, yb < (m.height + (p - 1)) / p ∧ ∃ xb, xb < (m.width + (p - 1)) / p ∧ ∃ c, c < m.bpp ∧ Cell m p zb yb xb c i)
      (fun i => ∃ zb, zb < (m.depth + (p - 1)) / p ∧ ∃ yb, yb < (m.height + (p - 1)) / p ∧ ∃ xb, xb < (m.width + (p - 1)) / p ∧ ∃ c, c < m.bpp ∧ Hit m mask p zb yb xb c i)
      v := by
    unfold pixelBytes
    simp only [steps_eq hp (show m.depth ≤ 2147483648 by omega), steps_eq hp (show m.height ≤ 2147483648 by omega), steps_eq hp (show m.width ≤ 2147483648 by omega)]
    refine Upd.loop (fun zb hzb => Upd.loop (fun yb hyb => Upd.loop (fun xb hxb => Upd.loop (fun c hc => block_upd h hmask hp hc (fun i => hv _ _ _ _ i hc)) ?_) ?_) ?_) ?_
    · intro j k i hjk hk hi hu hr
      have := (Cell.inj hu hr.cell hk (by omega)).2.2.2
      omega
    · rintro j k i hjk hk hi ⟨c, hc, hu⟩ ⟨c', hc', hr⟩
      have := (Cell.inj hu hr.cell hc hc').2.2.1
      omega
    · rintro j k i hjk hk hi ⟨xb, hxb, c, hc, hu⟩ ⟨xb', hxb', c', hc', hr⟩
      have := (Cell.inj hu hr.cell hc hc').2.1
      omega
    · rintro j k i hjk hk hi ⟨yb, hyb, xb, hxb, c, hc, hu⟩ ⟨yb', hyb', xb', hxb', c', hc', hr⟩
      have := (Cell.inj hu hr.cell hc hc').1
      omega
  obtain ⟨d, e, l, s⟩ := key m.data rfl (fun _ _ => rfl)
  refine ⟨d, e, l, fun z y x c hz hy hx hc => ?_⟩
  have hlt := pos_lt hz hy hx hc (Nat.le_of_eq h.len.symm)
  constructor
  · intro hsel
    have hit : Hit m mask p (z / p) (y / p) (x / p) c (pos m.width m.height m.bpp z y x c) := ⟨z, y, x, hz, hy, hx, rfl, rfl, rfl, rfl, hsel⟩
    rw [(s _ hlt).1 ⟨_, div_lt_blocks hp hz, _, div_lt_blocks hp hy, _, div_lt_blocks hp hx, c, hc, hit⟩]
    exact hv _ _ _ _ _ hc hit
  · intro hsel
    refine (s _ hlt).2 ?_
    rintro ⟨zb, -, yb, -, xb, -, c', hc', z', y', x', hz', hy', hx', -, -, -, e', hs'⟩
    obtain ⟨rfl, rfl, rfl, rfl⟩ := pos_inj hy hx hc hy' hx' hc' e'
    exact hsel hs'

end DevIL.Filter
