import Verif.Model.Manip
import Verif.Props.Utility
/-! Lemmas about flipping and mirroring. -/
set_option autoImplicit false
namespace DevIL.Manip
open Utility

theorem swapRegions_get {b : List UInt8} {a c n : Nat} (ha : a + n ≤ b.length) (hc : c + n ≤ b.length)
    (hd : a + n ≤ c ∨ c + n ≤ a) :
    ∃ b' : List UInt8, swapRegions b a c n = .ok b' ∧ b'.length = b.length ∧
      ∀ i : Nat, b'[i]? = if a ≤ i ∧ i < a + n then b[c + (i - a)]? else if c ≤ i ∧ i < c + n then b[a + (i - c)]? else b[i]? := by
  have l1 : ((b.drop a).take n).length = n := by simp; omega
  have l2 : ((b.drop c).take n).length = n := by simp; omega
  have hs := C63_memswap ((b.drop a).take n) ((b.drop c).take n) n (by omega) (by omega)
  have n1 : ((b.drop a).take n).drop n = [] := List.drop_eq_nil_of_le (by omega)
  have n2 : ((b.drop c).take n).drop n = [] := List.drop_eq_nil_of_le (by omega)
  have t1 : ((b.drop a).take n).take n ++ ((b.drop c).take n).drop n = (b.drop a).take n := by
    rw [n2, List.append_nil, List.take_take]; simp
  have t2 : ((b.drop c).take n).take n ++ ((b.drop a).take n).drop n = (b.drop c).take n := by
    rw [n1, List.append_nil, List.take_take]; simp
  rw [t1, t2] at hs
  obtain ⟨b1, e1, m1, g1⟩ := memcpy_get (dst := b) (dOff := a) (src := (b.drop c).take n) (sOff := 0) (n := n) (by omega) (by omega)
  obtain ⟨b2, e2, m2, g2⟩ := memcpy_get (dst := b1) (dOff := c) (src := (b.drop a).take n) (sOff := 0) (n := n) (by omega) (by omega)
  refine ⟨b2, ?_, by omega, fun i => ?_⟩
  · unfold swapRegions
    rw [if_pos ⟨ha, hc, hd⟩, hs]
    simp only [bind_ok, e1, e2]
  · rw [g2, g1]
    by_cases h1 : a ≤ i ∧ i < a + n
    · rw [if_neg (by omega), if_pos h1, if_pos h1, List.getElem?_take, if_pos (by omega), List.getElem?_drop]
      congr 1; omega
    · rw [if_neg h1, if_neg h1]
      by_cases h2 : c ≤ i ∧ i < c + n
      · rw [if_pos h2, if_pos h2, List.getElem?_take, if_pos (by omega), List.getElem?_drop]
        congr 1; omega
      · rw [if_neg h2, if_neg h2]

/-- Where the byte of position `j` comes from when rows are reversed inside slices of `n` rows of `ls` bytes. -/
def flipIdx (ls n j : Nat) : Nat := (j / ls / n * n + (n - 1 - j / ls % n)) * ls + j % ls

theorem flipIdx_row {ls n z r i : Nat} (hi : i < ls) (hr : r < n) :
    flipIdx ls n ((z * n + r) * ls + i) = (z * n + (n - 1 - r)) * ls + i := by
  unfold flipIdx
  rw [idx_div hi, idx_mod hi, idx_div hr, idx_mod hr]

theorem row_surj {ls n dep j : Nat} (hj : j < dep * (n * ls)) :
    ∃ z r i, z < dep ∧ r < n ∧ i < ls ∧ j = (z * n + r) * ls + i := by
  have hls : 0 < ls := Nat.pos_of_ne_zero (fun e => by subst e; simp at hj)
  have hn : 0 < n := Nat.pos_of_ne_zero (fun e => by subst e; simp at hj)
  have h1 : j / ls < dep * n := (Nat.div_lt_iff_lt_mul hls).mpr (by rwa [Nat.mul_assoc])
  have h2 : j / ls / n < dep := (Nat.div_lt_iff_lt_mul hn).mpr h1
  refine ⟨j / ls / n, j / ls % n, j % ls, h2, Nat.mod_lt _ hn, Nat.mod_lt _ hls, ?_⟩
  rw [Nat.div_add_mod', Nat.div_add_mod']

theorem row_lt {ls n dep z r i : Nat} (hz : z < dep) (hr : r < n) (hi : i < ls) :
    (z * n + r) * ls + i < dep * (n * ls) := by
  rw [← Nat.mul_assoc]
  exact idx_lt (idx_lt hz hr) hi

/-- Row arithmetic: a row's position inside the buffer. -/
theorem row_le {ls n dep z r : Nat} (hz : z < dep) (hr : r < n) : (z * n + r) * ls + ls ≤ dep * (n * ls) := by
  have h := idx_lt hz hr
  have : (z * n + r + 1) * ls ≤ dep * n * ls := Nat.mul_le_mul_right _ h
  rw [Nat.succ_mul] at this
  rwa [← Nat.mul_assoc]

theorem row_disj {ls r r' : Nat} (h : r ≠ r') {i j : Nat} (hi : i < ls) (hj : j < ls) : r * ls + i ≠ r' * ls + j :=
  fun e => h (idx_inj hi hj e).1

/-- Positions used by both flip functions, without the 32-bit wrap-around. -/
theorem flip_addr {ls n dep z y : Nat} {buff : List UInt8} (hl : buff.length = dep * (n * ls)) (h32 : buff.length < 2 ^ 32)
    (hz : z < dep) (hy : y < n) :
    u32 (z * u32 (n * ls)) + y * ls = (z * n + y) * ls ∧
    u32 (z * u32 (n * ls)) + u32 (n * ls) - (y + 1) * ls = (z * n + (n - 1 - y)) * ls := by
  have hd : 0 < dep := by omega
  have hs : n * ls ≤ dep * (n * ls) := Nat.le_mul_of_pos_left _ hd
  have e1 : u32 (n * ls) = n * ls := u32_of_lt (by omega)
  have hz' : z * (n * ls) ≤ dep * (n * ls) := Nat.mul_le_mul_right _ (by omega)
  have e2 : u32 (z * (n * ls)) = z * (n * ls) := u32_of_lt (by omega)
  rw [e1, e2]
  refine ⟨by grind, ?_⟩
  obtain ⟨k, hk⟩ : ∃ k, n = y + 1 + k := ⟨n - (y + 1), by omega⟩
  have : n - 1 - y = k := by omega
  rw [this]
  have h1 : z * (n * ls) + n * ls = (z * n + k) * ls + (y + 1) * ls := by subst hk; grind
  omega

/-- `iFlipNewBuffer` reverses the rows of every slice. -/
theorem flipNew_spec (junk : Nat → UInt8) (buff : List UInt8) (dep ls n : Nat) (hl : buff.length = dep * (n * ls))
    (h32 : buff.length < 2 ^ 32) :
    ∃ d' : List UInt8, iFlipNewBuffer junk buff dep ls n = .ok d' ∧ d'.length = buff.length ∧
      ∀ j, j < buff.length → d'[j]? = buff[flipIdx ls n j]? := by
  by_cases hdep : dep = 0
  · subst hdep
    refine ⟨[], ?_, by simp [hl], fun j hj => by simp [hl] at hj⟩
    simp [iFlipNewBuffer, alloc, u32]
  have hsz : u32 (dep * u32 (n * ls)) = buff.length := by
    have hs : n * ls ≤ dep * (n * ls) := Nat.le_mul_of_pos_left _ (by omega)
    rw [u32_of_lt (by omega : n * ls < 4294967296), u32_of_lt (by omega), hl]
  have hu : Upd (fun b => loopN dep (fun d b => loopN n (fun y b =>
      memcpy b (u32 (d * u32 (n * ls)) + u32 (n * ls) - (y + 1) * ls) buff (u32 (d * u32 (n * ls)) + y * ls) ls) b) b)
      (alloc junk (u32 (dep * u32 (n * ls)))) (fun _ => False)
      (fun i => ∃ z, z < dep ∧ ∃ y, y < n ∧ ((z * n + (n - 1 - y)) * ls ≤ i ∧ i < (z * n + (n - 1 - y)) * ls + ls))
      (fun j => buff[flipIdx ls n j]?) := by
    refine Upd.loopW fun z hz => Upd.loopW fun y hy => ?_
    obtain ⟨a1, a2⟩ := flip_addr hl h32 hz hy
    rw [a1, a2]
    refine memcpy_upd ?_ ?_ ?_
    · have := row_le (ls := ls) hz hy; omega
    · have := row_le (ls := ls) hz (show n - 1 - y < n by omega)
      rw [alloc_length, hsz]; omega
    · intro i h1 h2
      obtain ⟨k, rfl⟩ : ∃ k, i = (z * n + (n - 1 - y)) * ls + k := ⟨i - (z * n + (n - 1 - y)) * ls, by omega⟩
      rw [flipIdx_row (by omega) (by omega), show n - 1 - (n - 1 - y) = y by omega]
      congr 1; omega
  obtain ⟨d', e, l, s⟩ := hu.apply
  rw [alloc_length, hsz] at l s
  refine ⟨d', e, l, fun j hj => ?_⟩
  obtain ⟨z, r, i, hz, hr, hi, rfl⟩ := row_surj (hl ▸ hj)
  refine (s _ hj).1 ⟨z, hz, n - 1 - r, by omega, ?_⟩
  rw [show n - 1 - (n - 1 - r) = r by omega]
  omega

/-- `iFlipBuffer` reverses the rows of every slice in place. -/
theorem flip_spec (buff : List UInt8) (dep ls n : Nat) (hl : buff.length = dep * (n * ls)) (h32 : buff.length < 2 ^ 32) :
    ∃ d' : List UInt8, iFlipBuffer buff dep ls n = .ok d' ∧ d'.length = buff.length ∧
      ∀ j, j < buff.length → d'[j]? = buff[flipIdx ls n j]? := by
  -- the bytes of row `r` of slice `z`
  let row (z r i : Nat) : Prop := (z * n + r) * ls ≤ i ∧ i < (z * n + r) * ls + ls
  have rowEq : ∀ {z r z' r' i}, r < n → r' < n → row z r i → row z' r' i → z = z' ∧ r = r' := by
    intro z r z' r' i hr hr' h1 h2
    obtain ⟨k, hk⟩ : ∃ k, i = (z * n + r) * ls + k := ⟨i - (z * n + r) * ls, by have := h1.1; omega⟩
    obtain ⟨k', hk'⟩ : ∃ k, i = (z' * n + r') * ls + k := ⟨i - (z' * n + r') * ls, by have := h2.1; omega⟩
    have hlt : k < ls := by have := h1.2; omega
    have hlt' : k' < ls := by have := h2.2; omega
    have := (idx_inj hlt hlt' (hk ▸ hk')).1
    exact idx_inj hr hr' this
  have hu : Upd (fun b => iFlipBuffer b dep ls n) buff
      (fun i => ∃ z, z < dep ∧ ∃ y, y < n / 2 ∧ (row z y i ∨ row z (n - 1 - y) i))
      (fun i => ∃ z, z < dep ∧ ∃ y, y < n / 2 ∧ (row z y i ∨ row z (n - 1 - y) i))
      (fun j => buff[flipIdx ls n j]?) := by
    refine Upd.loop (fun z hz => Upd.loop (fun y hy => ?_) ?_) ?_
    · obtain ⟨a1, a2⟩ := flip_addr hl h32 hz (show y < n by omega)
      rw [a1, a2]
      intro d hdl hag
      have r1 := row_le (ls := ls) hz (show y < n by omega)
      have r2 := row_le (ls := ls) hz (show n - 1 - y < n by omega)
      have hord : (z * n + y) * ls + ls ≤ (z * n + (n - 1 - y)) * ls := by
        rw [← Nat.succ_mul]
        exact Nat.mul_le_mul_right _ (by omega)
      obtain ⟨b', e, l, g⟩ := swapRegions_get (b := d) (a := (z * n + y) * ls) (c := (z * n + (n - 1 - y)) * ls) (n := ls)
        (by omega) (by omega) (Or.inl hord)
      refine ⟨b', e, by omega, fun i hi => ⟨fun hr => ?_, fun hr => ?_⟩⟩
      · rw [g]
        rcases hr with hr | hr
        · obtain ⟨k, rfl⟩ : ∃ k, i = (z * n + y) * ls + k := ⟨i - (z * n + y) * ls, by have := hr.1; omega⟩
          have hk : k < ls := by have := hr.2; omega
          show _ = buff[flipIdx ls n _]?
          rw [if_pos hr, flipIdx_row hk (by omega),
            show (z * n + (n - 1 - y)) * ls + ((z * n + y) * ls + k - (z * n + y) * ls) = (z * n + (n - 1 - y)) * ls + k by omega]
          exact hag _ (Or.inr ⟨by omega, by omega⟩)
        · obtain ⟨k, rfl⟩ : ∃ k, i = (z * n + (n - 1 - y)) * ls + k := ⟨i - (z * n + (n - 1 - y)) * ls, by have := hr.1; omega⟩
          have hk : k < ls := by have := hr.2; omega
          show _ = buff[flipIdx ls n _]?
          rw [if_neg (by have := hr.1; omega), if_pos hr, flipIdx_row hk (by omega), show n - 1 - (n - 1 - y) = y by omega,
            show (z * n + y) * ls + ((z * n + (n - 1 - y)) * ls + k - (z * n + (n - 1 - y)) * ls) = (z * n + y) * ls + k by omega]
          exact hag _ (Or.inl ⟨by omega, by omega⟩)
      · rw [g, if_neg (fun h => hr (Or.inl h)), if_neg (fun h => hr (Or.inr h))]
    · intro j k i hjk hk _ h1 h2
      rcases h1 with h1 | h1 <;> rcases h2 with h2 | h2 <;>
        · have := rowEq (by omega) (by omega) h1 h2; omega
    · rintro j k i hjk hk _ ⟨y, hy, h1⟩ ⟨y', hy', h2⟩
      rcases h1 with h1 | h1 <;> rcases h2 with h2 | h2 <;>
        · have := rowEq (by omega) (by omega) h1 h2; omega
  obtain ⟨d', e, l, s⟩ := hu.apply
  refine ⟨d', e, l, fun j hj => ?_⟩
  obtain ⟨z, r, i, hz, hr, hi, rfl⟩ := row_surj (hl ▸ hj)
  have hin : row z r ((z * n + r) * ls + i) := ⟨by omega, by omega⟩
  by_cases h1 : r < n / 2
  · exact (s _ hj).1 ⟨z, hz, r, h1, Or.inl hin⟩
  · by_cases h2 : n - 1 - r < n / 2
    · refine (s _ hj).1 ⟨z, hz, n - 1 - r, h2, Or.inr ?_⟩
      rw [show n - 1 - (n - 1 - r) = r by omega]; exact hin
    · -- the middle row
      rw [(s _ hj).2, flipIdx_row hi hr, show n - 1 - r = r by omega]
      rintro ⟨z', _, y, hy, h | h⟩
      · have := rowEq hr (by omega) hin h; omega
      · have := rowEq hr (by omega) hin h; omega

end DevIL.Manip

namespace DevIL.Manip

/-- Where the byte of position `j` comes from when the pixels (of `k` bytes) of rows of `w` pixels are reversed. -/
def mirIdx (k w j : Nat) : Nat := (j / k / w * w + (w - 1 - j / k % w)) * k + j % k

theorem mirIdx_pix {k w r x i : Nat} (hi : i < k) (hx : x < w) :
    mirIdx k w ((r * w + x) * k + i) = (r * w + (w - 1 - x)) * k + i := by
  unfold mirIdx
  rw [idx_div hi, idx_mod hi, idx_div hx, idx_mod hx]

theorem mirror_spec (junk : Nat → UInt8) (m : Img) (hbps : m.bps = m.width * m.bpp * m.bpc)
    (hplane : m.plane = m.width * m.bpp * m.bpc * m.height) (hsize : m.size = m.width * m.bpp * m.bpc * m.height * m.depth)
    (hl : m.data.length = m.size) (h32 : m.size < 2 ^ 32) (hc : m.bpc = 1 ∨ m.bpc = 2 ∨ m.bpc = 4 ∨ m.bpc = 8) :
    ∃ d' : List UInt8, iMirror junk m = .ok { m with data := d' } ∧ d'.length = m.data.length ∧
      ∀ j, j < m.data.length → d'[j]? = m.data[mirIdx (m.bpp * m.bpc) m.width j]? := by
  obtain ⟨W, H, D, P, B, bps, plane, size, fmt, ty, org, data⟩ := m
  simp only at *
  subst hbps hplane hsize
  have hB : 0 < B := by omega
  have hlen : data.length = D * H * W * (P * B) := by rw [hl]; grind
  have hpl : W * P * B / B = W * P := Nat.mul_div_cancel _ hB
  have addr : ∀ {z y x c : Nat}, z < D → y < H → x < W → c < P →
      u32 (z * (W * P * B * H)) + u32 (y * (W * P) + x * P + c) * B = ((z * H + y) * W + x) * (P * B) + c * B ∧
      ((z * H + y) * W + x) * (P * B) + c * B + B ≤ data.length := by
    intro z y x c hz hy hx hcc
    have hmax : ((z * H + y) * W + x) * (P * B) + c * B + B ≤ data.length := by
      have h1 := idx_lt (idx_lt (idx_lt hz hy) hx) hcc
      have h2 : ((((z * H + y) * W + x) * P + c) + 1) * B ≤ D * H * W * P * B := Nat.mul_le_mul_right _ h1
      have h3 : ((((z * H + y) * W + x) * P + c) + 1) * B = ((z * H + y) * W + x) * (P * B) + c * B + B := by grind
      have h4 : D * H * W * P * B = data.length := by rw [hlen]; grind
      omega
    refine ⟨?_, hmax⟩
    have e0 : ((z * H + y) * W + x) * (P * B) + c * B = z * (W * P * B * H) + (y * (W * P) + x * P + c) * B := by grind
    have l1 : z * (W * P * B * H) < 2 ^ 32 := by omega
    have l2 : (y * (W * P) + x * P + c) ≤ (y * (W * P) + x * P + c) * B := Nat.le_mul_of_pos_right _ hB
    rw [u32_of_lt l1, u32_of_lt (by omega), e0]
  have hu : Upd (fun b => loopN D (fun d b => loopN H (fun y b => loopN W (fun k b => loopN P (fun c b =>
        memcpy b (u32 (d * (W * P * B * H)) + u32 (y * (W * P * B / B) + (W - 1 - k) * P + c) * B)
          data ((((d * H + y) * W + k) * P + c) * B) B) b) b) b) b) (alloc junk (W * P * B * H * D)) (fun _ => False)
      (fun i => ∃ z, z < D ∧ ∃ y, y < H ∧ ∃ k, k < W ∧ ∃ c, c < P ∧
        (((z * H + y) * W + (W - 1 - k)) * (P * B) + c * B ≤ i ∧ i < ((z * H + y) * W + (W - 1 - k)) * (P * B) + c * B + B))
      (fun j => data[mirIdx (P * B) W j]?) := by
    refine Upd.loopW fun z hz => Upd.loopW fun y hy => Upd.loopW fun k hk => Upd.loopW fun c hcc => ?_
    obtain ⟨a1, a2⟩ := addr hz hy (show W - 1 - k < W by omega) hcc
    obtain ⟨_, a3⟩ := addr hz hy hk hcc
    rw [hpl, a1]
    have es : (((z * H + y) * W + k) * P + c) * B = ((z * H + y) * W + k) * (P * B) + c * B := by grind
    rw [es]
    refine memcpy_upd a3 (by rw [alloc_length]; omega) ?_
    intro i h1 h2
    obtain ⟨q, rfl⟩ : ∃ q, i = ((z * H + y) * W + (W - 1 - k)) * (P * B) + (c * B + q) :=
      ⟨i - (((z * H + y) * W + (W - 1 - k)) * (P * B) + c * B), by omega⟩
    rw [mirIdx_pix (idx_lt hcc (by omega)) (by omega), show W - 1 - (W - 1 - k) = k by omega]
    congr 1; omega
  obtain ⟨d', e, l, s⟩ := hu.apply
  rw [alloc_length] at l s
  refine ⟨d', ?_, by omega, fun j hj => ?_⟩
  · unfold iMirror
    simp only [if_pos hc]
    rw [show (loopN D _ (alloc junk (W * P * B * H * D))) = _ from e]
    rfl
  · obtain ⟨z, y, x, b, hz, hy, hx, hb, rfl⟩ := pos_surj (n := data.length) hj hlen
    refine (s _ (by omega)).1 ⟨z, hz, y, hy, W - 1 - x, by omega, b / B, ?_, ?_⟩
    · exact (Nat.div_lt_iff_lt_mul hB).mpr hb
    · rw [show W - 1 - (W - 1 - x) = x by omega]
      have := Nat.div_add_mod' b B
      have := Nat.mod_lt b hB
      unfold pos
      omega

end DevIL.Manip
