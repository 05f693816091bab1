import Verif.Model.Scitex
import Verif.Lemmas.SunB
import Verif.Lemmas.PicF
/-! Scitex files: the header and the lines. -/
set_option autoImplicit false
namespace DevIL.Scitex
open DevIL.Games DevIL.Detect DevIL.Image DevIL.DetectSpec DevIL.ScitexSpec DevIL.GamesSpec
open DevIL.Sun (Laws3)

variable {σ : Type} {o : Ops σ} {At : σ → List UInt8 → Nat → Prop} {back : Bool}

/-! ### The header -/

theorem read_at (L : Laws o At) {s : σ} {bs : List UInt8} {p n : Nat} (h : At s bs p) (hn : n < 4294967296) (hl : p + n ≤ bs.length) :
    Holds (o.read s 1 n) (fun r => r.1 = at_ bs p n ∧ r.2.1 = n ∧ At r.2.2 bs (p + n)) := by
  refine (L.read 1 n h (by decide) (by omega)).mono (fun r hr => ?_)
  obtain ⟨h1, h2, h3⟩ := hr
  rw [Nat.one_mul] at h1
  have e : (at_ bs p n).length = n := by rw [at_length]; omega
  rw [h1, e] at h3 h2
  exact ⟨h1, by rw [h2, Nat.div_one], h3⟩

/-- What the loader finds in a complete header. -/
def parsed (num : Num) (bs : List UInt8) : Option (Nat × Nat × Nat) :=
  if beAt bs 1026 2 = 7 ∧ leAt bs 1025 1 ≠ 3 then none
  else if beAt bs 1026 2 = 8 ∧ leAt bs 1025 1 ≠ 1 then none
  else if at_ bs 80 2 ≠ [0x43, 0x54] then none
  else if leAt bs 1024 1 ≠ 0 ∧ leAt bs 1024 1 ≠ 1 then none
  else if beAt bs 1026 2 ≠ 7 ∧ beAt bs 1026 2 ≠ 8 then none
  else if num.pos (at_ bs 1028 14) = false ∨ num.pos (at_ bs 1042 14) = false then none
  else if num.height (at_ bs 1056 12) = 0 ∨ num.width (at_ bs 1068 12) = 0 then none
  else some (leAt bs 1025 1, num.width (at_ bs 1068 12), num.height (at_ bs 1056 12))

theorem head_parsed (L : Laws o At) (junk : Nat → UInt8) (num : Num) {s : σ} {bs : List UInt8} (h : At s bs 0) (hl : 1080 ≤ bs.length) :
    Holds (getHead o junk num s) (fun r => r.1 = parsed num bs ∧ ∃ q, At r.2 bs q) := by
  unfold getHead
  refine (read_at L h (n := 80) (by decide) (by omega)).bind (fun r hr => ?_)
  obtain ⟨_, _, s⟩ := r
  obtain ⟨-, rfl, h⟩ := hr
  show Holds (if 80 ≠ 80 then _ else _) _
  rw [if_neg (by simp)]
  refine (read_at L h (n := 2) (by decide) (by omega)).bind (fun r hr => ?_)
  obtain ⟨sig, _, s⟩ := r
  obtain ⟨rfl, rfl, h⟩ := hr
  show Holds (if 2 ≠ 2 then _ else _) _
  rw [if_neg (by simp)]
  refine (head_spec L junk bs [.skip 942, .getc, .getc, u16] s _ h (by decide)).bind (fun r hr => ?_)
  obtain ⟨hd, s⟩ := r
  obtain ⟨-, h, hf⟩ := hr
  have f1 : fld hd 1 = at_ bs 1024 1 := hf 1 .getc rfl (by show 0 + 80 + 2 + 942 + 1 ≤ _; omega)
  have f2 : fld hd 2 = at_ bs 1025 1 := hf 2 .getc rfl (by show 0 + 80 + 2 + 943 + 1 ≤ _; omega)
  have f3 : fld hd 3 = at_ bs 1026 2 := hf 3 u16 rfl (by show 0 + 80 + 2 + 944 + 2 ≤ _; omega)
  have h : At s bs 1028 := h (by show 0 + 80 + 2 + 946 ≤ _; omega)
  refine (read_at L h (n := 14) (by decide) (by omega)).bind (fun r hr => ?_)
  obtain ⟨hu, _, s⟩ := r
  obtain ⟨rfl, rfl, h⟩ := hr
  show Holds (if 14 ≠ 14 then _ else _) _
  rw [if_neg (by simp)]
  refine (read_at L h (n := 14) (by decide) (by omega)).bind (fun r hr => ?_)
  obtain ⟨wu, _, s⟩ := r
  obtain ⟨rfl, rfl, h⟩ := hr
  show Holds (if 14 ≠ 14 then _ else _) _
  rw [if_neg (by simp)]
  refine (read_at L h (n := 12) (by decide) (by omega)).bind (fun r hr => ?_)
  obtain ⟨hp, _, s⟩ := r
  obtain ⟨rfl, rfl, h⟩ := hr
  show Holds (if 12 ≠ 12 then _ else _) _
  rw [if_neg (by simp)]
  refine (read_at L h (n := 12) (by decide) (by omega)).bind (fun r hr => ?_)
  obtain ⟨wp, _, s⟩ := r
  obtain ⟨rfl, rfl, h⟩ := hr
  show Holds (if 12 ≠ 12 then _ else _) _
  rw [if_neg (by simp)]
  have e1 : fle hd 1 = leAt bs 1024 1 := by unfold fle; rw [f1]; rfl
  have e2 : fle hd 2 = leAt bs 1025 1 := by unfold fle; rw [f2]; rfl
  have e3 : fbe hd 3 = beAt bs 1026 2 := by unfold fbe; rw [f3]; rfl
  rw [e1, e2, e3]
  unfold parsed
  simp only [Nat.reduceAdd, Nat.zero_add]
  repeat' split
  all_goals exact Holds.pure ⟨rfl, _, h⟩

theorem parsed_some {num : Num} {bs : List UInt8} {n w h : Nat} (e : parsed num bs = some (n, w, h)) :
    (n = 3 ∨ n = 1) ∧ w = num.width (at_ bs 1068 12) ∧ h = num.height (at_ bs 1056 12) ∧ 0 < w ∧ 0 < h := by
  unfold parsed at e
  by_cases c1 : beAt bs 1026 2 = 7 ∧ leAt bs 1025 1 ≠ 3
  · rw [if_pos c1] at e; cases e
  rw [if_neg c1] at e
  by_cases c2 : beAt bs 1026 2 = 8 ∧ leAt bs 1025 1 ≠ 1
  · rw [if_pos c2] at e; cases e
  rw [if_neg c2] at e
  by_cases c3 : at_ bs 80 2 ≠ [0x43, 0x54]
  · rw [if_pos c3] at e; cases e
  rw [if_neg c3] at e
  by_cases c4 : leAt bs 1024 1 ≠ 0 ∧ leAt bs 1024 1 ≠ 1
  · rw [if_pos c4] at e; cases e
  rw [if_neg c4] at e
  by_cases c5 : beAt bs 1026 2 ≠ 7 ∧ beAt bs 1026 2 ≠ 8
  · rw [if_pos c5] at e; cases e
  rw [if_neg c5] at e
  by_cases c6 : num.pos (at_ bs 1028 14) = false ∨ num.pos (at_ bs 1042 14) = false
  · rw [if_pos c6] at e; cases e
  rw [if_neg c6] at e
  by_cases c7 : num.height (at_ bs 1056 12) = 0 ∨ num.width (at_ bs 1068 12) = 0
  · rw [if_pos c7] at e; cases e
  rw [if_neg c7] at e
  cases e
  exact ⟨by omega, rfl, rfl, by omega, by omega⟩

theorem header_parsed {num : Num} (S : num.Sound) {bs : List UInt8} {n w h : Nat} (H : Header num bs n w h) (hw : w < 2147483648) (hh : h < 2147483648) :
    parsed num bs = some (n, w, h) := by
  have e1 := (S _ _ H.height hh).1
  have e2 := (S _ _ H.width hw).2
  have hw0 := H.w0
  have hh0 := H.h0
  have hu := H.unit
  unfold parsed
  rw [e1, e2, H.chans, H.sig, H.heightUnits, H.widthUnits]
  have a : beAt bs 1026 2 = be (at_ bs 1026 2) := rfl
  have b7 : be [0, 7] = 7 := by decide
  have b8 : be [0, 8] = 8 := by decide
  rcases H.model with ⟨rfl, m⟩ | ⟨rfl, m⟩
  · rw [a, m, b7, if_neg (by simp), if_neg (by decide), if_neg (by simp), if_neg (by omega), if_neg (by simp), if_neg (by simp), if_neg (by omega)]
  · rw [a, m, b8, if_neg (by decide), if_neg (by simp), if_neg (by simp), if_neg (by omega), if_neg (by simp), if_neg (by simp), if_neg (by omega)]

/-! ### Lines -/

theorem stride_le (w : Nat) : w ≤ stride w ∧ stride w ≤ w + 1 := by unfold stride; omega


/-- The position after a line: behind its padding, or near the end. -/
def After (At : σ → List UInt8 → Nat → Prop) (s : σ) (bs : List UInt8) (p : Nat) : Prop :=
  (p ≤ bs.length → At s bs p) ∧ ∃ q, At s bs q ∧ (bs.length < p → bs.length ≤ q + 1)

/-- The padding. -/
theorem pad_spec (L : Laws2 o At) {s : σ} {bs : List UInt8} {p w : Nat} (h : At s bs (p + w)) (hp : p + w ≤ bs.length) :
    Holds (pad o w s) (fun s => After At s bs (p + stride w)) := by
  unfold pad stride
  by_cases hw : w % 2 ≠ 0
  · rw [if_pos hw]
    rcases Nat.lt_or_ge (p + w) bs.length with hlt | hge
    · refine (L.getc h).bind (fun r hr => Holds.pure ?_)
      have := (hr.2 hlt).2
      rw [show p + (w + w % 2) = p + w + 1 by omega]
      exact ⟨fun _ => this, _, this, fun h => by omega⟩
    · refine (L.getcEnd h hge).bind (fun r hr => Holds.pure ?_)
      obtain ⟨-, q, hq, hA⟩ := hr
      exact ⟨fun h => by omega, q, hA, fun _ => hq⟩
  · rw [if_neg hw, show p + (w + w % 2) = p + w by omega]
    exact Holds.pure ⟨fun _ => h, _, h, fun h => by omega⟩

theorem pad_any (L : Laws o At) {s : σ} {bs : List UInt8} {p : Nat} (w : Nat) (h : At s bs p) : Holds (pad o w s) (fun s => ∃ q, At s bs q) := by
  unfold pad
  split
  · exact (L.getc h).bind (fun r hr => Holds.pure hr.1)
  · exact Holds.pure ⟨_, h⟩

theorem cell_lt {w h y x k c : Nat} (hy : y < h) (hx : x < w) (hc : c < k) : (y * w + x) * k + c < w * h * k := by
  have h1 : (y + 1) * w ≤ h * w := Nat.mul_le_mul_right w hy
  rw [Nat.add_mul, Nat.one_mul] at h1
  have h2 : (y * w + x + 1) * k ≤ h * w * k := Nat.mul_le_mul_right k (by omega)
  rw [Nat.add_mul, Nat.one_mul, Nat.mul_comm h w] at h2
  omega

/-- Spreading a line over the pixels of its row. -/
theorem spread {w h y c : Nat} {d row : List UInt8} (hd : d.length = w * h * 3) (hfit : w * h * 3 < 4294967296) (hy : y < h) (hc : c < 3) (hr : row.length = w) :
    Holds (loopN w (fun x d => do
      let v ← rd row x
      wr d (u32 (y * (w * 3) + x * 3 + c)) v) d) (fun r => r.length = w * h * 3 ∧ (∀ x, x < w → r[(y * w + x) * 3 + c]? = row[x]?) ∧
        ∀ i, (∀ x, x < w → i ≠ (y * w + x) * 3 + c) → r[i]? = d[i]?) := by
  refine Holds.loop (fun n (r : List UInt8) => r.length = w * h * 3 ∧ (∀ x, x < n → r[(y * w + x) * 3 + c]? = row[x]?) ∧
    ∀ i, (∀ x, x < n → i ≠ (y * w + x) * 3 + c) → r[i]? = d[i]?) ⟨hd, fun x hx => by omega, fun _ _ => rfl⟩ (fun n r hn hI => ?_)
  obtain ⟨h1, h2, h3⟩ := hI
  have hlt := cell_lt (k := 3) hy hn hc
  have e : y * (w * 3) + n * 3 + c = (y * w + n) * 3 + c := by rw [Nat.add_mul, Nat.mul_assoc]
  rw [rd_of_lt (by omega), bind_ok, e, u32_of_lt (by omega), wr_of_lt (by omega)]
  refine ⟨_, rfl, by rw [List.length_set]; exact h1, fun x hx => ?_, fun i hi => ?_⟩
  · rw [List.getElem?_set]
    by_cases hxn : n = x
    · subst hxn
      rw [if_pos rfl, if_pos (by omega), List.getElem?_eq_getElem]
    · rw [if_neg (by intro h; omega)]
      exact h2 x (by omega)
  · rw [List.getElem?_set_ne (fun h => hi n (by omega) h.symm)]
    exact h3 i (fun x hx => hi x (by omega))

theorem line_ok (L : Laws2 o At) (junk : Nat → UInt8) {s : σ} {bs d : List UInt8} {p w h y c : Nat} (hA : At s bs p) (hp : p + w ≤ bs.length)
    (hd : d.length = w * h * 3) (hfit : w * h * 3 < 4294967296) (hy : y < h) (hc : c < 3) :
    Holds (line o junk w y c d s) (fun r => r.1 = true ∧ After At r.2.2 bs (p + stride w) ∧ r.2.1.length = w * h * 3 ∧
      (∀ x, x < w → r.2.1[(y * w + x) * 3 + c]? = bs[p + x]?) ∧ ∀ i, (∀ x, x < w → i ≠ (y * w + x) * 3 + c) → r.2.1[i]? = d[i]?) := by
  have hlen := L.len hA
  unfold line
  refine (into_full L _ 1 w hA (by decide) (by omega) (by rw [alloc_length, Nat.one_mul]) (by omega)).bind (fun r hr => ?_)
  obtain ⟨n, row, s⟩ := r
  obtain ⟨h0, h1, h2⟩ := hr
  rw [Nat.one_mul] at h1 h2
  simp only [] at h0 h1 h2 ⊢
  rw [if_neg (by simpa using h0), h1]
  refine (spread hd hfit hy hc (by rw [at_length]; omega)).bind (fun d' hd' => ?_)
  refine (pad_spec L h2 hp).bind (fun s' hs' => Holds.pure ⟨rfl, hs', hd'.1, fun x hx => ?_, hd'.2.2⟩)
  rw [hd'.2.1 x hx, at_get _ _ _ _ hx]

theorem line_any (L : Laws2 o At) (junk : Nat → UInt8) {s : σ} {bs d : List UInt8} {p w h y c : Nat} (hA : At s bs p)
    (hd : d.length = w * h * 3) (hfit : w * h * 3 < 4294967296) (hy : y < h) (hc : c < 3) :
    Holds (line o junk w y c d s) (fun r => (r.1 = true → p + w ≤ bs.length ∨ w = 0) ∧ r.2.1.length = w * h * 3 ∧ ∃ q, At r.2.2 bs q) := by
  have hw : w < 4294967296 := by
    have := cell_lt (w := w) (h := h) (y := 0) (k := 3) (c := 0) (x := w - 1) (by omega)
    rcases Nat.eq_zero_or_pos w with h0 | h0
    · omega
    · have := this (by omega) (by omega); omega
  unfold line
  refine (into_spec L (alloc junk w) 1 w hA (by decide) (by omega) (by rw [alloc_length]; omega)).bind (fun r hr => ?_)
  obtain ⟨n, row, s⟩ := r
  obtain ⟨h1, h2, h3⟩ := hr
  rw [Nat.one_mul] at h1 h2 h3
  simp only [Nat.div_one] at h1 h2 h3 ⊢
  by_cases hn : n ≠ w
  · rw [if_pos hn]
    exact Holds.pure ⟨fun (h : false = true) => absurd h (by decide), hd, _, h3⟩
  · rw [if_neg hn]
    have hl : (at_ bs p w).length = w := by omega
    have hl' := at_length bs p w
    refine (spread hd hfit hy hc (by rw [h2, List.length_append, List.length_drop, alloc_length]; omega)).bind (fun d' hd' => ?_)
    refine (pad_any L.toLaws w h3).bind (fun s' hs' => Holds.pure ⟨fun _ => by omega, hd'.1, hs'⟩)

/-- The lines before line `k` are in the picture. -/
def Inv (bs : List UInt8) (w h k : Nat) (d : List UInt8) : Prop :=
  d.length = w * h * 3 ∧ ∀ y c x, c < 3 → y * 3 + c < k → x < w → d[(y * w + x) * 3 + c]? = bs[lineAt 3 w y c + x]?

theorem lines_ok (L : Laws2 o At) (junk : Nat → UInt8) {bs : List UInt8} {w h : Nat} (hfit : w * h * 3 < 4294967296) (todo : Nat) :
    ∀ (k : Nat) (d : List UInt8) (s : σ), k + todo = h * 3 → Inv bs w h k d → (0 < todo → At s bs (2048 + k * stride w)) → (∃ q, At s bs q) →
      fileBytes 3 w h ≤ bs.length → Holds (lines o junk w todo k d s) (fun r => r.1 = true ∧ Inv bs w h (h * 3) r.2.1 ∧ ∃ q, At r.2.2 bs q) := by
  induction todo with
  | zero =>
    intro k d s hk hI _ hq _
    obtain rfl : k = h * 3 := by omega
    exact Holds.pure ⟨rfl, hI, hq⟩
  | succ todo ih =>
    intro k d s hk hI hA _ hfile
    have hA := hA (by omega)
    have hst := stride_le w
    have hm : k * stride w ≤ (h * 3 - 1) * stride w := Nat.mul_le_mul_right _ (by omega)
    have hfb : 2048 + (h * 3 - 1) * stride w + w ≤ bs.length := hfile
    unfold lines
    refine (line_ok L junk (y := k / 3) (c := k % 3) hA (by omega) hI.1 hfit (by omega) (by omega)).bind (fun r hr => ?_)
    obtain ⟨ok, d', s'⟩ := r
    obtain ⟨h1, h2, h3, h4, h5⟩ := hr
    simp only [] at h1 h2 h3 h4 h5
    subst h1
    simp only [if_true]
    have hk1 : (k + 1) * stride w = k * stride w + stride w := by rw [Nat.add_mul, Nat.one_mul]
    refine ih (k + 1) d' s' (by omega) ⟨h3, fun y c x hc hy hx => ?_⟩ (fun h0 => ?_) ⟨_, h2.2.choose_spec.1⟩ hfile
    · by_cases e : y * 3 + c = k
      · obtain rfl : y = k / 3 := by omega
        obtain rfl : c = k % 3 := by omega
        rw [h4 x hx]
        show _ = bs[2048 + (k / 3 * 3 + k % 3) * stride w + x]?
        rw [e]
      · rw [h5, hI.2 y c x hc (by omega) hx]
        intro x' hx' he
        have hc' : c = k % 3 := by omega
        have hq : y * w + x = k / 3 * w + x' := by omega
        have hy' : y = k / 3 := by
          have a1 : (y * w + x) / w = y := by
            rw [Nat.add_comm, Nat.add_mul_div_right _ _ (by omega), Nat.div_eq_of_lt hx, Nat.zero_add]
          have a2 : (k / 3 * w + x') / w = k / 3 := by
            rw [Nat.add_comm, Nat.add_mul_div_right _ _ (by omega), Nat.div_eq_of_lt hx', Nat.zero_add]
          rw [← a1, ← a2, hq]
        omega
    · have : (k + 1) * stride w ≤ (h * 3 - 1) * stride w := Nat.mul_le_mul_right _ (by omega)
      have := h2.1 (by omega)
      rw [hk1, ← Nat.add_assoc]
      exact this

theorem lines_any (L : Laws2 o At) (junk : Nat → UInt8) {bs : List UInt8} {w h : Nat} (hfit : w * h * 3 < 4294967296) (todo : Nat) :
    ∀ (k : Nat) (d : List UInt8) (s : σ), k + todo = h * 3 → d.length = w * h * 3 → (∃ q, At s bs q) →
      Holds (lines o junk w todo k d s) (fun r => r.2.1.length = w * h * 3 ∧ ∃ q, At r.2.2 bs q) := by
  induction todo with
  | zero => intro k d s _ hd hq; exact Holds.pure ⟨hd, hq⟩
  | succ todo ih =>
    intro k d s hk hd hq
    obtain ⟨q, hq⟩ := hq
    unfold lines
    refine (line_any L junk (y := k / 3) (c := k % 3) hq hd hfit (by omega) (by omega)).bind (fun r hr => ?_)
    obtain ⟨ok, d', s'⟩ := r
    obtain ⟨-, h2, h3⟩ := hr
    cases ok with
    | false => exact Holds.pure ⟨h2, h3⟩
    | true => exact ih (k + 1) d' s' (by omega) h2 h3

theorem lines_cut (L : Laws2 o At) (junk : Nat → UInt8) {bs : List UInt8} {w h : Nat} (hw : 2 ≤ w) (hfit : w * h * 3 < 4294967296) (todo : Nat) :
    ∀ (k : Nat) (d : List UInt8) (s : σ), k + (todo + 1) = h * 3 → d.length = w * h * 3 → After At s bs (2048 + k * stride w) →
      bs.length < fileBytes 3 w h → Holds (lines o junk w (todo + 1) k d s) (fun r => r.1 = false ∧ r.2.1.length = w * h * 3 ∧ ∃ q, At r.2.2 bs q) := by
  have one : ∀ (k todo : Nat) (d : List UInt8) (s : σ), k < h * 3 → d.length = w * h * 3 → ∀ q, At s bs q → bs.length < q + w →
      Holds (lines o junk w (todo + 1) k d s) (fun r => r.1 = false ∧ r.2.1.length = w * h * 3 ∧ ∃ q, At r.2.2 bs q) := by
    intro k todo d s hk hd q hq hlt
    unfold lines
    refine (line_any L junk (y := k / 3) (c := k % 3) hq hd hfit (by omega) (by omega)).bind (fun r hr => ?_)
    obtain ⟨ok, d', s'⟩ := r
    obtain ⟨h1, h2, h3⟩ := hr
    cases ok with
    | false => exact Holds.pure ⟨rfl, h2, h3⟩
    | true => have := h1 rfl; omega
  induction todo with
  | zero =>
    intro k d s hk hd hA hcut
    have hfb : bs.length < 2048 + (h * 3 - 1) * stride w + w := hcut
    rw [show h * 3 - 1 = k by omega] at hfb
    rcases Nat.lt_or_ge bs.length (2048 + k * stride w) with hlt | hge
    · obtain ⟨q, hq, hq'⟩ := hA.2
      have := hq' hlt
      exact one k 0 d s (by omega) hd q hq (by omega)
    · exact one k 0 d s (by omega) hd _ (hA.1 hge) hfb
  | succ todo ih =>
    intro k d s hk hd hA hcut
    rcases Nat.lt_or_ge bs.length (2048 + k * stride w) with hlt | hge
    · obtain ⟨q, hq, hq'⟩ := hA.2
      have := hq' hlt
      exact one k (todo + 1) d s (by omega) hd q hq (by omega)
    · have hA := hA.1 hge
      rcases Nat.lt_or_ge bs.length (2048 + k * stride w + w) with hlt | hge
      · exact one k (todo + 1) d s (by omega) hd _ hA hlt
      · unfold lines
        refine (line_ok L junk (y := k / 3) (c := k % 3) hA hge hd hfit (by omega) (by omega)).bind (fun r hr => ?_)
        obtain ⟨ok, d', s'⟩ := r
        obtain ⟨h1, h2, h3, -⟩ := hr
        simp only [] at h1 h2 h3
        subst h1
        simp only [if_true]
        refine ih (k + 1) d' s' (by omega) h3 ?_ hcut
        rw [Nat.add_mul, Nat.one_mul, ← Nat.add_assoc]
        exact h2

/-! ### Grey pictures -/

theorem grey_ok (L : Laws2 o At) {bs d : List UInt8} {w h : Nat} {s : σ} (hd : d.length = w * h) (hfit : w * h < 4294967296) (hh : 0 < h) (hA : At s bs 2048)
    (hfile : fileBytes 1 w h ≤ bs.length) :
    Holds (grey o w h d s) (fun r => (r.1.length = w * h ∧ ∀ y x, y < h → x < w → r.1[y * w + x]? = bs[lineAt 1 w y 0 + x]?) ∧ ∃ q, At r.2 bs q) := by
  have hst := stride_le w
  have hfb : 2048 + (h * 1 - 1) * stride w + w ≤ bs.length := hfile
  rw [Nat.mul_one] at hfb
  have hlen := L.len hA
  unfold grey
  refine (Holds.loop (fun n (t : List UInt8 × σ) => (t.1.length = w * h ∧ ∀ y x, y < n → x < w → t.1[y * w + x]? = bs[lineAt 1 w y 0 + x]?) ∧
    (n < h → At t.2 bs (2048 + n * stride w)) ∧ ∃ q, At t.2 bs q) ⟨⟨hd, fun y x hy => by omega⟩, fun _ => by rw [Nat.zero_mul]; exact hA, _, hA⟩ (fun n t hn hI => ?_)).mono
      (fun r hr => ⟨hr.1, hr.2.2⟩)
  obtain ⟨d, s⟩ := t
  obtain ⟨⟨h1, h2⟩, h3, -⟩ := hI
  have h3 := h3 hn
  simp only [] at h1 h2 h3 ⊢
  have hm : n * stride w ≤ (h - 1) * stride w := Nat.mul_le_mul_right _ (by omega)
  have hrow : (n + 1) * w ≤ h * w := Nat.mul_le_mul_right w hn
  rw [Nat.add_mul, Nat.one_mul, Nat.mul_comm h w] at hrow
  refine (read_at L.toLaws h3 (n := w) (by omega) (by omega)).bind (fun r hr => ?_)
  obtain ⟨g, m, s'⟩ := r
  obtain ⟨h5, -, h4⟩ := hr
  simp only [] at h5 h4
  subst h5
  have hg : (at_ bs (2048 + n * stride w) w).length = w := by rw [at_length]; omega
  simp only []
  rw [u32_of_lt (by omega), hg]
  obtain ⟨d', e, hl', hget⟩ := memcpy_get (dst := d) (src := at_ bs (2048 + n * stride w) w) (dOff := n * w) (sOff := 0) (n := w) (by omega) (by omega)
  rw [e, bind_ok]
  refine (pad_spec L h4 (by omega)).bind (fun s' hs' => Holds.pure ⟨⟨by rw [hl', h1], fun y x hy hx => ?_⟩, fun hn1 => ?_, _, hs'.2.choose_spec.1⟩)
  · simp only []
    rw [hget]
    by_cases e : y = n
    · subst e
      rw [if_pos (by omega), Nat.zero_add, show y * w + x - y * w = x by omega, at_get _ _ _ _ hx]
      unfold lineAt
      rw [Nat.mul_one, Nat.add_zero]
    · have : (y + 1) * w ≤ n * w := Nat.mul_le_mul_right w (by omega)
      rw [Nat.add_mul, Nat.one_mul] at this
      rw [if_neg (by omega)]
      exact h2 y x (by omega) hx
  · have : (n + 1) * stride w ≤ (h - 1) * stride w := Nat.mul_le_mul_right _ (by omega)
    have hk1 : (n + 1) * stride w = n * stride w + stride w := by rw [Nat.add_mul, Nat.one_mul]
    have := hs'.1 (by omega)
    rw [hk1, ← Nat.add_assoc]
    exact this

theorem grey_any (L : Laws2 o At) {bs d : List UInt8} {w h q : Nat} {s : σ} (hd : d.length = w * h) (hfit : w * h < 4294967296) (hA : At s bs q) :
    Holds (grey o w h d s) (fun r => r.1.length = w * h ∧ ∃ q, At r.2 bs q) := by
  unfold grey
  refine Holds.loop (fun _ (t : List UInt8 × σ) => t.1.length = w * h ∧ ∃ q, At t.2 bs q) ⟨hd, _, hA⟩ (fun n t hn hI => ?_)
  obtain ⟨d, s⟩ := t
  obtain ⟨h1, p, h3⟩ := hI
  simp only [] at h1 h3 ⊢
  have hrow : (n + 1) * w ≤ h * w := Nat.mul_le_mul_right w hn
  rw [Nat.add_mul, Nat.one_mul, Nat.mul_comm h w] at hrow
  refine (L.read 1 w h3 (by decide) (by omega)).bind (fun r hr => ?_)
  obtain ⟨g, m, s'⟩ := r
  obtain ⟨h4, -, h5⟩ := hr
  simp only [] at h4 h5 ⊢
  have hg : g.length ≤ w := by rw [h4, at_length]; omega
  rw [u32_of_lt (by omega)]
  obtain ⟨d', e, hl', -⟩ := memcpy_get (dst := d) (src := g) (dOff := n * w) (sOff := 0) (n := g.length) (by omega) (by omega)
  rw [e, bind_ok]
  exact (pad_any L.toLaws w h5).bind (fun s' hs' => Holds.pure ⟨by rw [hl', h1], hs'⟩)

/-! ### From memory, one pixel wide -/

theorem lines_narrow (L : Laws3 o At true) (junk : Nat → UInt8) {bs : List UInt8} {h : Nat} (hodd : bs.length % 2 = 1) (hfit : 1 * h * 3 < 4294967296) (todo : Nat) :
    ∀ (k : Nat) (d : List UInt8) (s : σ) (p : Nat), k + todo = h * 3 → d.length = 1 * h * 3 → At s bs p → p < bs.length → p % 2 = 0 →
      Holds (lines o junk 1 todo k d s) (fun r => r.1 = true ∧ ∃ q, At r.2.2 bs q) := by
  induction todo with
  | zero => intro k d s p _ _ hA _ _; exact Holds.pure ⟨rfl, _, hA⟩
  | succ todo ih =>
    intro k d s p hk hd hA hp he
    unfold lines line
    refine Holds.bind (P := fun r => r.1 = true ∧ r.2.1.length = 1 * h * 3 ∧ ∃ q, At r.2.2 bs q ∧ q < bs.length ∧ q % 2 = 0) ?_ (fun r hr => ?_)
    · refine (into_full L.toLaws2 _ 1 1 hA (by decide) (by decide) (by rw [alloc_length]) (by omega)).bind (fun r hr => ?_)
      obtain ⟨n, row, s⟩ := r
      obtain ⟨rfl, rfl, h2⟩ := hr
      simp only []
      rw [if_neg (by simp)]
      refine (spread (h := h) hd hfit (by omega) (by omega) (by rw [at_length]; omega)).bind (fun d' hd' => ?_)
      unfold pad
      rw [if_pos (by decide)]
      rcases Nat.lt_or_ge (p + 1 * 1) bs.length with hlt | hge
      · refine (Holds.bind (P := fun s => At s bs (p + 2)) ((L.getc h2).bind (fun r hr => Holds.pure (hr.2 hlt).2)) (fun s hs => Holds.pure ⟨rfl, hd'.1, p + 2, hs, by omega, by omega⟩))
      · refine (Holds.bind (P := fun s => At s bs p) ((L.getcStop h2 hge).bind (fun r hr => Holds.pure ?_)) (fun s hs => Holds.pure ⟨rfl, hd'.1, p, hs, by omega, by omega⟩))
        exact (hr.2.2 rfl).2
    · obtain ⟨ok, d', s'⟩ := r
      obtain ⟨h1, h2, q, h3, h4, h5⟩ := hr
      simp only [] at h1
      subst h1
      exact ih (k + 1) d' s' q (by omega) h2 h3 h4 h5

end DevIL.Scitex
