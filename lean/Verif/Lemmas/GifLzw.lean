import Verif.Lemmas.GifBits
/-! The decoder's tables follow the encoder's dictionary. -/
set_option autoImplicit false
namespace DevIL.Gif
open DevIL.Lump DevIL.GifSpec

/-! ### Painting -/

/-- The block after pixel number `n` of a frame has been stored. -/
def paintOne (k : Job) (n : Nat) (c : UInt8) (d : List UInt8) : List UInt8 :=
  if skips k.gfx c.toNat then d else d.set (k.base + n / k.w * k.stride + n % k.w) (UInt8.ofNat (c.toNat + k.pal))

/-- The block after the pixels from number `n` on have been stored. -/
def paint (k : Job) : Nat → List UInt8 → List UInt8 → List UInt8
  | _, [], d => d
  | n, c :: t, d => paint k (n + 1) t (paintOne k n c d)

/-- The frame fits into the block. -/
def Room (k : Job) (d : List UInt8) : Prop := 0 < k.w ∧ 0 < k.h ∧ k.base + (k.h - 1) * k.stride + k.w ≤ d.length

theorem paintOne_length (k : Job) (n : Nat) (c : UInt8) (d : List UInt8) : (paintOne k n c d).length = d.length := by
  unfold paintOne; split <;> simp

theorem paint_length (k : Job) (px : List UInt8) : ∀ n d, (paint k n px d).length = d.length := by
  induction px with
  | nil => intro n d; rfl
  | cons c t ih => intro n d; rw [paint, ih, paintOne_length]

theorem paint_append (k : Job) (a b : List UInt8) : ∀ n d, paint k n (a ++ b) d = paint k (n + a.length) b (paint k n a d) := by
  induction a with
  | nil => intro n d; rfl
  | cons c t ih =>
    intro n d
    rw [List.cons_append, paint, paint, ih, List.length_cons]
    congr 1
    omega

/-- The locals after `n` pixels. -/
def at_ (k : Job) (n : Nat) (d : List UInt8) (s : S) : S :=
  { s with i := n % k.w, read := n / k.w, j := n / k.w % k.h, dp := k.base + n / k.w % k.h * k.stride, data := d }

theorem put_spec {k : Job} {n : Nat} {d : List UInt8} {s : S} {c : UInt8} (hr : Room k d) (hn : n < k.w * k.h) :
    put k c.toNat (at_ k n d s) = .ok { at_ k n (paintOne k n c d) s with i := n % k.w + 1 } := by
  obtain ⟨hw, hh, hl⟩ := hr
  have hq : n / k.w < k.h := Nat.div_lt_of_lt_mul hn
  have hm := Nat.mod_lt n hw
  have hqs : n / k.w * k.stride ≤ (k.h - 1) * k.stride := Nat.mul_le_mul_right _ (by omega)
  unfold put
  by_cases hs : skips k.gfx c.toNat
  · rw [if_pos hs]
    simp [at_, paintOne, hs]
  · rw [if_neg hs]
    simp only [at_]
    rw [Nat.mod_eq_of_lt hq, wr_of_lt (by omega), bind_ok]
    simp [paintOne, hs, hm, pure_eq_ok]

theorem step_at {k : Job} {n : Nat} {d : List UInt8} {s : S} (hw : 0 < k.w) :
    (if n % k.w + 1 = k.w then { at_ k n d s with i := 0, read := n / k.w + 1, j := (n / k.w % k.h + 1) % k.h, dp := k.base + (n / k.w % k.h + 1) % k.h * k.stride }
      else { at_ k n d s with i := n % k.w + 1 }) = at_ k (n + 1) d s := by
  have hm := Nat.mod_lt n hw
  by_cases h : n % k.w + 1 = k.w
  · have e1 : (n + 1) / k.w = n / k.w + 1 := by
      have := Nat.div_add_mod n k.w
      rw [show n + 1 = k.w * (n / k.w) + k.w by omega, ← Nat.mul_add_one, Nat.mul_div_cancel_left _ hw]
    have e2 : (n + 1) % k.w = 0 := by
      have := Nat.div_add_mod n k.w
      rw [show n + 1 = k.w * (n / k.w) + k.w by omega, ← Nat.mul_add_one, Nat.mul_mod_right]
    rw [if_pos h]
    simp [at_, e1, e2]
  · have e1 : (n + 1) / k.w = n / k.w := by
      have := Nat.div_add_mod n k.w
      rw [show n + 1 = k.w * (n / k.w) + (n % k.w + 1) by omega, Nat.mul_add_div hw, Nat.div_eq_of_lt (by omega : n % k.w + 1 < k.w), Nat.add_zero]
    have e2 : (n + 1) % k.w = n % k.w + 1 := by
      have := Nat.div_add_mod n k.w
      rw [show n + 1 = k.w * (n / k.w) + (n % k.w + 1) by omega, Nat.mul_add_mod, Nat.mod_eq_of_lt (by omega : n % k.w + 1 < k.w)]
    rw [if_neg h]
    simp [at_, e1, e2]

theorem popAll_spec {k : Job} {s : S} (p : List UInt8) : ∀ {n : Nat} {d : List UInt8}, Room k d → n + p.length ≤ k.w * k.h →
    popAll k p (at_ k n d s) = .ok (at_ k (n + p.length) (paint k n p d) s) := by
  induction p with
  | nil => intro n d _ _; rfl
  | cons c t ih =>
    intro n d hr hn
    rw [List.length_cons] at hn
    unfold popAll
    rw [put_spec hr (by omega), bind_ok]
    have hr' : Room k (paintOne k n c d) := by
      unfold Room; rw [paintOne_length]; exact hr
    have hs := step_at (k := k) (n := n) (d := paintOne k n c d) (s := s) hr.1
    have hi := ih (n := n + 1) hr' (by omega)
    rw [List.length_cons, paint, show n + (t.length + 1) = n + 1 + t.length by omega, ← hi, ← hs]
    dsimp only
    split <;> rfl

/-! ### The dictionary -/

theorem roots_length (size : Nat) : (roots size).length = 2 ^ size + 2 := by simp [roots]

theorem roots_get {size i : Nat} (h : i < 2 ^ size) : (roots size)[i]? = some [UInt8.ofNat i] := by
  unfold roots
  rw [List.getElem?_append_left (by simpa using h)]
  simp [h]

theorem roots_nil {size i : Nat} {p : List UInt8} (h : 2 ^ size ≤ i) (hp : (roots size)[i]? = some p) : p = [] := by
  unfold roots at hp
  rw [List.getElem?_append_right (by simpa using h)] at hp
  simp only [List.length_map, List.length_range] at hp
  generalize i - 2 ^ size = q at hp
  match q, hp with
  | 0, hp => simpa using hp.symm
  | 1, hp => simpa using hp.symm
  | q + 2, hp => simp at hp

/-- What is always true of the encoder's dictionary. -/
structure Dict (size : Nat) (dict : List (List UInt8)) : Prop where
  roots : ∀ i, i < 2 ^ size + 2 → dict[i]? = (GifSpec.roots size)[i]?
  lower : 2 ^ size + 2 ≤ dict.length
  upper : dict.length ≤ 4096
  short : ∀ (i : Nat) (p : List UInt8), dict[i]? = some p → p.length ≤ i + 1
  learnt : ∀ (i : Nat) (p : List UInt8), 2 ^ size + 2 ≤ i → dict[i]? = some p → p ≠ []

theorem dict_roots {size : Nat} (h : size ≤ 11) : Dict size (roots size) := by
  have : 2 ^ size ≤ 2 ^ 11 := Nat.pow_le_pow_right (by omega) h
  refine ⟨fun _ _ => rfl, by rw [roots_length], by rw [roots_length]; omega, ?_, ?_⟩
  · intro i p hp
    by_cases hi : i < 2 ^ size
    · rw [roots_get hi] at hp; cases hp; simp
    · rw [roots_nil (by omega) hp]; simp
  · intro i p hi hp
    rw [List.getElem?_eq_none (by rw [roots_length]; omega)] at hp
    cases hp

theorem Dict.grow {size : Nat} {dict : List (List UInt8)} (h : Dict size dict) {c : Nat} {p rest : List UInt8} (hc : dict[c]? = some p) (hp : p ≠ []) :
    Dict size (grow dict p rest) := by
  unfold GifSpec.grow
  split
  · rename_i hl
    have hcl : c < dict.length := (List.getElem?_eq_some_iff.mp hc).1
    have hnew : ∀ (i : Nat) (q : List UInt8), (dict ++ [p ++ rest.take 1])[i]? = some q → dict[i]? = some q ∨ (i = dict.length ∧ q = p ++ rest.take 1) := by
      intro i q hq
      by_cases hi : i < dict.length
      · rw [List.getElem?_append_left hi] at hq; exact .inl hq
      · rw [List.getElem?_append_right (by omega)] at hq
        have : i - dict.length = 0 := by
          by_contra hne
          rw [List.getElem?_eq_none (by simp; omega)] at hq
          cases hq
        rw [this] at hq
        simp only [List.getElem?_cons_zero, Option.some.injEq] at hq
        exact .inr ⟨by omega, hq.symm⟩
    refine ⟨?_, ?_, ?_, ?_, ?_⟩
    · intro i hi
      rw [List.getElem?_append_left (by have := h.lower; omega)]
      exact h.roots i hi
    · have := h.lower; simp; omega
    · simp; omega
    · intro i q hq
      rcases hnew i q hq with hq | ⟨rfl, rfl⟩
      · exact h.short i q hq
      · have := h.short c p hc
        simp only [List.length_append, List.length_take]
        omega
    · intro i q hi hq
      rcases hnew i q hq with hq | ⟨rfl, rfl⟩
      · exact h.learnt i q hi hq
      · simp [hp]
  · exact h

/-- The entries the decoder has: the code of all but the last pixel, and the last pixel. -/
def Tab (size : Nat) (dict : List (List UInt8)) (slot : Nat) (suffix : List UInt8) (pre : List Int) : Prop :=
  ∀ i, 2 ^ size + 2 ≤ i → i < slot → ∃ (q : List UInt8) (b : UInt8) (j : Nat), j < i ∧ pre[i]? = some (j : Int) ∧ suffix[i]? = some b ∧ dict[j]? = some q ∧ q ≠ [] ∧
    dict[i]? = some (q ++ [b])

theorem head_append {q t : List UInt8} (h : q ≠ []) : (q ++ t).head? = q.head? := by
  cases q with
  | nil => exact absurd rfl h
  | cons => rfl

/-- The decoder's walk through its tables gives the phrase. -/
theorem expand_spec {size : Nat} {dict : List (List UInt8)} {slot : Nat} {s : S} (hd : Dict size dict) (hs : size ≤ 8) (ht : Tab size dict slot s.suffix s.pre) (i : Nat) :
    ∀ {p stk : List UInt8} {fuel : Nat}, dict[i]? = some p → p ≠ [] → (i < slot ∨ i < 2 ^ size) → p.length < fuel → p.length + stk.length ≤ 4096 →
    ∃ r : Nat, expand (2 ^ size + 2) s fuel (i : Int) stk = .ok (some ((r : Int), p ++ stk)) ∧ r < 2 ^ size ∧ p.head? = some (UInt8.ofNat r) := by
  induction i using Nat.strongRecOn with
  | ind i ih =>
    intro p stk fuel hp hne hi hf hl
    have hplen : 0 < p.length := List.length_pos_iff.mpr hne
    obtain ⟨fuel, rfl⟩ : ∃ f, fuel = f + 1 := ⟨fuel - 1, by omega⟩
    have h256 : 2 ^ size ≤ 2 ^ 8 := Nat.pow_le_pow_right (by omega) hs
    unfold expand
    by_cases hr : 2 ^ size + 2 ≤ i
    · rw [if_pos (by exact_mod_cast hr), if_neg (by show ¬ 4096 ≤ stk.length; omega)]
      obtain ⟨q, b, j, hj, e1, e2, e3, e4, e5⟩ := ht i hr (by omega)
      rw [hp] at e5
      injection e5 with e5
      subst e5
      rw [Int.toNat_natCast, rd_of_some e2, bind_ok, rd_of_some e1, bind_ok]
      rw [List.length_append, List.length_singleton] at hf hl
      obtain ⟨r, e, h1, h2⟩ := ih j hj (stk := b :: stk) (fuel := fuel) e3 e4 (by omega) (by omega) (by simp; omega)
      refine ⟨r, ?_, h1, ?_⟩
      · rw [e, List.append_assoc]; rfl
      · rw [head_append e4, h2]
    · have hroot := hd.roots i (by omega)
      rw [hp] at hroot
      have hlt : i < 2 ^ size := by
        by_contra hge
        exact hne (roots_nil (by omega) hroot.symm)
      rw [roots_get hlt] at hroot
      injection hroot with hroot
      subst hroot
      rw [if_neg (by intro h; exact hr (by exact_mod_cast h)), if_neg (by show ¬ 4096 ≤ stk.length; simp at hl; omega)]
      refine ⟨i, ?_, hlt, rfl⟩
      rw [show ((i : Int) % 256).toNat = i by omega]
      rfl

theorem codeBits_bounds {n : Nat} (h : 2 ≤ n) : 2 ^ (codeBits n - 1) ≤ n - 1 ∧ n ≤ 2 ^ codeBits n := by
  unfold codeBits
  have h1 := Nat.log2_self_le (n := n - 1) (by omega)
  have h2 := Nat.lt_log2_self (n := n - 1)
  rw [Nat.add_sub_cancel]
  constructor
  · exact h1
  · omega

theorem codeBits_eq {n w : Nat} (h0 : 0 < w) (h1 : 2 ^ (w - 1) ≤ n - 1) (h2 : n ≤ 2 ^ w) : codeBits n = w := by
  unfold codeBits
  have hp : 0 < 2 ^ (w - 1) := by positivity
  have hp' : 0 < 2 ^ w := by positivity
  have : (n - 1).log2 = w - 1 := by
    rw [Nat.log2_eq_iff (by omega)]
    refine ⟨h1, ?_⟩
    rw [Nat.sub_add_cancel h0]
    omega
  omega

theorem codeBits_le {n : Nat} (h : 2 ≤ n) (hn : n ≤ 4096) : codeBits n ≤ 12 := by
  by_contra hc
  have h1 := (codeBits_bounds h).1
  have : 2 ^ 12 ≤ 2 ^ (codeBits n - 1) := Nat.pow_le_pow_right (by omega) (by omega)
  omega

/-- The globals that never change. -/
structure Consts (size : Nat) (z : Z) : Prop where
  clear : z.clear = 2 ^ size
  ending : z.ending = 2 ^ size + 1
  newcodes : z.newcodes = 2 ^ size + 2

/-- The decoder is in step with an encoder that has the dictionary `dict` and the pixels `px` left, after at least one code. -/
structure Run (size : Nat) (dict : List (List UInt8)) (px : List UInt8) (z : Z) (s : S) : Prop where
  consts : Consts size z
  ok : Dict size dict
  cur : z.cur = codeBits dict.length
  top : z.top = 2 ^ z.cur
  lens : s.suffix.length = 4097 ∧ s.pre.length = 4097
  tab : Tab size dict z.slot s.suffix s.pre
  last : (z.slot + 1 = dict.length ∧ ∃ q, dict[s.oc]? = some q ∧ q ≠ [] ∧ s.oc < z.slot ∧ q.head? = some s.fc ∧ dict[z.slot]? = some (q ++ px.take 1)) ∨
    (z.slot = 4096 ∧ dict.length = 4096)

theorem learn_spec {size : Nat} {dict : List (List UInt8)} {p rest : List UInt8} {z : Z} {s : S} {c r : Nat} (h : Run size dict (p ++ rest) z s) (hs : 2 ≤ size ∧ size ≤ 8)
    (hc : dict[c]? = some p) (hp : p ≠ []) (hr : p.head? = some (UInt8.ofNat r)) (hrlt : r < 2 ^ size) :
    ∃ z' suffix pre oc fc, learn c (r : Int) z s = .ok (z', { s with suffix := suffix, pre := pre, oc := oc, fc := fc }) ∧ z'.src = z.src ∧
      Run size (grow dict p rest) rest z' { s with suffix := suffix, pre := pre, oc := oc, fc := fc } := by
  have h256 : 2 ^ size ≤ 2 ^ 8 := Nat.pow_le_pow_right (by omega) hs.2
  have hlow := h.ok.lower
  have hup := h.ok.upper
  have hcl : c < dict.length := (List.getElem?_eq_some_iff.mp hc).1
  obtain ⟨b1, b2⟩ := codeBits_bounds (n := dict.length) (by omega)
  have hg := h.ok.grow (rest := rest) hc hp
  unfold learn
  rcases h.last with ⟨hsl, q, q1, q2, q3, q4, q5⟩ | ⟨hsl, hl⟩
  · have htop : z.slot < z.top := by rw [h.top, h.cur]; omega
    have hr256 : ((r : Int) % 256).toNat = r := by omega
    obtain ⟨x, t, rfl⟩ : ∃ x t, p = x :: t := by cases p with | nil => exact absurd rfl hp | cons x t => exact ⟨x, t, rfl⟩
    simp only [List.head?_cons, Option.some.injEq] at hr
    subst hr
    rw [if_pos htop, hr256]
    dsimp only
    rw [wr_of_lt (b := s.suffix) (by rw [h.lens.1]; omega), bind_ok, wr_of_lt (b := s.pre) (by rw [h.lens.2]; omega), bind_ok, pure_eq_ok, bind_ok]
    dsimp only
    refine ⟨_, _, _, _, _, rfl, ?_, ?_⟩
    · split <;> rfl
    have hdict : ∀ i, i < dict.length → (grow dict (UInt8.ofNat r :: t) rest)[i]? = dict[i]? := by
      intro i hi
      unfold GifSpec.grow
      split
      · exact List.getElem?_append_left hi
      · rfl
    have htab : Tab size (grow dict (UInt8.ofNat r :: t) rest) (z.slot + 1) (s.suffix.set z.slot (UInt8.ofNat r)) (s.pre.set z.slot (s.oc : Int)) := by
      intro i h1 h2
      by_cases hi : i = z.slot
      · subst hi
        refine ⟨q, UInt8.ofNat r, s.oc, q3, ?_, ?_, ?_, q2, ?_⟩
        · rw [List.getElem?_set_self (by rw [h.lens.2]; omega)]
        · rw [List.getElem?_set_self (by rw [h.lens.1]; omega)]
        · rw [hdict _ (by omega), q1]
        · rw [hdict _ (by omega), q5]; rfl
      · obtain ⟨q', b, j, e0, e1, e2, e3, e4, e5⟩ := h.tab i h1 (by omega)
        refine ⟨q', b, j, e0, ?_, ?_, ?_, e4, ?_⟩
        · rw [List.getElem?_set_ne (by omega), e1]
        · rw [List.getElem?_set_ne (by omega), e2]
        · rw [hdict _ (by omega), e3]
        · rw [hdict _ (by omega), e5]
    have hlens : (s.suffix.set z.slot (UInt8.ofNat r)).length = 4097 ∧ (s.pre.set z.slot (s.oc : Int)).length = 4097 := by
      simp [h.lens.1, h.lens.2]
    by_cases hfull : dict.length < 4096
    · have hgl : (grow dict (UInt8.ofNat r :: t) rest).length = dict.length + 1 := by
        unfold GifSpec.grow; rw [if_pos hfull]; simp
      have hlast : ∃ q, (grow dict (UInt8.ofNat r :: t) rest)[c]? = some q ∧ q ≠ [] ∧ c < z.slot + 1 ∧ q.head? = some (UInt8.ofNat r) ∧
          (grow dict (UInt8.ofNat r :: t) rest)[z.slot + 1]? = some (q ++ rest.take 1) := by
        refine ⟨UInt8.ofNat r :: t, by rw [hdict _ hcl, hc], hp, by omega, rfl, ?_⟩
        unfold GifSpec.grow
        rw [if_pos hfull, hsl, List.getElem?_append_right (by omega), Nat.sub_self]
        rfl
      by_cases hb : z.slot + 1 ≥ z.top
      · have h12 : z.cur < 12 := by
          by_contra hge
          have : 2 ^ 12 ≤ 2 ^ z.cur := Nat.pow_le_pow_right (by omega) (by omega)
          rw [h.top] at hb
          omega
        have hlog : codeBits (dict.length + 1) = z.cur + 1 := by
          apply codeBits_eq (by omega)
          · rw [Nat.add_sub_cancel, Nat.add_sub_cancel, ← h.top]; omega
          · rw [Nat.pow_succ, h.cur]; omega
        rw [if_pos ⟨hb, h12⟩]
        exact ⟨⟨h.consts.1, h.consts.2, h.consts.3⟩, hg, by rw [hgl, hlog], by show z.top * 2 = 2 ^ (z.cur + 1); rw [h.top, Nat.pow_succ], hlens, htab,
          .inl ⟨by show z.slot + 1 + 1 = _; omega, hlast⟩⟩
      · rw [if_neg (by rintro ⟨h1, _⟩; exact hb h1)]
        have hlog : codeBits (dict.length + 1) = z.cur := by
          have h0 : 0 < z.cur := by rw [h.cur]; unfold codeBits; omega
          apply codeBits_eq h0
          · rw [Nat.add_sub_cancel, h.cur]; omega
          · rw [← h.top]; omega
        exact ⟨⟨h.consts.1, h.consts.2, h.consts.3⟩, hg, by rw [hgl, hlog], h.top, hlens, htab, .inl ⟨by show z.slot + 1 + 1 = _; omega, hlast⟩⟩
    · have hgl : grow dict (UInt8.ofNat r :: t) rest = dict := by unfold GifSpec.grow; rw [if_neg hfull]
      have hcur : z.cur = 12 := by
        have := codeBits_le (n := dict.length) (by omega) hup
        rw [h.cur]
        apply codeBits_eq (by omega)
        · rw [show dict.length = 4096 by omega]; decide
        · omega
      rw [if_neg (by rintro ⟨_, h1⟩; omega)]
      rw [hgl] at hg htab ⊢
      exact ⟨⟨h.consts.1, h.consts.2, h.consts.3⟩, hg, h.cur, h.top, hlens, htab, .inr ⟨by show z.slot + 1 = _; omega, by omega⟩⟩
  · have hcur : z.cur = 12 := by
      rw [h.cur]
      exact codeBits_eq (by omega) (by rw [hl]; decide) (by omega)
    have hgl : grow dict p rest = dict := by unfold GifSpec.grow; rw [if_neg (by omega)]
    rw [if_neg (by rw [h.top, hcur, hsl]; decide), pure_eq_ok, bind_ok]
    dsimp only
    rw [if_neg (by rintro ⟨_, h1⟩; omega)]
    refine ⟨z, s.suffix, s.pre, s.oc, s.fc, rfl, rfl, ?_⟩
    rw [hgl]
    exact ⟨h.consts, h.ok, h.cur, h.top, h.lens, h.tab, .inr ⟨hsl, hl⟩⟩

theorem useCode_spec {size : Nat} {dict : List (List UInt8)} {p rest : List UInt8} {z : Z} {s : S} {c n : Nat} {k : Job} {d : List UInt8}
    (h : Run size dict (p ++ rest) z s) (hs : 2 ≤ size ∧ size ≤ 8) (hc : dict[c]? = some p) (hp : p ≠ []) (hr : Room k d) (hn : n + p.length ≤ k.w * k.h) :
    ∃ z' s', useCode k c z (at_ k n d s) = .ok (some (z', at_ k (n + p.length) (paint k n p d) s')) ∧ z'.src = z.src ∧ Run size (grow dict p rest) rest z' s' := by
  have hcl : c < dict.length := (List.getElem?_eq_some_iff.mp hc).1
  have hup := h.ok.upper
  have hplen : 0 < p.length := List.length_pos_iff.mpr hp
  have hpl := h.ok.short c p hc
  have main : ∃ r : Nat, expand z.newcodes (at_ k n d s) 4098 ((if c ≥ z.slot then s.oc else c : Nat) : Int) (if c ≥ z.slot then [s.fc] else []) =
      .ok (some ((r : Int), p)) ∧ r < 2 ^ size ∧ p.head? = some (UInt8.ofNat r) ∧ (if c ≥ z.slot then s.oc else c) < MAX_CODES := by
    rw [h.consts.newcodes]
    by_cases hge : c ≥ z.slot
    · rcases h.last with ⟨hsl, q, q1, q2, q3, q4, q5⟩ | ⟨hsl, hl⟩
      · have hcs : c = z.slot := by omega
        rw [hcs, q5] at hc
        injection hc with hc
        have hpq : p = q ++ [s.fc] := by
          cases q with
          | nil => exact absurd rfl q2
          | cons x q =>
            cases p with
            | nil => exact absurd rfl hp
            | cons y p =>
              simp only [List.cons_append, List.take_succ_cons, List.take_zero, List.cons.injEq] at hc
              simp only [List.head?_cons, Option.some.injEq] at q4
              rw [← hc.1, ← hc.2, List.cons_append, ← hc.1, q4]
        have hq := h.ok.short _ _ q1
        rw [if_pos hge, if_pos hge]
        obtain ⟨r, e, e1, e2⟩ := expand_spec (s := at_ k n d s) h.ok hs.2 h.tab s.oc (stk := [s.fc]) (fuel := 4098) q1 q2 (.inl q3) (by omega) (by simp; omega)
        refine ⟨r, by rw [e, hpq], e1, ?_, by show s.oc < 4096; omega⟩
        rw [hpq, head_append q2, e2]
      · omega
    · rw [if_neg hge, if_neg hge]
      obtain ⟨r, e, e1, e2⟩ := expand_spec (s := at_ k n d s) h.ok hs.2 h.tab c (stk := []) (fuel := 4098) hc hp (by omega) (by omega) (by simp; omega)
      exact ⟨r, by rw [e, List.append_nil], e1, e2, by show c < 4096; omega⟩
  obtain ⟨r, e, e1, e2, e3⟩ := main
  obtain ⟨z', suffix, pre, oc, fc, f1, f2, f3⟩ := learn_spec (s := at_ k n d s) (c := c) (r := r) (dict := dict) (p := p) (rest := rest) (z := z)
    ⟨h.consts, h.ok, h.cur, h.top, h.lens, h.tab, h.last⟩ hs hc hp e2 e1
  refine ⟨z', { s with suffix := suffix, pre := pre, oc := oc, fc := fc }, ?_, f2, ⟨f3.consts, f3.ok, f3.cur, f3.top, f3.lens, f3.tab, f3.last⟩⟩
  unfold useCode
  dsimp only
  rw [if_neg (show ¬ (if c ≥ z.slot then (at_ k n d s).oc else c) ≥ MAX_CODES from Nat.not_le.mpr e3)]
  show (expand z.newcodes (at_ k n d s) 4098 ((if c ≥ z.slot then s.oc else c : Nat) : Int) (if c ≥ z.slot then [s.fc] else []) >>= _) = _
  rw [e, bind_ok]
  dsimp only
  rw [f1, bind_ok]
  dsimp only
  have := popAll_spec (k := k) (s := { s with suffix := suffix, pre := pre, oc := oc, fc := fc }) p (n := n) hr hn
  rw [show ({ at_ k n d s with suffix := suffix, pre := pre, oc := oc, fc := fc } : S) = at_ k n d { s with suffix := suffix, pre := pre, oc := oc, fc := fc } from rfl, this, bind_ok]
  rfl

/-! ### The loop -/

/-- The decoder after a clear code. -/
structure Fresh (size : Nat) (z : Z) : Prop where
  consts : Consts size z
  cur : z.cur = size + 1
  top : z.top = 2 ^ (size + 1)
  slot : z.slot = 2 ^ size + 2

theorem bitsOfCodes_cons (w c : Nat) (cs : List (Nat × Nat)) : bitsOfCodes ((w, c) :: cs) = bitsOf w c ++ bitsOfCodes cs := by
  simp [bitsOfCodes]

theorem codeBits_roots {size : Nat} (hs : 2 ≤ size) : codeBits (roots size).length = size + 1 := by
  rw [roots_length]
  have : 2 ^ 2 ≤ 2 ^ size := Nat.pow_le_pow_right (by omega) hs
  apply codeBits_eq (by omega)
  · rw [Nat.add_sub_cancel]; omega
  · rw [Nat.pow_succ]; omega

/-- Reading a code of the encoder's width. -/
theorem get_spec {z : Z} {n c : Nat} {cs : List (Nat × Nat)} {pad : List Bool} {tail : List UInt8} (hn : 2 ≤ n) (hn' : n ≤ 4096) (hc : c < n) (hcur : z.cur = codeBits n)
    (h : Feeds z.src (bitsOfCodes ((codeBits n, c) :: cs) ++ pad) tail) :
    ∃ src, get_next_code z = .ok (c, { z with src := src }) ∧ Feeds src (bitsOfCodes cs ++ pad) tail := by
  rw [bitsOfCodes_cons, List.append_assoc, ← hcur] at h
  have hb := (codeBits_bounds hn).2
  obtain ⟨src, e, hf⟩ := nextCode_spec h (by rw [hcur]; unfold codeBits; omega) (by rw [hcur]; exact codeBits_le hn hn') (by rw [hcur]; omega)
  refine ⟨src, ?_, hf⟩
  unfold get_next_code
  rw [e, bind_ok]
  rfl

/-- The codes after a clear code, up to the first that is none. -/
theorem skipClears_spec {size : Nat} (hs : 2 ≤ size ∧ size ≤ 8) {lone : Bool} (cs : List (Nat × Nat)) : ∀ {px : List UInt8} {z : Z} {fuel : Nat} {pad : List Bool} {tail : List UInt8},
    Codes size lone true (roots size) px cs → px ≠ [] → Fresh size z → Feeds z.src (bitsOfCodes cs ++ pad) tail → cs.length ≤ fuel →
    ∃ c src rest cs', skipClears fuel z = .ok (c, { z with src := src }) ∧ c < 2 ^ size ∧ px = UInt8.ofNat c :: rest ∧ (rest = [] → lone = true) ∧
      Codes size lone false (grow (roots size) [UInt8.ofNat c] rest) rest cs' ∧ cs'.length < cs.length ∧ Feeds src (bitsOfCodes cs' ++ pad) tail := by
  have h256 : 2 ^ size ≤ 2 ^ 8 := Nat.pow_le_pow_right (by omega) hs.2
  have h4 : 2 ^ 2 ≤ 2 ^ size := Nat.pow_le_pow_right (by omega) hs.1
  induction cs with
  | nil => intro px z fuel pad tail hc; cases hc
  | cons w cs ih =>
    intro px z fuel pad tail hc hpx hz hf hfuel
    rw [List.length_cons] at hfuel
    obtain ⟨fuel, rfl⟩ : ∃ f, fuel = f + 1 := ⟨fuel - 1, by omega⟩
    have hlen := roots_length size
    have hcur : z.cur = codeBits (roots size).length := by rw [codeBits_roots hs.1, hz.cur]
    unfold skipClears
    cases hc with
    | finish => exact absurd rfl hpx
    | clear _ _ _ _ _ hc =>
      obtain ⟨src, e, hf⟩ := get_spec (by omega) (by omega) (by show 2 ^ size < _; omega) hcur hf
      obtain ⟨c, src', rest, cs', i1, i2, i3, i4, i5, i6, i7⟩ := ih (z := { z with src := src }) (fuel := fuel) hc hpx ⟨⟨hz.consts.1, hz.consts.2, hz.consts.3⟩, hz.cur, hz.top, hz.slot⟩ hf (by omega)
      refine ⟨c, src', rest, cs', ?_, i2, i3, i4, i5, by rw [List.length_cons]; omega, i7⟩
      rw [e, bind_ok]
      dsimp only
      rw [if_pos (show clearCode size = z.clear by rw [hz.consts.clear]), i1]
    | code _ _ c p rest _ hp hne hlone hc =>
      have hclt : c < (roots size).length := (List.getElem?_eq_some_iff.mp hp).1
      obtain ⟨src, e, hf⟩ := get_spec (by omega) (by omega) hclt hcur hf
      have hlt : c < 2 ^ size := by
        by_contra hge
        exact hne (roots_nil (by omega) hp)
      rw [roots_get hlt] at hp
      injection hp with hp
      subst hp
      refine ⟨c, src, rest, cs, ?_, hlt, rfl, hlone rfl, hc, by simp, hf⟩
      rw [e, bind_ok]
      dsimp only
      rw [if_neg (by show ¬ c = z.clear; rw [hz.consts.clear]; omega)]
      rfl

theorem restart_spec {size : Nat} (hs : 2 ≤ size ∧ size ≤ 8) {k : Job} {n c : Nat} {d rest : List UInt8} {z : Z} {s : S} (hz : Fresh size z) (hr : Room k d) (hc : c < 2 ^ size)
    (hn : n + 1 < k.w * k.h) (hl : s.suffix.length = 4097 ∧ s.pre.length = 4097) :
    ∃ s', restart k c z (at_ k n d s) = .ok (some (at_ k (n + 1) (paint k n [UInt8.ofNat c] d) s')) ∧
      Run size (grow (roots size) [UInt8.ofNat c] rest) rest z s' := by
  have h256 : 2 ^ size ≤ 2 ^ 8 := Nat.pow_le_pow_right (by omega) hs.2
  have h4 : 2 ^ 2 ≤ 2 ^ size := Nat.pow_le_pow_right (by omega) hs.1
  obtain ⟨hw, hh, hlen⟩ := id hr
  have hput := put_spec (k := k) (n := n) (d := d) (s := { s with oc := c, fc := UInt8.ofNat c }) (c := UInt8.ofNat c) hr (by omega)
  have hcn : (UInt8.ofNat c).toNat = c := by simp; omega
  rw [hcn] at hput
  refine ⟨{ s with oc := c, fc := UInt8.ofNat c }, ?_, ?_⟩
  · unfold restart
    rw [if_neg (by rw [hz.slot]; omega)]
    dsimp only
    rw [show ({ at_ k n d s with oc := c, fc := UInt8.ofNat c } : S) = at_ k n d { s with oc := c, fc := UInt8.ofNat c } from rfl, hput, bind_ok]
    have hstep := step_at (k := k) (n := n) (d := paintOne k n (UInt8.ofNat c) d) (s := { s with oc := c, fc := UInt8.ofNat c }) hw
    rw [paint, paint, ← hstep]
    dsimp only [at_]
    by_cases hi : n % k.w + 1 = k.w
    · have hq : n / k.w + 1 < k.h := by
        have h1 := Nat.div_add_mod n k.w
        by_contra hge
        have : k.w * k.h ≤ k.w * (n / k.w + 1) := Nat.mul_le_mul_left _ (by omega)
        rw [Nat.mul_add_one] at this
        omega
      have hm := Nat.mod_eq_of_lt (by omega : n / k.w < k.h)
      rw [if_pos hi, if_pos hi]
      simp only [hm, if_neg (show ¬ n / k.w + 1 ≥ k.h by omega), Nat.mod_eq_of_lt hq, Nat.add_assoc, Nat.add_one_mul, pure_eq_ok]
    · rw [if_neg hi, if_neg hi]
      rfl
  · have hgrow : grow (roots size) [UInt8.ofNat c] rest = roots size ++ [[UInt8.ofNat c] ++ rest.take 1] := by
      unfold GifSpec.grow
      rw [if_pos (by rw [roots_length]; omega)]
    refine ⟨hz.consts, (dict_roots (by omega)).grow (roots_get hc) (by simp), ?_, by rw [hz.top, hz.cur], hl, ?_, .inl ⟨?_, [UInt8.ofNat c], ?_, by simp, ?_, rfl, ?_⟩⟩
    · rw [hgrow, hz.cur]
      symm
      apply codeBits_eq (by omega)
      · simp [roots_length]
      · simp [roots_length, Nat.pow_succ]; omega
    · intro i h1 h2
      rw [hz.slot] at h2
      omega
    · rw [hz.slot, hgrow, List.length_append, roots_length]; rfl
    · rw [hgrow, List.getElem?_append_left (by rw [roots_length]; show c < _; omega)]
      exact roots_get hc
    · rw [hz.slot]; show c < _; omega
    · rw [hz.slot, hgrow, List.getElem?_append_right (by rw [roots_length]), roots_length, Nat.sub_self]
      rfl

/-- The state a clear code leads to. -/
theorem clear_step {size : Nat} (hs : 2 ≤ size ∧ size ≤ 8) {k : Job} {cs : List (Nat × Nat)} {px : List UInt8} {z : Z} {s : S} {fuel n : Nat} {d : List UInt8} {src : Src}
    {pad : List Bool} {tail : List UInt8} (hc : Codes size false true (roots size) px cs) (hpx : px ≠ []) (hk : Consts size z)
    (hg : get_next_code z = .ok (clearCode size, { z with src := src })) (hf : Feeds src (bitsOfCodes cs ++ pad) tail) (hr : Room k d) (hn : n + px.length = k.w * k.h)
    (hl : s.suffix.length = 4097 ∧ s.pre.length = 4097) (hfuel : cs.length ≤ fuel) :
    ∃ c z' s' rest cs', dataLoop k size (fuel + 1) z (at_ k n d s) = dataLoop k size fuel z' (at_ k (n + 1) (paint k n [UInt8.ofNat c] d) s') ∧ px = UInt8.ofNat c :: rest ∧
      Codes size false false (grow (roots size) [UInt8.ofNat c] rest) rest cs' ∧ cs'.length < cs.length ∧ Feeds z'.src (bitsOfCodes cs' ++ pad) tail ∧
      Run size (grow (roots size) [UInt8.ofNat c] rest) rest z' s' := by
  have hfr : Fresh size { z with cur := size + 1, slot := z.newcodes, top := 2 ^ (size + 1), src := src } := ⟨⟨hk.1, hk.2, hk.3⟩, rfl, rfl, hk.newcodes⟩
  obtain ⟨c, src', rest, cs', e, h1, h2, h3, h4, h5, h6⟩ := skipClears_spec hs cs hc hpx hfr hf hfuel
  have hrl : 0 < rest.length := List.length_pos_iff.mpr (fun h => (by cases h3 h))
  rw [h2, List.length_cons] at hn
  obtain ⟨hw, hh, _⟩ := id hr
  obtain ⟨s', e', hrun⟩ := restart_spec hs (rest := rest) (s := s) (n := n) (z := { z with cur := size + 1, slot := z.newcodes, top := 2 ^ (size + 1), src := src' })
    ⟨⟨hk.1, hk.2, hk.3⟩, rfl, rfl, hk.newcodes⟩ hr h1 (by omega) hl
  refine ⟨c, _, s', rest, cs', ?_, h2, h4, h5, h6, hrun⟩
  conv => lhs; unfold dataLoop
  rw [hg, bind_ok]
  dsimp only
  have hq : n / k.w < k.h := Nat.div_lt_of_lt_mul (by omega)
  rw [if_neg (by rw [hk.ending]; show ¬ (2 ^ size = 2 ^ size + 1 ∨ k.h ≤ n / k.w); omega), if_pos (show clearCode size = z.clear by rw [hk.clear]), e, bind_ok]
  dsimp only
  rw [if_neg (by rw [hk.ending]; omega), e', bind_ok]

/-- The decoder writes the pixels the codes stand for, and stops at the end of the codes. -/
theorem dataLoop_spec {size : Nat} (hs : 2 ≤ size ∧ size ≤ 8) {k : Job} {pad : List Bool} {tail : List UInt8} (hpad : pad.length < 8) (fuel : Nat) :
    ∀ {cs : List (Nat × Nat)} {dict : List (List UInt8)} {px : List UInt8} {z : Z} {s : S} {n : Nat} {d : List UInt8},
    Codes size false false dict px cs → Run size dict px z s → Feeds z.src (bitsOfCodes cs ++ pad) tail → Room k d → n + px.length = k.w * k.h → cs.length ≤ fuel →
    ∃ z', dataLoop k size fuel z (at_ k n d s) = .ok (true, paint k n px d, z') ∧ At z'.src.inp tail ∧ z'.src.buf.length = 257 := by
  have h256 : 2 ^ size ≤ 2 ^ 8 := Nat.pow_le_pow_right (by omega) hs.2
  have h4 : 2 ^ 2 ≤ 2 ^ size := Nat.pow_le_pow_right (by omega) hs.1
  induction fuel using Nat.strongRecOn with
  | ind fuel ih =>
    intro cs dict px z s n d hc hrun hf hr hn hfuel
    have hlow := hrun.ok.lower
    have hup := hrun.ok.upper
    obtain ⟨hw, hh, _⟩ := id hr
    cases hc with
    | finish =>
      obtain ⟨fuel, rfl⟩ : ∃ f, fuel = f + 1 := ⟨fuel - 1, by simp at hfuel; omega⟩
      obtain ⟨src, e, hf⟩ := get_spec (by omega) hup (by show 2 ^ size + 1 < _; omega) hrun.cur hf
      refine ⟨{ z with src := src }, ?_, Feeds.done (pad := pad) (by simpa [bitsOfCodes] using hf) hpad⟩
      unfold dataLoop
      rw [e, bind_ok]
      dsimp only
      rw [if_pos (.inl hrun.consts.ending.symm)]
      rfl
    | clear _ _ _ cs hpx hc =>
      rw [List.length_cons] at hfuel
      obtain ⟨fuel, rfl⟩ : ∃ f, fuel = f + 1 := ⟨fuel - 1, by omega⟩
      obtain ⟨src, e, hf⟩ := get_spec (by omega) hup (by show 2 ^ size < _; omega) hrun.cur hf
      obtain ⟨c, z', s', rest, cs', e1, rfl, e3, e4, e5, e6⟩ := clear_step hs hc (fun h => (by cases hpx h)) hrun.consts e hf hr hn hrun.lens (fuel := fuel) (by omega)
      rw [e1]
      rw [List.length_cons] at hn
      obtain ⟨z'', e7, e8⟩ := ih fuel (by omega) (d := paint k n [UInt8.ofNat c] d) (n := n + 1) e3 e6 e5 (by unfold Room; rw [paint_length]; exact hr) (by omega) (by omega)
      exact ⟨z'', e7, e8⟩
    | code _ _ c p rest cs hp hne _ hc =>
      rw [List.length_cons] at hfuel
      obtain ⟨fuel, rfl⟩ : ∃ f, fuel = f + 1 := ⟨fuel - 1, by omega⟩
      have hclt : c < dict.length := (List.getElem?_eq_some_iff.mp hp).1
      obtain ⟨src, e, hf⟩ := get_spec (by omega) hup hclt hrun.cur hf
      rw [List.length_append] at hn
      have hplen : 0 < p.length := List.length_pos_iff.mpr hne
      obtain ⟨z', s', e1, e2, e3⟩ := useCode_spec (n := n) (k := k) (z := { z with src := src }) (s := s)
        ⟨⟨hrun.consts.1, hrun.consts.2, hrun.consts.3⟩, hrun.ok, hrun.cur, hrun.top, hrun.lens, hrun.tab, hrun.last⟩ hs hp hne hr (by omega)
      obtain ⟨z'', e7, e8⟩ := ih fuel (by omega) (d := paint k n p d) (n := n + p.length) hc e3 (by rw [e2]; exact hf) (by unfold Room; rw [paint_length]; exact hr) (by omega) (by omega)
      refine ⟨z'', ?_, e8⟩
      unfold dataLoop
      rw [e, bind_ok]
      dsimp only
      have hq : n / k.w < k.h := Nat.div_lt_of_lt_mul (by omega)
      have hroot : ∀ x, 2 ^ size ≤ x → x < 2 ^ size + 2 → c ≠ x := by
        rintro x h1 h2 rfl
        rw [hrun.ok.roots _ h2] at hp
        exact hne (roots_nil h1 hp)
      rw [if_neg (by rw [hrun.consts.ending]; rintro (h | h); exact hroot _ (by omega) (by omega) h; exact absurd h (by show ¬ k.h ≤ n / k.w; omega)),
        if_neg (by rw [hrun.consts.clear]; exact hroot _ (by omega) (by omega)), e1, bind_ok, paint_append]
      exact e7

/-- The pixels of a frame are decoded. -/
theorem GifGetData_spec {size : Nat} (hs : 2 ≤ size ∧ size ≤ 8) {px : List UInt8} {blocks : List (List UInt8)} (hp : GifSpec.Holds size false px blocks) :
    ∃ F, ∀ fuel, F ≤ fuel → ∀ {k : Job} {tail : List UInt8} {junk : Junk} {data buf : List UInt8} {l : R}, Room k data → px.length = k.w * k.h → buf.length = 257 →
      At l (UInt8.ofNat size :: (blockBytes blocks ++ tail)) → ∃ buf' l', GifGetData fuel junk k data buf l = .ok (true, paint k 0 px data, buf', l') ∧ At l' tail ∧ buf'.length = 257 := by
  obtain ⟨hbo, cs, pad, hc, hbits, hpad⟩ := hp
  have h256 : 2 ^ size ≤ 2 ^ 8 := Nat.pow_le_pow_right (by omega) hs.2
  have h4 : 2 ^ 2 ≤ 2 ^ size := Nat.pow_le_pow_right (by omega) hs.1
  refine ⟨cs.length + 1, fun fuel hfuel k tail junk data buf l hr hn hb hl => ?_⟩
  obtain ⟨hw, hh, _⟩ := id hr
  have hpos : 0 < k.w * k.h := Nat.mul_pos hw hh
  obtain ⟨fuel, rfl⟩ : ∃ f, fuel = f + 1 := ⟨fuel - 1, by omega⟩
  have hsz : (UInt8.ofNat size).toNat = size := by simp; omega
  have hadv := At.adv_cons hl
  have hfeeds : Feeds (startZ size buf (adv l 1)).src (bitsOfCodes ((codeBits (roots size).length, clearCode size) :: cs) ++ pad) tail := by
    refine ⟨blocks.flatten, by show 0 ≤ 8; omega, ⟨0, blocks, rfl, by show 0 + 0 ≤ _; omega, hb, hbo, hadv, by simp⟩, ?_⟩
    rw [hbits, bitsOfCodes_cons, codeBits_roots hs.1]
    simp [startZ, byteBits, GifSpec.bitsOf]
  obtain ⟨src, e, hf⟩ := get_spec (z := startZ size buf (adv l 1)) (by rw [roots_length]; omega) (by rw [roots_length]; omega) (by rw [roots_length]; show 2 ^ size < _; omega)
    (by rw [codeBits_roots hs.1]; rfl) hfeeds
  have hpx : px ≠ [] := by rintro rfl; simp at hn; omega
  have hst : startS junk k.base data = at_ k 0 data (startS junk k.base data) := by
    simp [startS, at_]
  obtain ⟨c, z', s', rest, cs', e1, rfl, e3, e4, e5, e6⟩ := clear_step (n := 0) (z := startZ size buf (adv l 1)) (s := startS junk k.base data) hs hc hpx ⟨rfl, rfl, rfl⟩ e hf hr (by omega)
    (by simp [startS]) (fuel := fuel) (by omega)
  rw [List.length_cons] at hn
  obtain ⟨z'', e7, e8, e9⟩ := dataLoop_spec hs hpad fuel (k := k) (d := paint k 0 [UInt8.ofNat c] data) (n := 0 + 1) e3 e6 e5 (by unfold Room; rw [paint_length]; exact hr) (by omega) (by omega)
  refine ⟨z''.src.buf, z''.src.inp, ?_, e8, e9⟩
  unfold GifGetData
  rw [At.getc hl, bind_ok]
  dsimp only
  rw [if_neg (by rw [UInt8.lt_iff_toNat_lt, UInt8.lt_iff_toNat_lt, hsz]; show ¬ (size < 2 ∨ 9 < size); omega), hsz, hst, e1, e7, bind_ok]
  rfl

end DevIL.Gif
