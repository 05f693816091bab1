import Verif.Lemmas.GifBad
import Verif.Hoare
/-! Decoding any bytes. -/
set_option autoImplicit false
namespace DevIL.Gif
open DevIL.Lump DevIL.GifSpec DevIL.Image DevIL.Utility

/-! ### Bits -/

theorem getc_any {l : R} (h : Good l) :
    (∃ b, getc l = .ok (some b, adv l 1) ∧ Good (adv l 1) ∧ l.pos < l.size) ∨ (∃ l', getc l = .ok (none, l') ∧ Good l') := by
  by_cases hp : l.pos < l.size
  · obtain ⟨b, _, e⟩ := getc_spec h hp
    exact .inl ⟨b, e, ⟨h.size, hp, h.lt, h.ne⟩, hp⟩
  · have := h.pos
    exact .inr ⟨_, getc_end h (by omega), ⟨h.size, Nat.sub_le _ _, h.lt, h.ne⟩⟩

/-- The source is well-formed. -/
structure SrcOk (z : Src) : Prop where
  good : Good z.inp
  buf : z.buf.length = 257
  fits : z.p + z.navail.toNat ≤ 257

/-- How many bits are left at most. -/
def left (z : Src) : Nat := 8 * z.navail.toNat + 8 * (z.inp.size - z.inp.pos)

theorem fillLoop_safe (n : Nat) : ∀ {i : Nat} {buf : List UInt8} {l : R}, Good l → i + n ≤ buf.length →
    DevIL.Holds (fillLoop n i buf l) fun r => Good r.2.2 ∧ r.2.1.length = buf.length ∧ (r.1 = true → r.2.2.pos = l.pos + n ∧ r.2.2.size = l.size) := by
  induction n with
  | zero => intro i buf l h _; exact .pure ⟨h, rfl, fun _ => ⟨rfl, rfl⟩⟩
  | succ n ih =>
    intro i buf l h hi
    unfold fillLoop
    rcases getc_any h with ⟨b, e, hg, _⟩ | ⟨l', e, hg⟩
    · rw [e, bind_ok]
      dsimp only
      rw [wr_of_lt (by omega), bind_ok]
      refine (ih (i := i + 1) (buf := buf.set i b) hg (by simp; omega)).mono fun r hr => ⟨hr.1, by rw [hr.2.1]; simp, fun ht => ?_⟩
      obtain ⟨h1, h2⟩ := hr.2.2 ht
      rw [adv_pos] at h1
      rw [adv_size] at h2
      omega
    · rw [e, bind_ok]
      exact .pure ⟨hg, rfl, fun ht => by cases ht⟩

theorem byte_safe {z : Src} (h : SrcOk z) :
    DevIL.Holds (byte z) fun r => SrcOk r.2 ∧ (r.1 = true → r.2.nbits = z.nbits ∧ left r.2 + 8 ≤ left z) := by
  unfold byte
  have hfill : DevIL.Holds (fill z) fun r => SrcOk r.2 ∧ (r.1 = true → r.2.nbits = z.nbits ∧ ((0 < r.2.navail ∧ left r.2 ≤ left z) ∨ (r.2.navail = 0 ∧ left r.2 + 8 ≤ left z)) ∧ r.2.p ≤ 256) := by
    unfold fill
    by_cases hn : z.navail ≤ 0
    · rw [if_pos hn]
      rcases getc_any h.good with ⟨b, e, hg, hlt⟩ | ⟨l', e, hg⟩
      · rw [e, bind_ok]
        dsimp only
        have hb := b.toNat_lt
        refine (fillLoop_safe b.toNat (i := 0) (buf := z.buf) hg (by rw [h.buf]; omega)).bind fun r hr => .pure ?_
        obtain ⟨ok, buf', l'⟩ := r
        obtain ⟨r1, r2, r3⟩ := hr
        dsimp only at r1 r2 r3
        refine ⟨⟨r1, by show buf'.length = 257; rw [r2, h.buf], by show 0 + ((b.toNat : Int)).toNat ≤ 257; omega⟩, fun ht => ⟨rfl, ?_, by show 0 ≤ 256; omega⟩⟩
        obtain ⟨q1, q2⟩ := r3 ht
        rw [adv_pos] at q1
        rw [adv_size] at q2
        have hgp := r1.pos
        unfold left
        dsimp only
        by_cases h0 : b.toNat = 0
        · right; omega
        · left; omega
      · rw [e, bind_ok]
        exact .pure ⟨⟨hg, h.buf, by show 0 + (-1 : Int).toNat ≤ 257; decide⟩, fun ht => by cases ht⟩
    · rw [if_neg hn]
      have := h.fits
      exact .pure ⟨h, fun _ => ⟨rfl, .inl ⟨by show 0 < z.navail; omega, Nat.le_refl _⟩, by show z.p ≤ 256; omega⟩⟩
  refine hfill.bind fun r hr => ?_
  obtain ⟨ok, z'⟩ := r
  obtain ⟨h1, h2⟩ := hr
  cases ok with
  | false => exact .pure ⟨h1, fun ht => by cases ht⟩
  | true =>
    obtain ⟨g1, g2, g3⟩ := h2 rfl
    dsimp only at *
    rw [if_neg (by decide), rd_of_lt (by rw [h1.buf]; omega), bind_ok]
    have hf := h1.fits
    refine .pure ⟨⟨h1.good, h1.buf, ?_⟩, fun _ => ⟨g1, ?_⟩⟩
    · show z'.p + 1 + (z'.navail - 1).toNat ≤ 257
      omega
    · unfold left at *
      dsimp only
      omega

theorem more_safe {cur : Nat} (hc : cur ≤ 12) (fuel : Nat) : ∀ {ret : Nat} {z : Src}, SrcOk z → cur + 8 ≤ z.nbits + 8 * fuel → 0 < fuel →
    DevIL.Holds (more cur fuel ret z) fun r => SrcOk r.2 ∧ (∀ v, r.1 = some v → cur ≤ r.2.nbits ∧ r.2.nbits + left r.2 ≤ z.nbits + left z) := by
  induction fuel with
  | zero => intro ret z _ _ h; omega
  | succ fuel ih =>
    intro ret z h hb _
    unfold more
    by_cases hm : cur > z.nbits
    · rw [if_pos hm]
      refine (byte_safe h).bind fun r hr => ?_
      obtain ⟨ok, z'⟩ := r
      obtain ⟨h1, h2⟩ := hr
      cases ok with
      | false => exact .pure ⟨h1, fun v hv => by cases hv⟩
      | true =>
        obtain ⟨g1, g2⟩ := h2 rfl
        dsimp only at *
        rw [if_neg (by decide)]
        refine (ih (z := { z' with nbits := z'.nbits + 8 }) ⟨h1.good, h1.buf, h1.fits⟩ (by show cur + 8 ≤ z'.nbits + 8 + 8 * fuel; omega) (by omega)).mono fun r hr => ⟨hr.1, fun v hv => ?_⟩
        obtain ⟨q1, q2⟩ := hr.2 v hv
        refine ⟨q1, ?_⟩
        unfold left at *
        dsimp only at q2
        omega
    · rw [if_neg hm]
      exact .pure ⟨h, fun v _ => ⟨by show cur ≤ z.nbits; omega, Nat.le_refl _⟩⟩

theorem nextCode_safe {cur : Nat} (h0 : 0 < cur) (hc : cur ≤ 12) {z : Src} (h : SrcOk z) :
    DevIL.Holds (nextCode cur z) fun r => SrcOk r.2 ∧ (∀ v, r.1 = some v → v < 2 ^ cur ∧ r.2.nbits + left r.2 < z.nbits + left z) := by
  have hfirst : DevIL.Holds (first z) fun r => SrcOk r.2 ∧ (r.1 = true → 0 < r.2.nbits ∧ r.2.nbits + left r.2 ≤ z.nbits + left z) := by
    unfold first
    by_cases hn : z.nbits = 0
    · rw [if_pos hn]
      refine (byte_safe h).bind fun r hr => ?_
      obtain ⟨ok, z'⟩ := r
      obtain ⟨h1, h2⟩ := hr
      cases ok with
      | false => exact .pure ⟨h1, fun ht => by cases ht⟩
      | true =>
        obtain ⟨g1, g2⟩ := h2 rfl
        refine .pure ⟨⟨h1.good, h1.buf, h1.fits⟩, fun _ => ⟨by show 0 < 8; decide, ?_⟩⟩
        show 8 + left z' ≤ z.nbits + left z
        dsimp only at g2
        omega
    · rw [if_neg hn]
      exact .pure ⟨h, fun _ => ⟨by show 0 < z.nbits; omega, Nat.le_refl _⟩⟩
  unfold nextCode
  refine hfirst.bind fun r hr => ?_
  obtain ⟨ok, z1⟩ := r
  obtain ⟨h1, h2⟩ := hr
  cases ok with
  | false => exact .pure ⟨h1, fun v hv => by cases hv⟩
  | true =>
    obtain ⟨g1, g2⟩ := h2 rfl
    dsimp only at *
    rw [if_neg (by decide)]
    refine (more_safe hc 3 (ret := z1.b1.toNat >>> (8 - z1.nbits)) h1 (by omega) (by omega)).bind fun r hr => ?_
    obtain ⟨c, z2⟩ := r
    obtain ⟨h3, h4⟩ := hr
    cases c with
    | none => exact .pure ⟨h3, fun v hv => by cases hv⟩
    | some v =>
      obtain ⟨q1, q2⟩ := h4 v rfl
      dsimp only at *
      refine .pure ⟨⟨h3.good, h3.buf, h3.fits⟩, fun v' hv => ?_⟩
      cases hv
      refine ⟨Nat.mod_lt _ (by positivity), ?_⟩
      show z2.nbits - cur + left z2 < z.nbits + left z
      omega

/-! ### Codes -/

/-- The globals are well-formed. -/
structure ZOk (z : Z) : Prop where
  src : SrcOk z.src
  cur : 0 < z.cur ∧ z.cur ≤ 12
  top : z.top = 2 ^ z.cur
  slot : z.slot ≤ z.top

/-- How many bits are left at most. -/
def bits (z : Z) : Nat := z.src.nbits + left z.src

theorem ZOk.top_le {z : Z} (h : ZOk z) : z.top ≤ 4096 := by
  rw [h.top]
  exact Nat.pow_le_pow_right (n := 2) (by omega) h.cur.2

theorem get_safe {z : Z} (h : ZOk z) :
    ∃ c src, get_next_code z = .ok (c, { z with src := src }) ∧ SrcOk src ∧ (c = z.ending ∨ (c < 4096 ∧ src.nbits + left src < bits z)) := by
  obtain ⟨⟨c, src⟩, e, h1, h2⟩ := nextCode_safe h.cur.1 h.cur.2 h.src
  refine ⟨c.getD z.ending, src, ?_, h1, ?_⟩
  · unfold get_next_code
    rw [e, bind_ok]
    rfl
  · cases c with
    | none => exact .inl rfl
    | some v =>
      obtain ⟨q1, q2⟩ := h2 v rfl
      have := h.top_le
      rw [h.top] at this
      exact .inr ⟨by show v < 4096; omega, q2⟩

theorem skipClears_safe (fuel : Nat) : ∀ {z : Z}, ZOk z → z.ending ≠ z.clear → bits z < fuel →
    ∃ c src, skipClears fuel z = .ok (c, { z with src := src }) ∧ SrcOk src ∧ (c = z.ending ∨ (c < 4096 ∧ src.nbits + left src < bits z)) := by
  induction fuel with
  | zero => intro z _ _ h; omega
  | succ fuel ih =>
    intro z h hne hf
    obtain ⟨c, src, e, h1, h2⟩ := get_safe h
    unfold skipClears
    rw [e, bind_ok]
    dsimp only
    by_cases hc : c = z.clear
    · rw [if_pos hc]
      rcases h2 with rfl | ⟨_, h2⟩
      · exact absurd hc hne
      · obtain ⟨c', src', e', h1', h2'⟩ := ih (z := { z with src := src }) ⟨h1, h.cur, h.top, h.slot⟩ hne (by show src.nbits + left src < fuel; omega)
        refine ⟨c', src', e', h1', ?_⟩
        unfold bits at h2'
        dsimp only at h2'
        omega
    · rw [if_neg hc]
      exact ⟨c, src, rfl, h1, h2⟩

/-- Nothing but the frame has changed. -/
def Keeps (k : Job) (o d : List UInt8) : Prop :=
  d.length = o.length ∧ ∀ p : Nat, (∀ x y, x < k.w → y < k.h → p ≠ k.base + y * k.stride + x) → d[p]? = o[p]?

/-- The locals are well-formed. -/
structure SOk (k : Job) (o : List UInt8) (s : S) : Prop where
  suffix : s.suffix.length = 4097
  pre : s.pre.length = 4097
  small : ∀ (i : Nat) (v : Int), s.pre[i]? = some v → v ≤ 4096
  oc : s.oc < 4096
  i : 0 < k.w → s.i < k.w
  j : s.j < k.h
  dp : s.dp = k.base + s.j * k.stride
  data : Keeps k o s.data

/-- All rows of the frame are inside the block. -/
def Rows (k : Job) (n : Nat) : Prop := ∀ x y, x < k.w → y < k.h → k.base + y * k.stride + x < n

theorem put_safe {k : Job} {o : List UInt8} {c : Nat} {s : S} (hr : Rows k o.length) (h : SOk k o s) :
    ∃ i d, put k c s = .ok { s with i := i, data := d } ∧ Keeps k o d ∧ (0 < k.w → i ≤ k.w) := by
  unfold put
  by_cases hs : skips k.gfx c
  · rw [if_pos hs]
    exact ⟨s.i + 1, s.data, rfl, h.data, fun hw => by have := h.i hw; omega⟩
  · rw [if_neg hs]
    by_cases hi : s.i < k.w
    · have hx := hr s.i s.j hi h.j
      rw [if_pos hi, wr_of_lt (by rw [h.data.1, h.dp]; exact hx), bind_ok]
      refine ⟨s.i + 1, _, rfl, ⟨by rw [List.length_set, h.data.1], fun p hp => ?_⟩, fun _ => by omega⟩
      rw [List.getElem?_set_ne (by rw [h.dp]; exact fun e => hp s.i s.j hi h.j e.symm)]
      exact h.data.2 p hp
    · rw [if_neg hi]
      exact ⟨s.i, s.data, rfl, h.data, fun hw => by have := h.i hw; omega⟩

theorem popAll_safe {k : Job} {o : List UInt8} (hr : Rows k o.length) (stk : List UInt8) : ∀ {s : S}, SOk k o s → DevIL.Holds (popAll k stk s) (SOk k o) := by
  induction stk with
  | nil => intro s h; exact .pure h
  | cons b t ih =>
    intro s h
    unfold popAll
    obtain ⟨i, d, e, hd, hi⟩ := put_safe (c := b.toNat) hr h
    rw [e, bind_ok]
    dsimp only
    by_cases hw : i = k.w
    · rw [if_pos hw]
      exact ih ⟨h.suffix, h.pre, h.small, h.oc, fun h0 => h0, Nat.mod_lt _ (by have := h.j; omega), rfl, hd⟩
    · rw [if_neg hw]
      exact ih ⟨h.suffix, h.pre, h.small, h.oc, fun h0 => by show i < k.w; have := hi h0; omega, h.j, h.dp, hd⟩

theorem expand_safe {k : Job} {o : List UInt8} {newcodes : Nat} {s : S} (h : SOk k o s) (fuel : Nat) : ∀ {code : Int} {stk : List UInt8}, code ≤ 4096 → 4097 ≤ fuel + stk.length → stk.length ≤ 4096 →
    DevIL.Holds (expand newcodes s fuel code stk) fun _ => True := by
  induction fuel with
  | zero => intro code stk _ h1 h2; omega
  | succ fuel ih =>
    intro code stk hc h1 h2
    unfold expand
    by_cases hn : (newcodes : Int) ≤ code
    · rw [if_pos hn]
      by_cases hs : stk.length ≥ MAX_CODES
      · rw [if_pos hs]; exact .pure trivial
      · rw [if_neg hs]
        have hs' : stk.length < 4096 := by have : ¬ stk.length ≥ 4096 := hs; omega
        have hcode : code.toNat < 4097 := by omega
        rw [rd_of_lt (by rw [h.suffix]; exact hcode), bind_ok]
        have hp : code.toNat < s.pre.length := by rw [h.pre]; exact hcode
        rw [rd_of_lt hp, bind_ok]
        exact ih (h.small code.toNat _ (List.getElem?_eq_getElem hp)) (by rw [List.length_cons]; omega) (by rw [List.length_cons]; omega)
    · rw [if_neg hn]
      split <;> exact .pure trivial

/-- The special codes are the same. -/
def Same (z z' : Z) : Prop := z'.clear = z.clear ∧ z'.ending = z.ending ∧ z'.newcodes = z.newcodes

theorem learn_safe {k : Job} {o : List UInt8} {c : Nat} {code : Int} {z : Z} {s : S} (hz : ZOk z) (h : SOk k o s) (hc : c < 4096) :
    DevIL.Holds (learn c code z s) fun r => ZOk r.1 ∧ SOk k o r.2 ∧ bits r.1 = bits z ∧ Same z r.1 := by
  have htop := hz.top_le
  have h12 := hz.cur
  have hslot := hz.slot
  have key : DevIL.Holds (if z.slot < z.top then do
      let fc := UInt8.ofNat (code % 256).toNat
      let suffix ← wr s.suffix z.slot fc
      let pre ← wr s.pre z.slot (s.oc : Int)
      pure ({ z with slot := z.slot + 1 }, { s with fc := fc, suffix := suffix, pre := pre, oc := c })
    else pure (z, s)) fun r => ZOk r.1 ∧ SOk k o r.2 ∧ bits r.1 = bits z ∧ Same z r.1 := by
    by_cases hs : z.slot < z.top
    · rw [if_pos hs]
      dsimp only
      rw [wr_of_lt (b := s.suffix) (by rw [h.suffix]; omega), bind_ok, wr_of_lt (b := s.pre) (by rw [h.pre]; omega), bind_ok]
      refine .pure ⟨⟨hz.src, hz.cur, hz.top, by show z.slot + 1 ≤ z.top; omega⟩, ⟨by show (s.suffix.set _ _).length = _; simp [h.suffix], by show (s.pre.set _ _).length = _; simp [h.pre], ?_,
        hc, h.i, h.j, h.dp, h.data⟩, rfl, rfl, rfl, rfl⟩
      intro i v hv
      have hv : (s.pre.set z.slot (s.oc : Int))[i]? = some v := hv
      by_cases hi : i = z.slot
      · subst hi
        rw [List.getElem?_set_self (by rw [h.pre]; omega)] at hv
        have := h.oc
        cases hv
        omega
      · rw [List.getElem?_set_ne (by omega)] at hv
        exact h.small i v hv
    · rw [if_neg hs]
      exact .pure ⟨hz, h, rfl, rfl, rfl, rfl⟩
  unfold learn
  refine key.bind fun r hr => ?_
  obtain ⟨z', s'⟩ := r
  obtain ⟨h1, h2, h3⟩ := hr
  dsimp only at *
  refine .pure ⟨?_, h2, ?_⟩
  · dsimp only
    split
    · rename_i hb
      have := h1.slot
      exact ⟨h1.src, ⟨by show 0 < z'.cur + 1; omega, by show z'.cur + 1 ≤ 12; omega⟩, by show z'.top * 2 = 2 ^ (z'.cur + 1); rw [h1.top, Nat.pow_succ], by show z'.slot ≤ z'.top * 2; omega⟩
    · exact h1
  · dsimp only
    split <;> exact h3

theorem useCode_safe {k : Job} {o : List UInt8} {c : Nat} {z : Z} {s : S} (hr : Rows k o.length) (hz : ZOk z) (h : SOk k o s) (hc : c < 4096) :
    DevIL.Holds (useCode k c z s) fun r => ∀ q, r = some q → ZOk q.1 ∧ SOk k o q.2 ∧ bits q.1 = bits z ∧ Same z q.1 := by
  unfold useCode
  dsimp only
  have hcode : (if c ≥ z.slot then s.oc else c) < 4096 := by have := h.oc; split <;> omega
  rw [if_neg (by show ¬ 4096 ≤ (if c ≥ z.slot then s.oc else c); omega)]
  have hstk : (if c ≥ z.slot then [s.fc] else []).length ≤ 1 := by split <;> simp
  refine (expand_safe h 4098 (by omega) (by omega) (by omega)).bind fun r _ => ?_
  cases r with
  | none => exact .pure fun q hq => by cases hq
  | some r =>
    obtain ⟨code, stk⟩ := r
    dsimp only
    refine (learn_safe hz h hc).bind fun r hr' => ?_
    obtain ⟨z', s'⟩ := r
    obtain ⟨h1, h2, h3⟩ := hr'
    dsimp only at *
    refine (popAll_safe hr stk h2).bind fun s'' hs => .pure fun q hq => ?_
    cases hq
    exact ⟨h1, hs, h3⟩

theorem restart_safe {k : Job} {o : List UInt8} {c : Nat} {z : Z} {s : S} (hr : Rows k o.length) (h : SOk k o s) (hc : c < 4096) :
    DevIL.Holds (restart k c z s) fun r => ∀ q, r = some q → SOk k o q := by
  unfold restart
  dsimp only
  have hcode : (if c ≥ z.slot then 0 else c) < 4096 := by split <;> omega
  generalize (if c ≥ z.slot then 0 else c) = c' at *
  obtain ⟨i, d, e, hd, hi⟩ := put_safe (c := c') (s := { s with oc := c', fc := UInt8.ofNat c' }) hr ⟨h.suffix, h.pre, h.small, hcode, h.i, h.j, h.dp, h.data⟩
  rw [e, bind_ok]
  dsimp only
  by_cases hw : i = k.w
  · rw [if_pos hw]
    by_cases hj : s.j + 1 ≥ k.h
    · rw [if_pos hj]; exact .pure fun q hq => by cases hq
    · rw [if_neg hj]
      refine .pure fun q hq => ?_
      cases hq
      exact ⟨h.suffix, h.pre, h.small, hcode, fun h0 => h0, by show s.j + 1 < k.h; omega, by show s.dp + k.stride = k.base + (s.j + 1) * k.stride; rw [h.dp, Nat.add_one_mul]; omega, hd⟩
  · rw [if_neg hw]
    refine .pure fun q hq => ?_
    cases hq
    exact ⟨h.suffix, h.pre, h.small, hcode, fun h0 => by show i < k.w; have := hi h0; omega, h.j, h.dp, hd⟩

theorem dataLoop_safe {k : Job} {o : List UInt8} {size : Nat} (hs : 2 ≤ size ∧ size ≤ 9) (hr : Rows k o.length) (fuel : Nat) : ∀ {z : Z} {s : S}, ZOk z → z.clear = 2 ^ size → z.ending = 2 ^ size + 1 →
    z.newcodes = 2 ^ size + 2 → (k.h = 0 ∨ SOk k o s) → Keeps k o s.data → bits z < fuel → DevIL.Holds (dataLoop k size fuel z s) fun r => Keeps k o r.2.1 ∧ SrcOk r.2.2.src := by
  induction fuel with
  | zero => intro z s _ _ _ _ _ _ h; omega
  | succ fuel ih =>
    intro z s hz z1 z2 z3 h hd hf
    obtain ⟨c, src, e, h1, h2⟩ := get_safe hz
    conv => arg 1; unfold dataLoop
    rw [e, bind_ok]
    dsimp only
    by_cases hend : c = z.ending ∨ k.h ≤ s.read
    · rw [if_pos hend]
      exact .pure ⟨hd, h1⟩
    · rw [if_neg hend]
      have h : SOk k o s := h.resolve_left (by omega)
      obtain ⟨hc, hlt⟩ := h2.resolve_left (by omega)
      have h4 : 2 ^ 2 ≤ 2 ^ size := Nat.pow_le_pow_right (by omega) hs.1
      by_cases hcl : c = z.clear
      · rw [if_pos hcl]
        have hz' : ZOk { z with cur := size + 1, slot := z.newcodes, top := 2 ^ (size + 1), src := src } :=
          ⟨h1, ⟨by show 0 < size + 1; omega, by show size + 1 ≤ 12; omega⟩, rfl, by show z.newcodes ≤ 2 ^ (size + 1); rw [z3, Nat.pow_succ]; omega⟩
        obtain ⟨c', src', e', h1', h2'⟩ := skipClears_safe fuel hz' (by show z.ending ≠ z.clear; omega) (by show src.nbits + left src < fuel; omega)
        rw [e', bind_ok]
        dsimp only
        by_cases hend' : c' = z.ending
        · rw [if_pos hend']
          exact .pure ⟨hd, h1'⟩
        · rw [if_neg hend']
          obtain ⟨hc', hlt'⟩ := h2'.resolve_left hend'
          have hlt' : src'.nbits + left src' < src.nbits + left src := hlt'
          refine (restart_safe hr h hc').bind fun r hr' => ?_
          cases r with
          | none => exact .pure ⟨hd, h1'⟩
          | some q =>
            have hq := hr' q rfl
            exact ih ⟨h1', hz'.cur, hz'.top, hz'.slot⟩ z1 z2 z3 (.inr hq) hq.data (by show src'.nbits + left src' < fuel; omega)
      · rw [if_neg hcl]
        refine (useCode_safe hr (z := { z with src := src }) ⟨h1, hz.cur, hz.top, hz.slot⟩ h hc).bind fun r hr' => ?_
        cases r with
        | none => exact .pure ⟨hd, h1⟩
        | some q =>
          obtain ⟨z', s'⟩ := q
          obtain ⟨q1, q2, q3, q4⟩ := hr' _ rfl
          have q3 : bits z' = src.nbits + left src := q3
          exact ih q1 (by rw [q4.1]; exact z1) (by rw [q4.2.1]; exact z2) (by rw [q4.2.2]; exact z3) (.inr q2) q2.data (by rw [q3]; omega)

theorem startS_pre (jz : Junk) (base : Nat) (data : List UInt8) : (startS jz base data).pre = (List.range (MAX_CODES + 1)).map jz.pre := by
  simp only [startS]

theorem GifGetData_safe {k : Job} {jz : Junk} {data buf : List UInt8} {l : R} (hl : Good l) (hb : buf.length = 257) (hr : Rows k data.length) (hj : ∀ i, jz.pre i ≤ 4096) {fuel : Nat}
    (hfuel : 8 * l.size < fuel) :
    DevIL.Holds (GifGetData fuel jz k data buf l) fun r => Keeps k data r.2.1 ∧ r.2.2.1.length = 257 ∧ Good r.2.2.2 := by
  unfold GifGetData
  rcases getc_any hl with ⟨b, e, hg, _⟩ | ⟨l', e, hg⟩
  · rw [e, bind_ok]
    dsimp only
    by_cases hs : b < 2 ∨ 9 < b
    · rw [if_pos hs]
      exact .pure ⟨⟨rfl, fun _ _ => rfl⟩, hb, hg⟩
    · rw [if_neg hs]
      rw [UInt8.lt_iff_toNat_lt, UInt8.lt_iff_toNat_lt] at hs
      have hs : ¬ (b.toNat < 2 ∨ 9 < b.toNat) := hs
      have h4 : 2 ^ 2 ≤ 2 ^ b.toNat := Nat.pow_le_pow_right (by omega) (by omega)
      refine (dataLoop_safe (o := data) (size := b.toNat) ⟨by omega, by omega⟩ hr fuel (z := startZ b.toNat buf (adv l 1)) (s := startS jz k.base data)
        ⟨⟨hg, hb, by show 0 + (0 : Int).toNat ≤ 257; decide⟩, ⟨by show 0 < b.toNat + 1; omega, by show b.toNat + 1 ≤ 12; omega⟩, rfl, by show 2 ^ b.toNat + 2 ≤ 2 ^ (b.toNat + 1); rw [Nat.pow_succ]; omega⟩
        rfl rfl rfl ?_ ⟨rfl, fun _ _ => rfl⟩ ?_).bind fun r hr' => ?_
      · by_cases h0 : k.h = 0
        · exact .inl h0
        · refine .inr ⟨by simp [startS, MAX_CODES], by simp [startS, MAX_CODES], ?_, Nat.succ_pos _, fun hw => hw, by show 0 < k.h; omega, by show k.base = k.base + 0 * k.stride; omega, ⟨rfl, fun _ _ => rfl⟩⟩
          intro i v hv
          rw [startS_pre, List.getElem?_map] at hv
          cases hx : (List.range (MAX_CODES + 1))[i]? with
          | none => rw [hx] at hv; cases hv
          | some a => rw [hx] at hv; cases hv; exact hj a
      · show 0 + (8 * (0 : Int).toNat + 8 * (l.size - (l.pos + 1))) < fuel
        have : (0 : Int).toNat = 0 := rfl
        omega
      · obtain ⟨ok, d, z⟩ := r
        exact .pure ⟨hr'.1, hr'.2.buf, hr'.2.good⟩
  · rw [e, bind_ok]
    exact .pure ⟨⟨rfl, fun _ _ => rfl⟩, hb, hg⟩

end DevIL.Gif
