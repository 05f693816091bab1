import Verif.Model.Pcx
import Verif.Lemmas.Load
import Verif.Lemmas.Block
/-! Lemmas about the PCX model. -/
set_option autoImplicit false
namespace DevIL.Pcx
open DevIL.Lump DevIL.Endian DevIL.Image DevIL.Utility DevIL.Load

/-- `Dec bs line`: the bytes `bs`, read as PCX data, stand for `line`. -/
inductive Dec : List UInt8 → List UInt8 → Prop
  | nil : Dec [] []
  | lit {bs line : List UInt8} (b : UInt8) (h : b.toNat < 192) (d : Dec bs line) : Dec (b :: bs) (b :: line)
  | run {bs line : List UInt8} (n : Nat) (b : UInt8) (h0 : 0 < n) (h : n < 64) (d : Dec bs line) :
      Dec (UInt8.ofNat (192 + n) :: b :: bs) (List.replicate n b ++ line)

theorem Dec.append {a b c d : List UInt8} (h : Dec a b) (h' : Dec c d) : Dec (a ++ c) (b ++ d) := by
  induction h with
  | nil => exact h'
  | lit b h _ ih => exact .lit b h ih
  | run n b h0 h _ ih => rw [List.append_assoc]; exact .run n b h0 h ih

theorem Dec.len {a b : List UInt8} (h : Dec a b) : a.length ≤ 2 * b.length := by
  induction h with
  | nil => simp
  | lit b h _ ih => simp only [List.length_cons]; omega
  | run n b h0 h _ ih => simp only [List.length_cons, List.length_append, List.length_replicate]; omega

theorem top2 (n : Nat) (h : n < 256) : (n &&& 0xC0 = 0xC0) ↔ 192 ≤ n := by
  have : ∀ n : Fin 256, (n.val &&& 0xC0 = 0xC0) ↔ 192 ≤ n.val := by decide +kernel
  exact this ⟨n, h⟩

theorem low6 (n : Nat) (h : n < 64) : (192 + n) &&& 0x3F = n := by
  have : ∀ n : Fin 64, (192 + n.val) &&& 0x3F = n.val := by decide +kernel
  exact this ⟨n, h⟩

theorem or6 (n : Nat) (h : n < 64) : 0xC0 ||| n = 192 + n := by
  have : ∀ n : Fin 64, 0xC0 ||| n.val = 192 + n.val := by decide +kernel
  exact this ⟨n, h⟩

theorem toNat_head (n : Nat) (h : n < 64) : (UInt8.ofNat (192 + n)).toNat = 192 + n := by
  simp [UInt8.toNat_ofNat']; omega

theorem encput_dec (b : UInt8) (n : Nat) (h : n < 64) : Dec (encput b n) (List.replicate n b) := by
  unfold encput
  by_cases h0 : n = 0
  · rw [if_pos h0, h0]; exact .nil
  rw [if_neg h0]
  have hb := b.toNat_lt
  by_cases h1 : n = 1 ∧ b.toNat &&& 0xC0 ≠ 0xC0
  · rw [if_pos h1, h1.1]
    refine .lit b ?_ .nil
    have := mt (top2 b.toNat hb).mpr h1.2
    omega
  · rw [if_neg h1, or6 n h]
    have := Dec.run n b (by omega) h .nil
    simpa using this

/-- What the encoder has done after some samples: its output stands for all but the last `run` of them, which equal `last`. -/
def EncOk (s : E) (seen : List UInt8) : Prop :=
  s.run < 63 ∧ ∃ pre, Dec s.out pre ∧ seen = pre ++ List.replicate s.run s.last

theorem encStep_ok {s : E} {seen : List UInt8} (h : EncOk s seen) (this : UInt8) : EncOk (encStep this s) (seen ++ [this]) := by
  obtain ⟨hr, pre, hd, e⟩ := h
  unfold encStep
  by_cases ht : this = s.last
  · rw [if_pos ht]
    have hx : seen ++ [this] = pre ++ List.replicate (s.run + 1) s.last := by
      rw [e, ht, List.append_assoc, ← List.replicate_succ']
    by_cases h63 : s.run + 1 = 63
    · rw [if_pos h63]
      refine ⟨by show 0 < 63; decide, seen ++ [this], ?_, by simp⟩
      rw [hx, h63]
      exact hd.append (encput_dec _ _ (by decide))
    · rw [if_neg h63]
      exact ⟨by show s.run + 1 < 63; omega, pre, hd, hx⟩
  · rw [if_neg ht]
    refine ⟨by show 1 < 63; decide, seen, ?_, rfl⟩
    simp only []
    by_cases h0 : s.run ≠ 0
    · rw [if_pos h0, e]; exact hd.append (encput_dec _ _ (by omega))
    · rw [if_neg h0, e]
      have : s.run = 0 := by omega
      rw [this]; simpa using hd

/-- The samples `at, at + step, …` of a buffer. -/
def samples (data : List UInt8) (at_ step n : Nat) : List UInt8 := (List.range n).map fun k => data.getD (at_ + k * step) 0

@[simp] theorem samples_length (data : List UInt8) (at_ step n : Nat) : (samples data at_ step n).length = n := by simp [samples]

theorem samples_succ (data : List UInt8) (at_ step n : Nat) :
    samples data at_ step (n + 1) = samples data at_ step n ++ [data.getD (at_ + n * step) 0] := by
  unfold samples; rw [List.range_succ]; simp

theorem samples_get {data : List UInt8} {at_ step n k : Nat} (hk : k < n) (h : at_ + k * step < data.length) :
    (samples data at_ step n)[k]? = data[at_ + k * step]? := by
  unfold samples
  rw [List.getElem?_map, List.getElem?_range hk]
  simp [List.getD, h]

theorem rd_getD {data : List UInt8} {i : Nat} (h : i < data.length) : rd data i = .ok (data.getD i 0) := by
  rw [rd_of_lt h]; simp [List.getD, h]

/-- The scan line with its padding. -/
def padded (line : List UInt8) : List UInt8 := line ++ if line.length % 2 = 1 then [0] else []

theorem encLine_dec {data : List UInt8} {at_ len stride : Nat} (h0 : 0 < len) (hlen : len < 2147483648)
    (hin : ∀ k, k < len → at_ + k * (stride + 1) < data.length) :
    ∃ bs, encLine data at_ len stride = .ok bs ∧ Dec bs (padded (samples data at_ (stride + 1) len)) := by
  have hti : (toInt len - 1).toNat = len - 1 := by unfold toInt; rw [if_pos hlen]; omega
  unfold encLine
  have h1 := hin 0 h0
  rw [Nat.zero_mul, Nat.add_zero] at h1
  rw [rd_getD h1, bind_ok, hti]
  obtain ⟨s, e, hs⟩ := loopN_inv (n := len - 1) (s := (⟨data.getD at_ 0, 1, []⟩ : E))
    (f := fun k s => do
      let this ← rd data (at_ + (k + 1) * (stride + 1))
      pure (encStep this s))
    (fun k s => EncOk s (samples data at_ (stride + 1) (k + 1)))
    ⟨by show 1 < 63; decide, [], .nil, by simp [samples]⟩ (by
      intro k t hk ht
      refine ⟨_, by rw [rd_getD (hin (k + 1) (by omega)), bind_ok]; rfl, ?_⟩
      rw [samples_succ]
      exact encStep_ok ht _)
  rw [e, bind_ok]
  refine ⟨_, rfl, ?_⟩
  rw [Nat.sub_add_cancel h0] at hs
  obtain ⟨hr, pre, hd, ep⟩ := hs
  unfold padded
  rw [samples_length]
  refine Dec.append ?_ ?_
  · rw [ep]; exact hd.append (encput_dec _ _ (by omega))
  · split
    · exact .lit 0 (by decide) .nil
    · exact .nil

/-! ### Reading a line that is well encoded -/

theorem readByte_ok {l : R} {b : UInt8} {rest : List UInt8} (a : At l (b :: rest)) : readByte l = .ok (some b, adv l 1) := by
  unfold readByte
  rw [At.read (bs := [b]) (rest := rest) (size := 1) (number := 1) a rfl (by decide)]
  rfl

theorem lines_loop {size : Nat} {bs dec : List UInt8} (h : Dec bs dec) : ∀ (rest : List UInt8) (l : R) (x : Nat) (line : List UInt8) (fuel : Nat),
    At l (bs ++ rest) → x + dec.length = size → line.length = size → bs.length < fuel →
    whileF (fun s : S => !s.failed && decide (s.x < size)) (lineStep size) fuel ⟨x, line, l, false⟩ =
      .ok ⟨size, splice line x dec, adv l bs.length, false⟩ := by
  induction h with
  | nil =>
    intro rest l x line fuel a hx hl hf
    obtain ⟨fuel, rfl⟩ : ∃ k, fuel = k + 1 := ⟨fuel - 1, by omega⟩
    unfold whileF
    simp only [List.length_nil, Nat.add_zero] at hx
    rw [if_neg (by simp; omega), hx]
    simp
  | @lit bs dec b hb d ih =>
    intro rest l x line fuel a hx hl hf
    simp only [List.length_cons] at hx hf
    obtain ⟨fuel, rfl⟩ : ∃ k, fuel = k + 1 := ⟨fuel - 1, by omega⟩
    unfold whileF
    rw [if_pos (by simp; omega)]
    have hstep : lineStep size ⟨x, line, l, false⟩ = .ok ⟨x + 1, splice line x [b], adv l 1, false⟩ := by
      unfold lineStep
      simp only []
      rw [readByte_ok a, bind_ok]
      simp only []
      rw [if_neg (by rw [top2 _ b.toNat_lt]; omega), wr_splice (by omega), bind_ok]
      rfl
    rw [hstep, bind_ok, ih rest (adv l 1) (x + 1) (splice line x [b]) fuel a.adv_cons (by omega)
      (by rw [splice_length (by simp; omega)]; exact hl) (by omega)]
    have := splice_splice (d := line) (o := [b]) (o' := dec) (q := x) (by omega)
    simp only [List.length_singleton] at this
    rw [this, adv_adv, List.length_cons, Nat.add_comm 1]
    rfl
  | @run bs dec n b h0 hn d ih =>
    intro rest l x line fuel a hx hl hf
    simp only [List.length_cons, List.length_append, List.length_replicate] at hx hf
    obtain ⟨fuel, rfl⟩ : ∃ k, fuel = k + 1 := ⟨fuel - 1, by omega⟩
    unfold whileF
    rw [if_pos (by simp; omega)]
    have a1 : At l (UInt8.ofNat (192 + n) :: (b :: (bs ++ rest))) := a
    have a2 := a1.adv_cons
    have hstep : lineStep size ⟨x, line, l, false⟩ = .ok ⟨x + n, splice line x (List.replicate n b), adv l 2, false⟩ := by
      unfold lineStep
      simp only []
      rw [readByte_ok a1, bind_ok]
      simp only []
      rw [toNat_head n hn, if_pos (by rw [top2 _ (by omega)]; omega), readByte_ok a2, bind_ok, low6 n hn]
      simp only []
      rw [if_neg (by omega), fill_splice (by omega), bind_ok]
      rfl
    rw [hstep, bind_ok, ih rest (adv l 2) (x + n) (splice line x (List.replicate n b)) fuel a2.adv_cons (by omega)
      (by rw [splice_length (by simp; omega)]; exact hl) (by omega)]
    have := splice_splice (d := line) (o := List.replicate n b) (o' := dec) (q := x) (by omega)
    simp only [List.length_replicate] at this
    rw [this, adv_adv, List.length_cons, List.length_cons, Nat.add_comm 2]

theorem readLine_ok {bs dec rest line : List UInt8} {l : R} (h : Dec bs dec) (a : At l (bs ++ rest)) (hl : line.length = dec.length) :
    readLine dec.length line l = .ok ⟨dec.length, dec, adv l bs.length, false⟩ := by
  have hlen := a.len
  rw [List.length_append] at hlen
  unfold readLine
  rw [lines_loop h rest l 0 line (l.size + 2) a (by omega) hl (by omega), splice_all hl.symm]

/-! ### All rows -/

theorem flatMap_cong {α β : Type} {f g : α → List β} : ∀ {l : List α}, (∀ a, a ∈ l → f a = g a) → l.flatMap f = l.flatMap g
  | [], _ => rfl
  | a :: l, h => by
    rw [List.flatMap_cons, List.flatMap_cons, h a (by simp), flatMap_cong (l := l) fun b hb => h b (by simp [hb])]

/-- A row of all planes: plane after plane, each padded. -/
def rowDec (t : List UInt8) (w bpp bps y : Nat) : Nat → List UInt8
  | 0 => []
  | n + 1 => rowDec t w bpp bps y n ++ padded (samples t (bps * y + n) bpp w)

theorem padded_length (a : List UInt8) : (padded a).length = a.length + a.length % 2 := by
  unfold padded; split <;> simp <;> omega

theorem rowDec_length (t : List UInt8) (w bpp bps y n : Nat) : (rowDec t w bpp bps y n).length = n * (w + w % 2) := by
  induction n with
  | zero => simp [rowDec]
  | succ n ih => unfold rowDec; rw [List.length_append, ih, padded_length, samples_length, Nat.succ_mul]

theorem rowDec_get {t : List UInt8} {w bpp bps y n x c : Nat} (hc : c < n) (hx : x < w) (h : bps * y + c + x * bpp < t.length) :
    (rowDec t w bpp bps y n)[x + c * (w + w % 2)]? = t[bps * y + c + x * bpp]? := by
  induction n with
  | zero => omega
  | succ n ih =>
    unfold rowDec
    by_cases hcn : c < n
    · have : x + c * (w + w % 2) < n * (w + w % 2) := by
        have := idx_lt (k := w + w % 2) hcn (show x < w + w % 2 by omega)
        omega
      rw [List.getElem?_append_left (by rw [rowDec_length]; omega), ih hcn]
    · have : c = n := by omega
      subst this
      rw [List.getElem?_append_right (by rw [rowDec_length]; omega), rowDec_length, Nat.add_sub_cancel]
      unfold padded
      rw [List.getElem?_append_left (by simp; omega), samples_get hx h]

theorem encRows_spec {m : Img} {t : List UInt8} {w h bpp : Nat} (hw : m.width = w) (hh : m.height = h) (hp : m.bpp = bpp)
    (hb : m.bps = w * bpp) (hb0 : 0 < bpp) (hb1 : bpp < 256) (h0 : 0 < w) (hlen : w < 2147483648) (ht : t.length = w * bpp * h)
    (hfit : w * bpp * h < 4294967296) :
    ∃ rows f, encRows m t = .ok rows ∧ rows = (List.range h).flatMap f ∧ ∀ y, y < h → Dec (f y) (rowDec t w bpp (w * bpp) y bpp) := by
  have key : ∀ y, y < h → ∃ bs, (∀ out, loopN bpp (fun c out => do
      let b ← encLine t (u32 (w * bpp * y) + c) w ((bpp + 255) % 256)
      pure (out ++ b)) out = .ok (out ++ bs)) ∧ Dec bs (rowDec t w bpp (w * bpp) y bpp) := by
    intro y hy
    have hrow : w * bpp * y + w * bpp ≤ w * bpp * h := by rw [← Nat.mul_succ]; exact Nat.mul_le_mul_left _ hy
    have hu : u32 (w * bpp * y) = w * bpp * y := u32_of_lt (by have := Nat.mul_pos h0 hb0; omega)
    have hst : (bpp + 255) % 256 + 1 = bpp := by omega
    rw [hu]
    suffices H : ∀ n, n ≤ bpp → ∃ bs, (∀ out, loopN n (fun c out => do
      let b ← encLine t (w * bpp * y + c) w ((bpp + 255) % 256)
      pure (out ++ b)) out = .ok (out ++ bs)) ∧ Dec bs (rowDec t w bpp (w * bpp) y n) from H bpp (Nat.le_refl _)
    intro n
    induction n with
    | zero => intro _; exact ⟨[], fun out => by simp [loopN], .nil⟩
    | succ n ih =>
      intro hn
      obtain ⟨bs, e, d⟩ := ih (by omega)
      obtain ⟨b1, e1, d1⟩ := encLine_dec (data := t) (at_ := w * bpp * y + n) (len := w) (stride := (bpp + 255) % 256) h0 hlen (by
        intro k hk
        rw [hst]
        have := idx_lt hk hn
        omega)
      rw [hst] at d1
      refine ⟨bs ++ b1, fun out => ?_, d.append d1⟩
      rw [loopN_succ, e, bind_ok, e1, bind_ok, pure_eq_ok, List.append_assoc]
  suffices H : ∀ n, n ≤ h → ∃ rows f, loopN n (fun i out => loopN bpp (fun c out => do
      let b ← encLine t (u32 (w * bpp * i) + c) w ((bpp + 255) % 256)
      pure (out ++ b)) out) ([] : List UInt8) = .ok rows ∧ rows = (List.range n).flatMap f ∧ ∀ y, y < n → Dec (f y) (rowDec t w bpp (w * bpp) y bpp) by
    unfold encRows
    rw [hh, hp, hb, hw]
    exact H h (Nat.le_refl _)
  intro n
  induction n with
  | zero => intro _; exact ⟨[], fun _ => [], rfl, rfl, fun _ h => by omega⟩
  | succ n ih =>
    intro hn
    obtain ⟨rows, f, e, er, hf⟩ := ih (by omega)
    obtain ⟨bs, eb, db⟩ := key n hn
    refine ⟨rows ++ bs, fun y => if y = n then bs else f y, ?_, ?_, ?_⟩
    · rw [loopN_succ, e, bind_ok, eb]
    · rw [List.range_succ, List.flatMap_append, er]
      congr 1
      · apply flatMap_cong
        intro y hy
        have : y < n := by simpa using hy
        simp [show y ≠ n by omega]
      · simp
    · intro y hy
      by_cases hyn : y = n
      · subst hyn; simpa using db
      · simpa [hyn] using hf y (by omega)

theorem spread_spec {m : Img} {line d : List UInt8} {w bpp hbps y n : Nat} (hw : m.width = w) (hp : m.bpp = bpp) (hb : m.bps = w * bpp)
    (hline : line.length = bpp * hbps) (hwb : w ≤ hbps) (hy : w * bpp * y + w * bpp ≤ n) (hn : n ≤ 4294967296) (hd : d.length = n) :
    ∃ d' : List UInt8, spread m hbps line y d = .ok d' ∧ d'.length = n ∧
      (∀ x c, x < w → c < bpp → d'[w * bpp * y + (x * bpp + c)]? = line[x + c * hbps]?) ∧
      (∀ i, i < w * bpp * y → d'[i]? = d[i]?) := by
  have hidx : ∀ x c, x < w → c < bpp → w * bpp * y + (x * bpp + c) < n := by
    intro x c hx hc
    have := idx_lt hx hc; omega
  have e0 : spread m hbps line y d = copy4 1 1 w bpp (fun _ _ x c => w * bpp * y + (x * bpp + c)) (fun _ _ x c => x + c * hbps) line d := by
    unfold spread copy4
    rw [hw, hp, hb]
    rw [loopN_one, loopN_one]
    apply loopN_congr
    intro x s hx
    apply loopN_congr
    intro c s hc
    rw [show y * (w * bpp) + x * bpp + c = w * bpp * y + (x * bpp + c) by rw [Nat.mul_comm y]; omega,
      u32_of_lt (by have := hidx x c hx hc; omega)]
  rw [e0]
  obtain ⟨d', e, hl, h1, h2⟩ := copy4_spec (nz := 1) (ny := 1) (nx := w) (nc := bpp) (dIdx := fun _ _ x c => w * bpp * y + (x * bpp + c))
    (sIdx := fun _ _ x c => x + c * hbps) (src := line) (dst := d)
    (fun _ _ x c _ _ hx hc => by rw [hd]; exact hidx x c hx hc)
    (fun _ _ x c _ _ hx hc => by
      rw [hline]
      have := idx_lt (k := hbps) hc (show x < hbps by omega)
      omega)
    (fun z y x c z' y' x' c' hz hy hx hc hz' hy' hx' hc' e => by
      have e' : x * bpp + c = x' * bpp + c' := by omega
      obtain ⟨e1, e2⟩ := idx_inj (k := bpp) hc hc' e'
      exact ⟨by omega, by omega, e1, e2⟩)
  refine ⟨d', e, by rw [hl, hd], fun x c hx hc => h1 0 0 x c (by decide) (by decide) hx hc, fun i hi => ?_⟩
  exact h2 i (fun _ _ x c _ _ hx hc => by omega)

theorem readLines_spec {m : Img} {t line rest : List UInt8} {f : Nat → List UInt8} {w h bpp : Nat} {l : R}
    (hw : m.width = w) (hh : m.height = h) (hp : m.bpp = bpp) (hb : m.bps = w * bpp)
    (ht : t.length = w * bpp * h) (hfit : w * bpp * h < 4294967296) (hd : m.data.length = w * bpp * h)
    (hline : line.length = bpp * (w + w % 2)) (hf : ∀ y, y < h → Dec (f y) (rowDec t w bpp (w * bpp) y bpp))
    (a : At l ((List.range h).flatMap f ++ rest)) :
    ∃ line' l', readLines m (w + w % 2) line l = .ok ⟨t, line', l', false⟩ ∧ At l' rest := by
  have hrest : ∀ k, k < h → ((List.range h).drop k).flatMap f = f k ++ ((List.range h).drop (k + 1)).flatMap f := by
    intro k hk
    rw [List.drop_eq_getElem_cons (by simpa using hk)]
    simp
  unfold readLines
  rw [hh]
  obtain ⟨p, e, hi⟩ := loopN_inv (n := h) (s := (⟨m.data, line, l, false⟩ : P))
    (f := fun y p =>
      if p.failed then pure p
      else do
        let s ← readLine (m.bpp * (w + w % 2)) p.line p.inp
        if s.failed then pure ⟨p.data, s.line, s.inp, true⟩
        else do
          let data ← spread m (w + w % 2) s.line y p.data
          pure ⟨data, s.line, s.inp, false⟩)
    (fun k p => p.failed = false ∧ p.line.length = bpp * (w + w % 2) ∧ p.data.length = w * bpp * h ∧
      At p.inp (((List.range h).drop k).flatMap f ++ rest) ∧
      ∀ y x c, y < k → x < w → c < bpp → p.data[w * bpp * y + (x * bpp + c)]? = t[w * bpp * y + (x * bpp + c)]?)
    ⟨rfl, hline, hd, by simpa using a, fun _ _ _ h => by omega⟩ (by
      rintro k ⟨pd, pl, pi, pf⟩ hk ⟨h1, h2, h3, h4, h5⟩
      simp only [] at h1 h2 h3 h4 h5
      subst h1
      rw [hrest k hk, List.append_assoc] at h4
      have hrl := rowDec_length t w bpp (w * bpp) k bpp
      have e1 := readLine_ok (line := pl) (hf k hk) h4 (by rw [hrl]; exact h2)
      rw [hrl] at e1
      have hrow : w * bpp * k + w * bpp ≤ w * bpp * h := by rw [← Nat.mul_succ]; exact Nat.mul_le_mul_left _ hk
      obtain ⟨d', e2, hl2, g1, g2⟩ := spread_spec (m := m) (line := rowDec t w bpp (w * bpp) k bpp) (d := pd) (hbps := w + w % 2) (y := k)
        hw hp hb hrl (by omega) hrow (by omega) h3
      refine ⟨⟨d', rowDec t w bpp (w * bpp) k bpp, adv pi (f k).length, false⟩, ?_, rfl, hrl, hl2, h4.adv, ?_⟩
      · simp only [Bool.false_eq_true, if_false]
        rw [hp, e1, bind_ok]
        simp only [Bool.false_eq_true, if_false]
        rw [e2, bind_ok]; rfl
      · intro y x c hy hx hc
        by_cases hyk : y = k
        · subst hyk
          rw [g1 x c hx hc, rowDec_get hc hx (by have := idx_lt hx hc; omega)]
          congr 1; omega
        · have hyk' : y < k := by omega
          have hlt : w * bpp * y + (x * bpp + c) < w * bpp * k := by
            have h1 := idx_lt hx hc
            have h2 : w * bpp * y + w * bpp ≤ w * bpp * k := by rw [← Nat.mul_succ]; exact Nat.mul_le_mul_left _ hyk'
            omega
          show d'[_]? = _
          rw [g2 _ hlt]
          exact h5 y x c hyk' hx hc)
  obtain ⟨pd, pl, pi, pf⟩ := p
  obtain ⟨h1, h2, h3, h4, h5⟩ := hi
  simp only [] at h1 h2 h3 h4 h5
  subst h1
  have hpd : pd = t := by
    refine ext_pos (w := w) (h := h) (d := 1) (k := bpp) (by rw [h3]; grind) (by rw [ht]; grind) ?_
    intro z y x c hz hy hx hc
    have hz0 : z = 0 := by omega
    subst hz0
    have : pos w h bpp 0 y x c = w * bpp * y + (x * bpp + c) := by unfold pos; grind
    rw [this]
    exact h5 y x c hy hx hc
  refine ⟨pl, pi, by rw [e, hpd], ?_⟩
  have : ((List.range h).drop h).flatMap f = [] := by rw [List.drop_eq_nil_of_le (by simp)]; rfl
  rwa [this, List.nil_append] at h4

end DevIL.Pcx
