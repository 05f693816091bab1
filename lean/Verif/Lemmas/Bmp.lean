import Verif.Model.Bmp
import Verif.Lemmas.Load
import Verif.Lemmas.Pcx
/-! Lemmas about the BMP model. -/
set_option autoImplicit false
namespace DevIL.Bmp
open DevIL.Lump DevIL.Endian DevIL.Image DevIL.Utility DevIL.Load
open DevIL.Targa (Loaded)
open DevIL.Pcx (readByte)

/-! ### Fields of a file -/

/-- The little-endian number in the `n` bytes of the file from `o` on. -/
def field (file : List UInt8) (o n : Nat) : Nat := leVal ((file.drop o).take n)

/-- The same, as a two's complement number. -/
def sfield (file : List UInt8) (o n : Nat) : Int :=
  if field file o n < 2 ^ (8 * n - 1) then (field file o n : Int) else (field file o n : Int) - 2 ^ (8 * n)

theorem field_lt (file : List UInt8) (o n : Nat) : field file o n < 256 ^ n := by
  unfold field
  refine Nat.lt_of_lt_of_le (leVal_lt _) (Nat.pow_le_pow_right (by decide) ?_)
  simp only [List.length_take]; omega

theorem field_mod2 (file : List UInt8) (o : Nat) : field file o 2 % 2 ^ 16 = field file o 2 := Nat.mod_eq_of_lt (field_lt file o 2)
theorem field_mod4 (file : List UInt8) (o : Nat) : field file o 4 % 2 ^ 32 = field file o 4 := Nat.mod_eq_of_lt (field_lt file o 4)

theorem at_field {l : R} (g : Good l) {n : Nat} (h : l.pos + n ≤ l.size) :
    At l (leBytes n (field l.data l.pos n) ++ l.data.drop (l.pos + n)) := by
  refine ⟨g, ?_⟩
  have hl : ((l.data.drop l.pos).take n).length = n := by
    have := g.size
    simp only [List.length_take, List.length_drop]; omega
  have := leBytes_leVal ((l.data.drop l.pos).take n)
  rw [hl] at this
  unfold field
  rw [this, ← List.drop_drop, List.take_append_drop]

theorem good_adv {l : R} (g : Good l) {n : Nat} (h : l.pos + n ≤ l.size) : Good (adv l n) := ⟨g.size, h, g.lt, g.ne⟩

theorem getUShort_at {l : R} (g : Good l) (big : Bool) (junk : Nat → UInt8) (h : l.pos + 2 ≤ l.size) :
    GetLittleUShort big junk l = .ok (BitVec.ofNat 16 (field l.data l.pos 2), adv l 2) := by
  refine At.getLittleUShort (rest := l.data.drop (l.pos + 2)) ?_
  rw [BitVec.toNat_ofNat, field_mod2]
  exact at_field g h

theorem getUInt_at {l : R} (g : Good l) (big : Bool) (junk : Nat → UInt8) (h : l.pos + 4 ≤ l.size) :
    GetLittleUInt big junk l = .ok (BitVec.ofNat 32 (field l.data l.pos 4), adv l 4) := by
  refine At.getLittleUInt (rest := l.data.drop (l.pos + 4)) ?_
  rw [BitVec.toNat_ofNat, field_mod4]
  exact at_field g h

theorem getShort_at {l : R} (g : Good l) (big : Bool) (junk : Nat → UInt8) (h : l.pos + 2 ≤ l.size) :
    getShort big junk l = .ok (sfield l.data l.pos 2, adv l 2) := by
  unfold getShort
  rw [getUShort_at g big junk h, bind_ok]
  have := field_lt l.data l.pos 2
  simp only [pure_eq_ok]
  congr 2
  unfold sfield
  rw [BitVec.toInt_eq_toNat_cond, BitVec.toNat_ofNat, field_mod2]
  simp only [Nat.reducePow, Nat.reduceMul, Nat.reduceSub] at this ⊢
  split <;> split <;> omega

theorem getInt_at {l : R} (g : Good l) (big : Bool) (junk : Nat → UInt8) (h : l.pos + 4 ≤ l.size) :
    getInt big junk l = .ok (sfield l.data l.pos 4, adv l 4) := by
  unfold getInt
  rw [getUInt_at g big junk h, bind_ok]
  have := field_lt l.data l.pos 4
  simp only [pure_eq_ok]
  congr 2
  unfold sfield
  rw [BitVec.toInt_eq_toNat_cond, BitVec.toNat_ofNat, field_mod4]
  simp only [Nat.reducePow, Nat.reduceMul, Nat.reduceSub] at this ⊢
  split <;> split <;> omega

/-- The header of a file. -/
def headOf (file : List UInt8) : Head :=
  ⟨BitVec.ofNat 16 (field file 0 2), sfield file 10 4, sfield file 14 4, sfield file 18 4, sfield file 22 4, sfield file 26 2, sfield file 28 2,
    sfield file 30 4, sfield file 46 4⟩

theorem head_at {l : R} (g : Good l) (h0 : l.pos = 0) (big : Bool) (junk : Nat → UInt8) (h : 54 ≤ l.size) :
    iGetBmpHead big junk l = .ok (headOf l.data, adv l 54) := by
  have G : ∀ n, n ≤ 54 → Good (adv l n) := fun n hn => good_adv g (by omega)
  unfold iGetBmpHead
  rw [getUShort_at g big junk (by omega), bind_ok]
  simp only [h0]
  rw [getInt_at (G 2 (by omega)) big junk (by simp only [adv_pos, adv_size]; omega), bind_ok]
  simp only [adv_adv, adv_data, adv_pos, h0, Nat.reduceAdd]
  rw [getUInt_at (G 6 (by omega)) big junk (by simp only [adv_pos, adv_size]; omega), bind_ok]
  simp only [adv_adv, adv_data, adv_pos, h0, Nat.reduceAdd]
  rw [getInt_at (G 10 (by omega)) big junk (by simp only [adv_pos, adv_size]; omega), bind_ok]
  simp only [adv_adv, adv_data, adv_pos, h0, Nat.reduceAdd]
  rw [getInt_at (G 14 (by omega)) big junk (by simp only [adv_pos, adv_size]; omega), bind_ok]
  simp only [adv_adv, adv_data, adv_pos, h0, Nat.reduceAdd]
  rw [getInt_at (G 18 (by omega)) big junk (by simp only [adv_pos, adv_size]; omega), bind_ok]
  simp only [adv_adv, adv_data, adv_pos, h0, Nat.reduceAdd]
  rw [getInt_at (G 22 (by omega)) big junk (by simp only [adv_pos, adv_size]; omega), bind_ok]
  simp only [adv_adv, adv_data, adv_pos, h0, Nat.reduceAdd]
  rw [getShort_at (G 26 (by omega)) big junk (by simp only [adv_pos, adv_size]; omega), bind_ok]
  simp only [adv_adv, adv_data, adv_pos, h0, Nat.reduceAdd]
  rw [getShort_at (G 28 (by omega)) big junk (by simp only [adv_pos, adv_size]; omega), bind_ok]
  simp only [adv_adv, adv_data, adv_pos, h0, Nat.reduceAdd]
  rw [getInt_at (G 30 (by omega)) big junk (by simp only [adv_pos, adv_size]; omega), bind_ok]
  simp only [adv_adv, adv_data, adv_pos, h0, Nat.reduceAdd]
  rw [getInt_at (G 34 (by omega)) big junk (by simp only [adv_pos, adv_size]; omega), bind_ok]
  simp only [adv_adv, adv_data, adv_pos, h0, Nat.reduceAdd]
  rw [getInt_at (G 38 (by omega)) big junk (by simp only [adv_pos, adv_size]; omega), bind_ok]
  simp only [adv_adv, adv_data, adv_pos, h0, Nat.reduceAdd]
  rw [getInt_at (G 42 (by omega)) big junk (by simp only [adv_pos, adv_size]; omega), bind_ok]
  simp only [adv_adv, adv_data, adv_pos, h0, Nat.reduceAdd]
  rw [getInt_at (G 46 (by omega)) big junk (by simp only [adv_pos, adv_size]; omega), bind_ok]
  simp only [adv_adv, adv_data, adv_pos, h0, Nat.reduceAdd]
  rw [getInt_at (G 50 (by omega)) big junk (by simp only [adv_pos, adv_size]; omega), bind_ok]
  simp only [adv_adv, adv_data, adv_pos, h0, Nat.reduceAdd]
  rfl

/-! ### Any input -/

/-- The lump is still well-formed, over the same bytes. -/
structure Same (l l' : R) : Prop where
  good : Good l'
  data : l'.data = l.data
  size : l'.size = l.size

theorem Same.trans {a b c : R} (h : Same a b) (h' : Same b c) : Same a c := ⟨h'.good, h'.data.trans h.data, h'.size.trans h.size⟩

theorem Same.refl {l : R} (g : Good l) : Same l l := ⟨g, rfl, rfl⟩

theorem holds_read {l : R} (g : Good l) (a b : Nat) :
    Holds (read l a b) fun r => Same l r.2 ∧ l.pos ≤ r.2.pos ∧ r.1.bytes.length ≤ u32 (a * b) ∧ r.2.pos = l.pos + r.1.bytes.length ∧
      r.1.ret = (if a ≠ 0 then r.1.bytes.length / a else r.1.bytes.length) := by
  obtain ⟨x, e, hl, hg⟩ := keeps_read g a b
  refine ⟨_, e, ⟨hg, rfl, rfl⟩, by simp, ?_, by simp [hl], ?_⟩
  · rw [hl]; unfold avail; omega
  · rw [read_spec g] at e
    have e1 : x = _ := (congrArg Prod.fst (Except.ok.inj e)).symm
    have hr : x.ret = if a ≠ 0 then avail l a b / a else avail l a b := by rw [e1]
    rw [hl]; exact hr

theorem holds_readAt' {l : R} (g : Good l) {dst : List UInt8} {off a b : Nat} (hd : off + u32 (a * b) ≤ dst.length) :
    Holds (readAt l dst off a b) fun r => Same l r.2.2 ∧ l.pos ≤ r.2.2.pos ∧ r.2.1.length = dst.length := by
  unfold readAt
  refine (holds_read g a b).bind fun r h => ?_
  obtain ⟨x, l'⟩ := r
  obtain ⟨h1, h2, h3, _⟩ := h
  dsimp only at h1 h2 h3 ⊢
  rw [if_pos (by omega)]
  refine Holds.pure ⟨h1, h2, ?_⟩
  simp only [List.length_append, List.length_take, List.length_drop]; omega

theorem holds_seek {l : R} (g : Good l) {off : Int} {mode : Nat} (h0 : mode = SEEK_SET → 0 ≤ off) (h1 : mode ≠ SEEK_END) :
    Holds (seek l off mode) fun r => Same l r.2 := by
  obtain ⟨r, e⟩ := seekTo_ok (size := l.size) (pos := l.pos) (off := off) (mode := mode) (fun h => absurd h h1)
  cases r with
  | none => exact ⟨(false, l), by unfold seek; rw [e]; rfl, Same.refl g⟩
  | some p =>
    exact ⟨(true, { l with pos := p }), by unfold seek; rw [e]; rfl,
      ⟨g.size, seekTo_some (Nat.lt_trans g.lt (by decide)) h0 e, g.lt, g.ne⟩, rfl, rfl⟩

theorem holds_readByte {l : R} (g : Good l) :
    Holds (readByte l) fun r => Same l r.2 ∧ l.pos ≤ r.2.pos ∧ (r.1 ≠ none → l.pos < r.2.pos) := by
  unfold readByte
  refine (holds_read g 1 1).bind fun r h => ?_
  obtain ⟨x, l'⟩ := r
  obtain ⟨h1, h2, _, h4, h5⟩ := h
  dsimp only at h1 h2 h4 h5 ⊢
  refine Holds.pure ⟨h1, h2, fun hn => ?_⟩
  by_cases hr : x.ret = 1
  · rw [if_pos (by decide), Nat.div_one] at h5
    show l.pos < l'.pos
    omega
  · exact absurd (if_neg hr) hn

theorem putBits_safe {w j : Nat} {b : UInt8} {s : Nat × List UInt8} (hj : ∀ x, x < w → u32 (j * w + x) < s.2.length) (hx : s.1 < w) :
    Holds (putBits w j b s) fun t => s.1 < t.1 ∧ t.1 ≤ w ∧ t.2.length = s.2.length := by
  unfold putBits
  refine (Holds.loop (fun (c : Nat) (t : Nat × List UInt8) => (0 < c → s.1 < t.1) ∧ s.1 ≤ t.1 ∧ t.1 ≤ w ∧ t.2.length = s.2.length)
    ⟨fun h => absurd h (by decide), Nat.le_refl _, Nat.le_of_lt hx, rfl⟩ ?_).mono fun t h => ⟨h.1 (by decide), h.2.2.1, h.2.2.2⟩
  intro c t hc ht
  refine Holds.ite (fun h => ?_) (fun h => ?_)
  · refine (Holds.wr (by rw [ht.2.2.2]; exact hj _ h)).bind fun d hd => ?_
    exact Holds.pure ⟨fun _ => by show s.1 < t.1 + 1; omega, by show s.1 ≤ t.1 + 1; omega, h, by rw [← ht.2.2.2]; exact hd.1⟩
  · exact Holds.pure ⟨fun _ => by omega, ht.2.1, ht.2.2.1, ht.2.2.2⟩

/-- What a step over a row of small pixels keeps. -/
def XOk (l : R) (w n : Nat) (s : X) : Prop := Same l s.inp ∧ s.x ≤ w ∧ s.data.length = n

/-- What bounds the rounds of a row. -/
def left (w : Nat) (s : X) : Nat := if s.failed then 0 else w - s.x

theorem bitStep_safe {l : R} {w j n : Nat} (hj : ∀ x, x < w → u32 (j * w + x) < n) {s : X} (h : XOk l w n s)
    (hc : (!s.failed && decide (s.x < w)) = true) : Holds (bitStep w j s) fun t => XOk l w n t ∧ left w t < left w s := by
  obtain ⟨g, hx, hn⟩ := h
  simp only [Bool.and_eq_true, Bool.not_eq_true', decide_eq_true_eq] at hc
  have hleft : left w s = w - s.x := by unfold left; rw [if_neg (by simp [hc.1])]
  unfold bitStep
  refine (holds_readByte g.good).bind fun r hr => ?_
  obtain ⟨b, l'⟩ := r
  dsimp only at hr ⊢
  cases b with
  | none => exact Holds.pure ⟨⟨g.trans hr.1, hx, hn⟩, by rw [hleft]; show 0 < w - s.x; omega⟩
  | some b =>
    dsimp only
    refine (putBits_safe (s := (s.x, s.data)) (by simp only [hn]; exact hj) hc.2).bind fun t ht => ?_
    exact Holds.pure ⟨⟨g.trans hr.1, ht.2.1, by rw [← hn]; exact ht.2.2⟩, by rw [hleft]; show w - t.1 < w - s.x; have h1 := ht.1; have h2 := ht.2.1; dsimp only at h1 h2; omega⟩

theorem nibbleStep_safe {l : R} {w j n : Nat} (hj : ∀ x, x < w → u32 (j * w + x) < n) {s : X} (h : XOk l w n s)
    (hc : (!s.failed && decide (s.x < w)) = true) : Holds (nibbleStep w j s) fun t => XOk l w n t ∧ left w t < left w s := by
  obtain ⟨g, hx, hn⟩ := h
  simp only [Bool.and_eq_true, Bool.not_eq_true', decide_eq_true_eq] at hc
  have hleft : left w s = w - s.x := by unfold left; rw [if_neg (by simp [hc.1])]
  unfold nibbleStep
  refine (holds_readByte g.good).bind fun r hr => ?_
  obtain ⟨b, l'⟩ := r
  dsimp only at hr ⊢
  cases b with
  | none => exact Holds.pure ⟨⟨g.trans hr.1, hx, hn⟩, by rw [hleft]; show 0 < w - s.x; omega⟩
  | some b =>
    dsimp only
    refine (Holds.wr (by rw [hn]; exact hj _ hc.2)).bind fun d hd => ?_
    refine Holds.ite (fun he => ?_) (fun he => ?_)
    · exact Holds.pure ⟨⟨g.trans hr.1, by show s.x + 1 ≤ w; omega, by rw [← hn]; exact hd.1⟩, by rw [hleft]; show w - (s.x + 1) < _; omega⟩
    · refine (Holds.wr (by rw [hd.1, hn]; exact hj _ (by omega))).bind fun d2 hd2 => ?_
      exact Holds.pure ⟨⟨g.trans hr.1, by show s.x + 2 ≤ w; omega, by rw [← hn, ← hd.1]; exact hd2.1⟩, by rw [hleft]; show w - (s.x + 2) < _; omega⟩

/-- What reading pixels keeps. -/
def SOk (l : R) (n : Nat) (s : S) : Prop := Same l s.inp ∧ s.data.length = n

theorem row_safe {step : Nat → Nat → X → C X} {l : R} {w j n : Nat} {s : S} (h : SOk l n s)
    (hs : ∀ t : X, XOk l w n t → (!t.failed && decide (t.x < w)) = true → Holds (step w j t) fun u => XOk l w n u ∧ left w u < left w t) :
    Holds (whileF (fun x : X => !x.failed && decide (x.x < w)) (step w j) (w + 1) ⟨0, s.data, s.inp, false⟩) fun x => XOk l w n x := by
  refine (Holds.while (XOk l w n) (left w) hs (w + 1) _ ⟨h.1, Nat.zero_le _, h.2⟩ ?_).mono fun t ht => ht.1
  show left w ⟨0, s.data, s.inp, false⟩ < w + 1
  show w - 0 < w + 1
  omega

theorem smallRow_safe {step : Nat → Nat → X → C X} {l : R} {pad w j n : Nat} {s : S} (h : SOk l n s)
    (hs : ∀ t : X, XOk l w n t → (!t.failed && decide (t.x < w)) = true → Holds (step w j t) fun u => XOk l w n u ∧ left w u < left w t) :
    Holds (smallRow step pad w j s) (SOk l n) := by
  unfold smallRow
  refine Holds.ite (fun _ => Holds.pure h) (fun _ => ?_)
  refine (row_safe h hs).bind fun x hx => ?_
  refine Holds.ite (fun _ => Holds.pure ⟨hx.1, hx.2.2⟩) (fun _ => ?_)
  refine (holds_read hx.1.good 1 pad).bind fun r hr => ?_
  exact Holds.pure ⟨hx.1.trans hr.1, hx.2.2⟩

theorem os2Row_safe {step : Nat → Nat → X → C X} {l : R} {pad w j n : Nat} {s : S} (h : SOk l n s)
    (hs : ∀ t : X, XOk l w n t → (!t.failed && decide (t.x < w)) = true → Holds (step w j t) fun u => XOk l w n u ∧ left w u < left w t) :
    Holds (os2Row step pad w j s) (SOk l n) := by
  unfold os2Row
  refine Holds.ite (fun _ => Holds.pure h) (fun _ => ?_)
  refine (row_safe h hs).bind fun x hx => ?_
  refine Holds.ite (fun _ => Holds.pure ⟨hx.1, hx.2.2⟩) (fun _ => ?_)
  refine (holds_seek (mode := SEEK_CUR) hx.1.good (fun h => absurd h (by decide)) (by decide)).bind fun r hr => ?_
  exact Holds.pure ⟨hx.1.trans hr, hx.2.2⟩

theorem wideStep_safe {big : Bool} {m : Mask × Mask × Mask} {l : R} {k i n : Nat} {s : S} (h : SOk l n s) (hi : i + 3 ≤ n) :
    Holds (wideStep big m k i s) (SOk l n) := by
  unfold wideStep
  refine Holds.ite (fun _ => Holds.pure h) (fun _ => ?_)
  refine (holds_read h.1.good k 1).bind fun r hr => ?_
  refine Holds.ite (fun _ => Holds.pure ⟨h.1.trans hr.1, h.2⟩) (fun _ => ?_)
  have hn := h.2
  refine (Holds.wr (by omega)).bind fun d1 h1 => ?_
  refine (Holds.wr (by omega)).bind fun d2 h2 => ?_
  refine (Holds.wr (by omega)).bind fun d3 h3 => ?_
  exact Holds.pure ⟨h.1.trans hr.1, by show d3.length = n; omega⟩

theorem rows16_safe {big : Bool} {m : Mask × Mask × Mask} {l l0 : R} {w h n : Nat} {data : List UInt8} (g : Same l0 l)
    (hn : data.length = n) (he : n = w * 3 * h) (hlt : n < 4294967296) : Holds (rows16 big m w h data l) (SOk l0 n) := by
  unfold rows16
  refine (Holds.loop (fun (_ : Nat) (s : S) => SOk l0 n s) ⟨g, hn⟩ ?_)
  intro j s hj hs
  refine (Holds.loop (fun (_ : Nat) (s : S) => SOk l0 n s) hs ?_).bind fun t ht => ?_
  · intro i t hi ht
    have hb : j * w + i < h * w := idx_lt hj hi
    have hb2 : (j * w + i + 1) * 3 ≤ h * w * 3 := Nat.mul_le_mul_right 3 hb
    have e : h * w * 3 = n := by rw [he]; grind
    refine wideStep_safe ht ?_
    rw [u32_of_lt (by omega)]
    omega
  · refine Holds.ite (fun _ => Holds.pure ht) (fun _ => ?_)
    refine (holds_read ht.1.good _ _).bind fun r hr => ?_
    exact Holds.pure ⟨ht.1.trans hr.1, ht.2⟩

theorem rowsBytes_safe {l l0 : R} {bps h plane n : Nat} {data : List UInt8} (g : Same l0 l) (h0 : 0 < bps)
    (hn : data.length = n) (he : plane = h * bps) (hp : plane = n) (hlt : n < 4294967296) : Holds (rowsBytes bps plane data l) (SOk l0 n) := by
  unfold rowsBytes
  refine Holds.ite (fun _ => ?_) (fun _ => ?_)
  · refine (holds_readAt' g.good (by rw [u32_of_lt (by omega)]; omega)).bind fun r hr => ?_
    exact Holds.pure ⟨g.trans hr.1, hr.2.2.trans hn⟩
  · rw [he, forStep_mul h0]
    refine (Holds.loop (fun (_ : Nat) (s : S) => SOk l0 n s) ⟨g, hn⟩ ?_)
    intro j s hj hs
    have hle : (j + 1) * bps ≤ h * bps := Nat.mul_le_mul_right _ hj
    rw [Nat.add_mul, Nat.one_mul] at hle
    refine Holds.ite (fun _ => Holds.pure hs) (fun _ => ?_)
    refine (holds_readAt' hs.1.good (by rw [u32_of_lt (by omega), hs.2]; omega)).bind fun r hr => ?_
    obtain ⟨k, d, l'⟩ := r
    dsimp only at hr ⊢
    refine Holds.ite (fun _ => Holds.pure ⟨hs.1.trans hr.1, hr.2.2.trans hs.2⟩) (fun _ => ?_)
    refine (holds_read hr.1.good _ _).bind fun r2 hr2 => ?_
    exact Holds.pure ⟨(hs.1.trans hr.1).trans hr2.1, hr.2.2.trans hs.2⟩

theorem readMask_safe {big : Bool} {init : Nat} {l : R} (g : Good l) : Holds (readMask big init l) fun r => Same l r.2 := by
  unfold readMask
  refine (holds_read g 4 1).bind fun r hr => ?_
  exact Holds.pure hr.1

theorem readMasks_safe {big : Bool} {h : Head} {init : Mask × Mask × Mask} {l : R} (g : Good l) (ho : h.comp = 3 → 12 ≤ h.off) :
    Holds (readMasks big h init l) fun r => Same l r.2 := by
  unfold readMasks
  refine Holds.ite (fun hc => ?_) (fun _ => Holds.pure (Same.refl g))
  have := ho hc
  rw [if_neg (by omega)]
  refine (holds_seek g (fun _ => by omega) (by decide)).bind fun r hr => ?_
  obtain ⟨b, l1⟩ := r
  dsimp only at hr ⊢
  refine (readMask_safe hr.good).bind fun r2 hr2 => ?_
  obtain ⟨b2, l2⟩ := r2
  dsimp only at hr2 ⊢
  refine (readMask_safe hr2.good).bind fun r3 hr3 => ?_
  obtain ⟨b3, l3⟩ := r3
  dsimp only at hr3 ⊢
  refine (readMask_safe hr3.good).bind fun r4 hr4 => ?_
  exact Holds.pure (((hr.trans hr2).trans hr3).trans hr4)

theorem bits_cases {h : Head} (hc : iCheckBmp h = true) :
    (h.bits = 1 ∨ h.bits = 4 ∨ h.bits = 8 ∨ h.bits = 16 ∨ h.bits = 24 ∨ h.bits = 32) ∧ h.type = 19778#16 ∧ h.size = 40 ∧ h.height ≠ 0 ∧ 1 ≤ h.width ∧
      (h.comp = 0 ∨ h.comp = 1 ∨ h.comp = 2 ∨ h.comp = 3) ∧ (h.comp = 3 → h.bits = 16 ∨ h.bits = 32) := by
  unfold iCheckBmp at hc
  split at hc
  · cases hc
  split at hc
  · cases hc
  split at hc
  · cases hc
  split at hc
  · cases hc
  split at hc
  · cases hc
  rename_i h1 h2 h3 h4 h5
  simp only [decide_eq_true_eq] at hc
  rw [not_or] at h1
  refine ⟨hc, Decidable.of_not_not h1.1, Decidable.of_not_not h1.2, by omega, by omega, by omega, fun h => ?_⟩
  omega

theorem readPixels_safe {big : Bool} {h : Head} {m : Img} {l : R} (g : Good l) (hb : h.bits = 1 ∨ h.bits = 4 ∨ h.bits = 8 ∨ h.bits = 16 ∨ h.bits = 24 ∨ h.bits = 32)
    (ho : h.comp = 3 → 12 ≤ h.off) (hw : 0 < m.width) (hc : m.Consistent) (hd : m.depth = 1) (hbc : m.bpc = 1) (hbp : m.bpp = (kindOf h).2)
    (hlt : m.size < 4294967296) : Holds (readPixels big h m l) (SOk l m.size) := by
  have e1 := hc.1
  have e2 := hc.2.1
  have e3 := hc.2.2.1
  have e4 := hc.2.2.2
  rw [hbc, Nat.mul_one] at e1 e2 e3
  rw [hd, Nat.mul_one] at e3
  have es : m.size = m.height * m.bps := by rw [e3, e1]; grind
  have esm : (kindOf h).2 = 1 → m.size = m.height * m.width := fun h1 => by rw [e3, hbp, h1]; grind
  have hj : (kindOf h).2 = 1 → ∀ j, j < m.height → ∀ x, x < m.width → u32 (j * m.width + x) < m.size := by
    intro h1 j hj x hx
    have := idx_lt hj hx
    have := esm h1
    rw [u32_of_lt (by omega)]
    omega
  unfold readPixels
  refine Holds.ite (fun h1 => ?_) (fun h1 => Holds.ite (fun h4 => ?_) (fun h4 => Holds.ite (fun h16 => ?_) (fun h16 => Holds.ite (fun h32 => ?_) (fun h32 => ?_))))
  · refine (Holds.loop (fun (_ : Nat) (s : S) => SOk l m.size s) ⟨Same.refl g, e4⟩ ?_)
    intro j s hjh hs
    exact smallRow_safe hs fun t ht hct => bitStep_safe (hj (by unfold kindOf; rw [h1]; rfl) j hjh) ht hct
  · refine (Holds.loop (fun (_ : Nat) (s : S) => SOk l m.size s) ⟨Same.refl g, e4⟩ ?_)
    intro j s hjh hs
    exact smallRow_safe hs fun t ht hct => nibbleStep_safe (hj (by unfold kindOf; rw [h4]; rfl) j hjh) ht hct
  · refine (readMasks_safe g ho).bind fun r hr => ?_
    have : m.bpp = 3 := by rw [hbp]; unfold kindOf; rw [h16]; rfl
    exact rows16_safe hr e4 (by rw [e3, this]) hlt
  · refine (readMasks_safe g ho).bind fun r hr => ?_
    have : m.bpp = 3 := by rw [hbp]; unfold kindOf; rw [h32]; rfl
    obtain ⟨mk, l1⟩ := r
    dsimp only at hr ⊢
    rw [show m.size = m.width * m.height * 3 by rw [e3, this]; grind, forStep_mul (by decide), show m.width * m.height * 3 = m.size by rw [e3, this]; grind]
    refine (Holds.loop (fun (_ : Nat) (s : S) => SOk l m.size s) ⟨hr, e4⟩ ?_)
    intro j s hjh hs
    have : (j + 1) * 3 ≤ m.width * m.height * 3 := Nat.mul_le_mul_right 3 hjh
    have : m.size = m.width * m.height * 3 := by rw [e3, ‹m.bpp = 3›]; grind
    exact wideStep_safe hs (by omega)
  · have hb0 : 0 < m.bpp := by rw [hbp]; unfold kindOf; split <;> decide
    refine rowsBytes_safe (h := m.height) (Same.refl g) ?_ e4 ?_ ?_ hlt
    · rw [e1]; exact Nat.mul_pos hw hb0
    · rw [e2, e1]; grind
    · rw [e2, e3]

/-! ### Run-length encoded bitmaps -/

theorem holds_read2 {l : R} (g : Good l) : Holds (read2 l) fun r => Same l r.2 ∧ (r.1 ≠ none → l.pos < r.2.pos) := by
  unfold read2
  refine (holds_read g 2 1).bind fun r h => ?_
  obtain ⟨x, l'⟩ := r
  obtain ⟨h1, h2, _, h4, h5⟩ := h
  dsimp only at h1 h2 h4 h5 ⊢
  refine Holds.pure ⟨h1, fun hn => ?_⟩
  by_cases hr : x.ret = 1
  · rw [if_pos (by decide)] at h5
    show l.pos < l'.pos
    omega
  · exact absurd (if_neg hr) hn

/-- What the run-length decoders keep; with it, fewer than `k` bytes of the input are left unless they have failed. -/
def LOk (l : R) (n k : Nat) (s : L) : Prop := Same l s.inp ∧ s.data.length = n ∧ (s.failed = false → s.inp.size - s.inp.pos < k)

theorem escape_safe {l : R} {w n k : Nat} {c : UInt8} {s : L} (h : LOk l n k s) : Holds (escape w n c s) (LOk l n k) := by
  unfold escape
  refine Holds.ite (fun _ => Holds.pure h) (fun _ => Holds.ite (fun _ => Holds.pure h) (fun _ => ?_))
  refine (holds_read2 h.1.good).bind fun r hr => ?_
  obtain ⟨b, l1⟩ := r
  dsimp only at hr ⊢
  cases b with
  | none => exact Holds.pure ⟨h.1.trans hr.1, h.2.1, fun h => nomatch h⟩
  | some b =>
    have := hr.2 (by simp)
    refine Holds.pure ⟨h.1.trans hr.1, h.2.1, fun hf => ?_⟩
    have := h.2.2 hf
    have hz := hr.1.size
    show l1.size - l1.pos < k
    rw [hz]
    omega

theorem padByte_safe {l : R} {n k : Nat} {odd : Bool} {s : L} (h : LOk l n k s) : Holds (padByte odd s) (LOk l n k) := by
  unfold padByte
  refine Holds.ite (fun _ => ?_) (fun _ => Holds.pure h)
  refine (holds_readByte h.1.good).bind fun r hr => ?_
  obtain ⟨b, l1⟩ := r
  dsimp only at hr ⊢
  cases b with
  | none => exact Holds.pure ⟨h.1.trans hr.1, h.2.1, fun h => nomatch h⟩
  | some b =>
    refine Holds.pure ⟨h.1.trans hr.1, h.2.1, fun hf => ?_⟩
    have := h.2.2 hf
    have hz := hr.1.size
    have := hr.2.1
    show l1.size - l1.pos < k
    rw [hz]
    omega

theorem step8_safe {l : R} {w n : Nat} {s : L} (h : Same l s.inp) (hn : s.data.length = n) (ho : s.off < n) (hlt : n < 4294967296) :
    Holds (step8 w n s) (LOk l n (s.inp.size - s.inp.pos)) := by
  unfold step8
  refine (holds_read2 h.good).bind fun r hr => ?_
  obtain ⟨b, l1⟩ := r
  dsimp only at hr ⊢
  cases b with
  | none => exact Holds.pure ⟨h.trans hr.1, hn, fun h => nomatch h⟩
  | some b =>
    obtain ⟨c, v⟩ := b
    have hp := hr.2 (by simp)
    have hz := hr.1.size
    have hk : l1.size - l1.pos < s.inp.size - s.inp.pos := by have := hr.1.good.pos; rw [hz] at this ⊢; omega
    dsimp only
    refine Holds.ite (fun _ => Holds.ite (fun _ => ?_) (fun _ => ?_)) (fun _ => ?_)
    · exact escape_safe ⟨h.trans hr.1, hn, fun _ => hk⟩
    · have hv := v.toNat_lt
      refine (holds_readAt' hr.1.good (by rw [u32_of_lt (by omega), hn]; omega)).bind fun r2 hr2 => ?_
      obtain ⟨k, d, l2⟩ := r2
      dsimp only at hr2 ⊢
      have hz2 := hr2.1.size
      refine Holds.ite (fun _ => Holds.pure ⟨(h.trans hr.1).trans hr2.1, hr2.2.2.trans hn, fun h => nomatch h⟩) (fun _ => ?_)
      exact padByte_safe ⟨(h.trans hr.1).trans hr2.1, hr2.2.2.trans hn, fun _ => by show l2.size - l2.pos < _; have := hr2.2.1; omega⟩
    · rw [fill_splice (by omega), bind_ok]
      exact Holds.pure ⟨h.trans hr.1, by show (splice _ _ _).length = n; rw [splice_length (by simp only [List.length_replicate]; omega)]; exact hn, fun _ => hk⟩

theorem nibbles_safe {l : R} {n k count : Nat} {s : L} (h : LOk l n k s) (ho : s.off + count ≤ n) :
    Holds (nibbles count s) fun t => LOk l n k t.1 := by
  unfold nibbles nibble
  refine (Holds.loop (fun (i : Nat) (t : L × UInt8) => LOk l n k t.1 ∧ (t.1.failed = false → t.1.off = s.off + i)) ⟨h, fun _ => rfl⟩ ?_).mono fun t ht => ht.1
  intro i t hi ht
  refine Holds.ite (fun hf => Holds.pure ⟨ht.1, fun h => absurd hf (by simp [h])⟩) (fun hf => ?_)
  have hf : t.1.failed = false := by simpa using hf
  have hoff := ht.2 hf
  have hk := ht.1.2.2 hf
  have hget : Holds (if i % 2 = 0 then readByte t.1.inp else (pure (some t.2, t.1.inp) : C (Option UInt8 × R))) fun r => Same t.1.inp r.2 ∧ t.1.inp.pos ≤ r.2.pos :=
    Holds.ite (fun _ => (holds_readByte ht.1.1.good).mono fun r hr => ⟨hr.1, hr.2.1⟩) (fun _ => Holds.pure ⟨Same.refl ht.1.1.good, Nat.le_refl _⟩)
  refine hget.bind fun r hr => ?_
  obtain ⟨b, l1⟩ := r
  dsimp only at hr ⊢
  have hz := hr.1.size
  cases b with
  | none => exact Holds.pure ⟨⟨ht.1.1.trans hr.1, ht.1.2.1, fun h => nomatch h⟩, fun h => nomatch h⟩
  | some b =>
    dsimp only
    refine (Holds.wr (by rw [ht.1.2.1]; omega)).bind fun d hd => ?_
    refine Holds.pure ⟨⟨ht.1.1.trans hr.1, hd.1.trans ht.1.2.1, fun _ => ?_⟩, fun _ => ?_⟩
    · show l1.size - l1.pos < k
      rw [hz]
      have := hr.2
      omega
    · show t.1.off + 1 = s.off + (i + 1)
      omega

theorem step4_safe {l : R} {w n : Nat} {s : L} (h : Same l s.inp) (hn : s.data.length = n) (ho : s.off < n) :
    Holds (step4 w n s) (LOk l n (s.inp.size - s.inp.pos)) := by
  unfold step4
  refine (holds_read2 h.good).bind fun r hr => ?_
  obtain ⟨b, l1⟩ := r
  dsimp only at hr ⊢
  cases b with
  | none => exact Holds.pure ⟨h.trans hr.1, hn, fun h => nomatch h⟩
  | some b =>
    obtain ⟨c, v⟩ := b
    have hp := hr.2 (by simp)
    have hz := hr.1.size
    have hk : l1.size - l1.pos < s.inp.size - s.inp.pos := by have := hr.1.good.pos; rw [hz] at this ⊢; omega
    dsimp only
    refine Holds.ite (fun _ => Holds.ite (fun _ => ?_) (fun _ => ?_)) (fun _ => ?_)
    · exact escape_safe ⟨h.trans hr.1, hn, fun _ => hk⟩
    · refine (nibbles_safe (s := { s with inp := l1 }) ⟨h.trans hr.1, hn, fun _ => hk⟩ (by show s.off + _ ≤ n; omega)).bind fun t ht => ?_
      obtain ⟨t, bb⟩ := t
      dsimp only at ht ⊢
      exact Holds.ite (fun _ => Holds.pure ht) (fun _ => padByte_safe ht)
    · refine (Holds.loop (fun (_ : Nat) (d : List UInt8) => d.length = n) hn ?_).bind fun d hd => ?_
      · intro i d hi hd
        exact (Holds.wr (by rw [hd]; omega)).mono fun d' hd' => hd'.1.trans hd
      · exact Holds.pure ⟨h.trans hr.1, hd, fun _ => hk⟩

theorem codes_safe {step : Nat → Nat → L → C L} {m : Img} {l : R} (g : Good l) (hm : m.data.length = m.size)
    (hs : ∀ s : L, Same l s.inp → s.data.length = m.size → s.off < m.size →
      Holds (step m.width m.size s) (LOk l m.size (s.inp.size - s.inp.pos))) :
    Holds (codes step m l) fun s => Same l s.inp ∧ s.data.length = m.size := by
  unfold codes
  refine (Holds.while (fun s : L => Same l s.inp ∧ s.data.length = m.size)
    (fun s : L => if s.failed then 0 else s.inp.size - s.inp.pos + 1) ?_ (l.size + 2) _ ⟨Same.refl g, hm⟩ ?_).mono fun s h => h.1
  · intro s hi hc
    simp only [Bool.and_eq_true, Bool.not_eq_true', decide_eq_true_eq] at hc
    refine (hs s hi.1 hi.2 hc.2).mono fun t ht => ⟨⟨ht.1, ht.2.1⟩, ?_⟩
    show (if t.failed = true then 0 else _) < _
    rw [hc.1]
    by_cases hf : t.failed = true
    · rw [if_pos hf]; simp
    · rw [if_neg hf]
      have h1 := ht.2.2 (by simpa using hf)
      simp only [Bool.false_eq_true, if_false]
      omega
  · show (if false = true then 0 else l.size - l.pos + 1) < l.size + 2
    rw [if_neg (by decide)]
    omega

end DevIL.Bmp
