import Verif.Lemmas.Wbmp
import Verif.Props.Lump
import Verif.Props.Image
import Verif.Props.Manip
import Verif.Hoare
/-! C48: WBMP numbers and bits.  C80: loading arbitrary bytes as WBMP.  C81, C82: loading from memory, truncated files. -/
set_option autoImplicit false
namespace DevIL.Wbmp
open DevIL.Lump DevIL.Utility DevIL.Bits DevIL.Image

/-! ## C48 -/

/-- **C48 (numbers).** Every 32-bit number written as a multi-byte integer is read back, whatever follows it in the file. -/
theorem C48_numbers (v : Nat) (hv : v < 4294967296) (rest : List UInt8) :
    let bytes := output (putMulti v) ++ rest
    bytes.length < 4294967295 → ∃ n, getMulti (open_ bytes bytes.length) = .ok (v, ⟨bytes, bytes.length, n⟩) ∧ bytes.drop n = rest := by
  intro bytes hlt
  have h0 : 0 < bytes.length := by
    obtain ⟨h1, _, _⟩ := numBytes_spec 4 v (Nat.lt_trans hv (by decide))
    show 0 < ((putMulti v).flatMap WOp.bytes ++ rest).length
    rw [putMulti_bytes, List.length_append, groups_length]
    change 1 ≤ numBytes 5 v at h1
    omega
  obtain ⟨n, e, ha⟩ := putMulti_get (l := open_ bytes bytes.length) (rest := rest) hv (at_open h0 hlt)
  refine ⟨n, ?_, ?_⟩
  · rw [e]; simp [adv, open_]
  · have := ha.2
    simpa [adv, open_] using this

example : (output (putMulti 300)) = [0x82, 0x2C] ∧ (output (putMulti 4294967295)).length = 5 := by decide

/-- A black-and-white index image: one byte per pixel, one slice, in the 32-bit range. -/
structure TwoColour (q : Img) : Prop where
  cons : q.Consistent
  w0 : 0 < q.width
  h0 : 0 < q.height
  d : q.depth = 1
  bpp : q.bpp = 1
  bpc : q.bpc = 1
  fits : q.width * q.height + 2048 < 4294967296

theorem cell_get {α β : Type} (f : Nat → Nat → α) (g : α → β) (w : Nat) : ∀ (h x y : Nat), x < w → y < h →
    (((List.range h).flatMap fun y => (List.range w).map (f y)).map g)[w * y + x]? = some (g (f y x)) := by
  intro h
  induction h with
  | zero => intro x y _ hy; omega
  | succ h ih =>
    intro x y hx hy
    have hflat : (((List.range h).flatMap fun y => (List.range w).map (f y)).map g).length = w * h := by
      clear ih hy
      induction h with
      | zero => simp
      | succ h ih => rw [List.range_succ, List.flatMap_append, List.map_append, List.length_append, ih]; simp [Nat.mul_add]
    rw [List.range_succ, List.flatMap_append, List.map_append]
    by_cases hyh : y < h
    · have hlt : w * y + x < w * h := by
        have := idx_lt hyh hx
        rw [Nat.mul_comm w y, Nat.mul_comm w h]; exact this
      rw [List.getElem?_append_left (by omega), ih x y hx hyh]
    · have : y = h := by omega
      subst this
      rw [List.getElem?_append_right (by omega), hflat, Nat.add_sub_cancel_left]
      simp [hx]

/-- **C48 (images).** Let `q` be a black-and-white index image with the dimensions of the current image (what the quantizer
returns).  The WBMP file made from it, loaded again, is a grey image of the same dimensions with its origin in the upper left corner,
in which exactly the pixels of index 1 are white and all others are black: row `y` from the top shows the row `y` from the
top of `q`.  `true` says that the library has read from a file before (see C81). -/
theorem C48_round_trip (junk junk' : Nat → UInt8) (m q : Img) (hq : TwoColour q) (hw : m.width = q.width) (hh : m.height = q.height) :
    ∃ ops, iSaveWbmpInternal junk m (some q) = .ok (some ops) ∧
    ∃ m' l, iLoadWbmpInternal junk' true (open_ (output ops) (output ops).length) = .ok (true, some m', l) ∧ m'.Consistent ∧
      m'.width = q.width ∧ m'.height = q.height ∧ m'.depth = 1 ∧ m'.bpp = 1 ∧ m'.bpc = 1 ∧ m'.format = IL_LUMINANCE ∧
      m'.origin = IL_ORIGIN_UPPER_LEFT ∧
      ∀ x y, x < q.width → y < q.height → m'.px x y 0 0 =
        some (if q.px x (if q.origin = IL_ORIGIN_UPPER_LEFT then y else q.height - 1 - y) 0 0 = some 1 then 255 else 0) := by
  have hfit := hq.fits
  have hsize : q.size = q.width * q.height := by rw [hq.cons.2.2.1, hq.bpp, hq.bpc, hq.d]; simp
  have hwlt : q.width < 4294967296 := by
    have := Nat.le_mul_of_pos_right q.width hq.h0; omega
  have hhlt : q.height < 4294967296 := by
    have := Nat.le_mul_of_pos_left q.height hq.w0; omega
  -- the pixel rows, top row first
  obtain ⟨t, et, ht, pt⟩ : ∃ t, topDown junk q = .ok t ∧
      t.length = q.width * q.height ∧ ∀ x y, x < q.width → y < q.height →
        t[q.width * y + x]? = q.px x (if q.origin = IL_ORIGIN_UPPER_LEFT then y else q.height - 1 - y) 0 0 := by
    have hpx : ∀ (d : List UInt8) x y, ({ q with data := d } : Img).px x y 0 0 = d[q.width * y + x]? := by
      intro d x y
      unfold Img.px
      simp only [hq.bpp, hq.bpc, Nat.zero_mul, Nat.zero_add, Nat.mul_one, Nat.add_zero]
      rw [Nat.mul_comm]
    unfold topDown
    by_cases ho : q.origin = IL_ORIGIN_UPPER_LEFT
    · rw [if_neg (by simp [ho])]
      refine ⟨q.data, rfl, by rw [hq.cons.2.2.2, hsize], fun x y _ _ => ?_⟩
      rw [if_pos ho]; exact (hpx q.data x y).symm
    · rw [if_pos ho, Manip.C16_flipped_copy junk q hq.cons (by rw [hsize]; omega)]
      obtain ⟨m', e, s, _, hp⟩ := Manip.C16_flip q hq.cons (by rw [hsize]; omega)
      rw [e, bind_ok]
      refine ⟨m'.data, rfl, by rw [s.2, hq.cons.2.2.2, hsize], fun x y hx hy => ?_⟩
      rw [if_neg ho]
      have key := hp x (q.height - 1 - y) 0 0 ⟨hx, by omega, by rw [hq.d]; decide, by rw [hq.bpp, hq.bpc]; decide⟩
      rw [show q.height - 1 - (q.height - 1 - y) = y by omega] at key
      rw [← key, ← hpx]
      unfold Img.px
      simp only []
      rw [s.1]
  obtain ⟨rows, er, hbits, hlen⟩ := packRows_spec ht (by omega)
  have hsave : iSaveWbmpInternal junk m (some q) = .ok (some ([.putc 0, .putc 0] ++ putMulti m.width ++ putMulti m.height ++ rows)) := by
    unfold iSaveWbmpInternal
    simp only []
    rw [et, bind_ok, er, bind_ok]
    rfl
  refine ⟨_, hsave, ?_⟩
  generalize hf : output ([.putc 0, .putc 0] ++ putMulti m.width ++ putMulti m.height ++ rows) = file
  have hfile : file = 0 :: 0 :: ((putMulti q.width).flatMap WOp.bytes ++ ((putMulti q.height).flatMap WOp.bytes ++ rows.flatMap WOp.bytes)) := by
    rw [← hf, hw, hh]
    unfold output
    simp only [List.flatMap_append, List.append_assoc]
    rfl
  have hflen : file.length < 4294967295 ∧ 0 < file.length := by
    have h1 := (numBytes_spec 4 q.width (Nat.lt_trans hwlt (by decide))).2.1
    have h2 := (numBytes_spec 4 q.height (Nat.lt_trans hhlt (by decide))).2.1
    change numBytes 5 q.width ≤ 5 at h1
    change numBytes 5 q.height ≤ 5 at h2
    have h3 : q.height * ((q.width + 7) / 8) ≤ q.width * q.height := by
      rw [Nat.mul_comm q.width]
      exact Nat.mul_le_mul_left _ (by have := hq.w0; omega)
    rw [hfile]
    simp only [List.length_cons, List.length_append, putMulti_bytes, groups_length, hlen]
    omega
  have a0 := at_open hflen.2 hflen.1
  have a0' : At (open_ file file.length) (0 :: 0 :: ((putMulti q.width).flatMap WOp.bytes ++ ((putMulti q.height).flatMap WOp.bytes ++ rows.flatMap WOp.bytes))) :=
    ⟨a0.1, a0.2.trans hfile⟩
  have a1 := a0'.adv_cons
  have a2 := a1.adv_cons
  obtain ⟨n1, e1, a3⟩ := putMulti_get hwlt a2
  obtain ⟨n2, e2, a4⟩ := putMulti_get hhlt a3
  have hbt : ilGetBpcType IL_UNSIGNED_BYTE = 1 := rfl
  obtain ⟨m1, em, c, f1, f2, f3, f4, f5, f6, f7, _⟩ := C14_geometry_partial junk' q.width q.height 1 1 IL_LUMINANCE IL_UNSIGNED_BYTE
      none (by rw [hbt]; decide)
      (by rw [hbt, Nat.max_eq_left hq.w0, Nat.max_eq_left hq.h0, Nat.max_self, Nat.mul_one, Nat.mul_one, Nat.mul_one]; omega) (fun _ h => nomatch h)
  rw [hbt] at f5
  rw [Nat.max_eq_left hq.w0] at f1
  rw [Nat.max_eq_left hq.h0] at f2
  rw [Nat.max_self] at f3
  have hs1 : m1.size = q.width * q.height := by rw [c.2.2.1, f1, f2, f4, f5, f3]; simp
  have hd1 : m1.data.length = q.width * q.height := by rw [c.2.2.2, hs1]
  have hready : Ready (bfile (adv (adv (adv (adv (open_ file file.length) 1) 1) n1) n2)) := ⟨a4.1, by simp [bfile]⟩
  have hrest : rest (bfile (adv (adv (adv (adv (open_ file file.length) 1) 1) n1) n2)) = (List.range q.height).flatMap (padRow t q.width) ++ [] := by
    unfold rest bfile
    simp only [List.append_nil]
    rw [if_neg (by decide), List.nil_append, ← hbits]
    exact congrArg fileBits a4.2
  obtain ⟨s', es⟩ := readRows_spec (junk := junk') (d := m1.data) hready (by omega) hq.w0 hq.h0 hd1 hrest
  have hlenb : (((List.range q.height).flatMap fun y => (List.range q.width).map (isSet t q.width y)).map bitByte).length = m1.size := by
    rw [hs1, List.length_map]
    have : ∀ i, ((List.range i).flatMap fun y => (List.range q.width).map (isSet t q.width y)).length = q.width * i := by
      intro i
      induction i with
      | zero => simp
      | succ i ih => rw [List.range_succ, List.flatMap_append, List.length_append, ih]; simp [Nat.mul_add]
    exact this _
  have ewh := whiten_spec (((List.range q.height).flatMap fun y => (List.range q.width).map (isSet t q.width y)).map bitByte)
  rw [hlenb] at ewh
  generalize hres : (((List.range q.height).flatMap fun y => (List.range q.width).map (isSet t q.width y)).map bitByte) = res at es ewh hlenb
  refine ⟨{ m1 with origin := IL_ORIGIN_UPPER_LEFT, data := res.map fun b => if b = 1 then 255 else b }, s'.inp, ?_,
    ⟨c.1, c.2.1, c.2.2.1, ?_⟩, f1, f2, f3, f4, f5, f6, rfl, ?_⟩
  · unfold iLoadWbmpInternal
    rw [a0'.getc, bind_ok]
    simp only []
    rw [if_neg (by simp), a1.getc, bind_ok]
    simp only []
    rw [if_neg (by simp), e1, bind_ok]
    simp only []
    rw [e2, bind_ok]
    simp only []
    rw [if_neg (by have := hq.w0; have := hq.h0; omega), em, bind_ok]
    simp only [Bool.not_true, Bool.false_eq_true, if_false]
    rw [f1, f2, es, bind_ok]
    simp only []
    rw [ewh, bind_ok]
    rw [← f1, ← f2]
    rfl
  · show (res.map _).length = m1.size
    rw [List.length_map]; exact hlenb
  · intro x y hx hy
    rw [← pt x y hx hy]
    unfold Img.px
    simp only [f1, f2, f4, f5, Nat.zero_mul, Nat.zero_add, Nat.mul_one, Nat.add_zero]
    rw [← hres, List.map_map, Nat.mul_comm y, cell_get _ _ _ _ _ _ hx hy]
    simp only [Function.comp, bitByte]
    by_cases hb : t[q.width * y + x]? = some 1
    · have : isSet t q.width y x = true := by simp [isSet, hb]
      simp [this, hb]
    · have : isSet t q.width y x = false := by simpa [isSet] using hb
      simp [this, hb]

/-- A 10x2 image with its origin in the lower left corner. -/
def bw : Img :=
  { width := 10, height := 2, depth := 1, bpp := 1, bpc := 1, bps := 10, plane := 20, size := 20, format := IL_COLOUR_INDEX,
    type := IL_UNSIGNED_BYTE, origin := IL_ORIGIN_LOWER_LEFT,
    data := [1, 0, 1, 1, 0, 0, 0, 1, 1, 0, 0, 0, 0, 0, 0, 1, 1, 1, 0, 1] }

example : TwoColour bw := by
  refine ⟨⟨rfl, rfl, rfl, rfl⟩, ?_, ?_, rfl, rfl, rfl, ?_⟩ <;> decide

/-! ## C80 -/

theorem refill_safe {s : B} (h : Ready s) : Holds (refill s) fun r => Ready r.2 ∧ 0 ≤ r.2.off := by
  have hlo := h.lo
  unfold refill
  refine Holds.ite (fun _ => ?_) (fun hc => Holds.ok ⟨h, by show 0 ≤ s.off; omega⟩)
  rw [read_spec h.good, bind_ok]
  have hg := h.good.read_good 1 1
  simp only []
  split
  · exact Holds.pure ⟨⟨hg, by simp⟩, by simp⟩
  · exact Holds.pure ⟨⟨hg, by simp⟩, by simp⟩

theorem breadLoop_safe (n : Nat) : ∀ (s : B) (acc : List Bool), Ready s →
    Holds (breadLoop n s acc) fun r => Ready r.2 ∧ r.1.length ≤ acc.length + n := by
  induction n with
  | zero => intro s acc h; exact Holds.ok ⟨h, by simp⟩
  | succ n ih =>
    intro s acc h
    unfold breadLoop
    refine (refill_safe h).bind fun r hr => ?_
    refine Holds.ite (fun _ => ?_) (fun _ => Holds.pure ⟨hr.1, by show acc.length ≤ _; omega⟩)
    refine (ih { r.2 with off := r.2.off - 1 } (acc ++ [bit r.2]) ⟨hr.1.good, by show -1 ≤ r.2.off - 1; omega⟩).mono fun r' hr' => ?_
    refine ⟨hr'.1, ?_⟩
    have := hr'.2
    simp at this
    omega

theorem breadAt_safe {d : List UInt8} {at_ n : Nat} {s : B} (h : Ready s) (hn : n < 4294967296) (hd : at_ + n ≤ d.length) :
    Holds (breadAt d at_ n s) fun r => r.1.length = d.length ∧ Ready r.2 := by
  unfold breadAt bread
  rw [Nat.one_mul, u32_of_lt hn]
  refine (breadLoop_safe n s [] h).bind fun r hr => ?_
  have hl := hr.2
  simp only [List.length_nil, Nat.zero_add] at hl
  simp only []
  rw [copy_splice (p := 0) (by simp) (by simp; omega), bind_ok]
  refine Holds.pure ⟨splice_length (by simp; omega), hr.1⟩

theorem whiten_safe {n : Nat} {d : List UInt8} (h : n = d.length) : Holds (whiten n d) fun d' => d'.length = d.length := by
  subst h
  exact ⟨_, whiten_spec d, by simp⟩

theorem multi_safe (k : Nat) : ∀ (v : Nat) (l : R), v < 4294967296 → Good l → Holds (multiLoop k v l) fun r => r.1 < 4294967296 ∧ Good r.2 := by
  induction k with
  | zero => intro v l hv hg; exact Holds.ok ⟨hv, hg⟩
  | succ k ih =>
    intro v l hv hg
    unfold multiLoop
    obtain ⟨b, l', e, hg', _⟩ := keeps_getb hg
    rw [e, bind_ok]
    have hlt : u32 (v * 128) + b.toNat % 128 < 4294967296 := by unfold u32; omega
    exact Holds.ite (fun _ => Holds.pure ⟨hlt, hg'⟩) (fun _ => ih _ _ hlt hg')

/-- **C80.** Loading any non-empty byte string as WBMP stays within the string and within the image, and an image that was created
owns a pixel block of exactly the size it reports, provided the announced width times the announced height is below 2^32.
Missing (and false): larger dimensions. -/
theorem C80_safe_partial (junk : Nat → UInt8) (handle : Bool) (file : List UInt8) (h0 : 0 < file.length) (hlt : file.length < 4294967295)
    (hdim : ∀ w h l l', getMulti ⟨file, file.length, 2⟩ = .ok (w, l) → getMulti l = .ok (h, l') → w * h < 4294967296) :
    ∃ ok m l, iLoadWbmpInternal junk handle (open_ file file.length) = .ok (ok, m, l) ∧ ∀ m', m = some m' → m'.Consistent := by
  have hg0 := (at_open h0 hlt).1
  show ∃ ok m l, _ ∧ _
  suffices H : Holds (iLoadWbmpInternal junk handle (open_ file file.length)) fun r => ∀ m', r.2.1 = some m' → m'.Consistent by
    obtain ⟨⟨ok, m, l⟩, e, h⟩ := H
    exact ⟨ok, m, l, e, h⟩
  unfold iLoadWbmpInternal
  obtain ⟨c, _, e1⟩ := getc_spec hg0 h0
  rw [e1, bind_ok]
  simp only []
  refine Holds.ite (fun _ => Holds.pure fun _ h => nomatch h) (fun _ => ?_)
  have hg1 : Good { open_ file file.length with pos := (open_ file file.length).pos + 1 } := ⟨rfl, by show 0 + 1 ≤ file.length; omega, hlt, h0⟩
  by_cases h2 : file.length = 1
  · rw [getc_end hg1 (by show 0 + 1 = file.length; omega), bind_ok]
    exact Holds.ite (fun _ => Holds.pure fun _ h => nomatch h) (fun h => absurd (by simp) h)
  obtain ⟨c2, _, e2⟩ := getc_spec hg1 (by show 0 + 1 < file.length; omega)
  rw [e2, bind_ok]
  simp only []
  refine Holds.ite (fun _ => Holds.pure fun _ h => nomatch h) (fun _ => ?_)
  have hl2 : ({ open_ file file.length with pos := (open_ file file.length).pos + 1 + 1 } : R) = ⟨file, file.length, 2⟩ := rfl
  have hg2 : Good ⟨file, file.length, 2⟩ := ⟨rfl, by show 2 ≤ file.length; omega, hlt, h0⟩
  show Holds (getMulti ⟨file, file.length, 2⟩ >>= _) _
  obtain ⟨⟨w, l1⟩, ew, hw⟩ := multi_safe 5 0 ⟨file, file.length, 2⟩ (by decide) hg2
  have ew' : getMulti ⟨file, file.length, 2⟩ = .ok (w, l1) := ew
  obtain ⟨⟨h, l3⟩, eh, hh⟩ := multi_safe 5 0 l1 (by decide) hw.2
  have eh' : getMulti l1 = .ok (h, l3) := eh
  have hwh := hdim w h l1 l3 ew' eh'
  rw [ew', bind_ok]
  simp only []
  rw [eh', bind_ok]
  simp only []
  refine Holds.ite (fun _ => Holds.pure fun _ h => nomatch h) (fun hz => ?_)
  have hbt : ilGetBpcType IL_UNSIGNED_BYTE = 1 := rfl
  have hw0 : 1 ≤ w := by omega
  have hh0 : 1 ≤ h := by omega
  obtain ⟨m1, em, c, f1, f2, f3, f4, f5, f6, f7, _⟩ := C14_geometry_partial junk w h 1 1 IL_LUMINANCE IL_UNSIGNED_BYTE
      none (by rw [hbt]; decide)
      (by rw [hbt, Nat.max_eq_left hw0, Nat.max_eq_left hh0, Nat.max_self, Nat.mul_one, Nat.mul_one, Nat.mul_one]; omega) (fun _ h => nomatch h)
  rw [hbt] at f5
  rw [Nat.max_eq_left hw0] at f1
  rw [Nat.max_eq_left hh0] at f2
  rw [Nat.max_self] at f3
  have hs1 : m1.size = w * h := by rw [c.2.2.1, f1, f2, f4, f5, f3]; simp
  rw [em, bind_ok]
  simp only []
  have hc : ({ m1 with origin := IL_ORIGIN_UPPER_LEFT } : Img).Consistent := ⟨c.1, c.2.1, c.2.2.1, c.2.2.2⟩
  refine Holds.ite (fun _ => Holds.pure fun m' h => by cases h; exact hc) (fun _ => ?_)
  have hrr : Holds (readRows junk m1.width m1.height m1.data (bfile l3)) fun r => r.1.length = m1.size := by
    unfold readRows
    rw [f1, f2]
    refine (Holds.loop (fun _ (t : List UInt8 × B) => t.1.length = m1.size ∧ Ready t.2) ⟨c.2.2.2, ⟨hh.2, by simp [bfile]⟩⟩ ?_).mono fun _ h => h.1
    rintro i ⟨t1, t2⟩ hi ⟨h1, h2⟩
    have hrow : w * i + w ≤ w * h := by rw [← Nat.mul_succ]; exact Nat.mul_le_mul_left w hi
    simp only [] at h1 h2 ⊢
    rw [u32_of_lt (by omega)]
    refine (breadAt_safe h2 hw.1 (by omega)).bind fun r hr => ?_
    refine (breadAt_safe hr.2 (by omega) (by simp; omega)).bind fun r2 hr2 => ?_
    exact Holds.pure ⟨hr.1.trans h1, hr2.2⟩
  refine hrr.bind fun r hr => (whiten_safe (by exact hr.symm)).bind fun d hd => Holds.pure fun m' h => ?_
  cases h
  exact ⟨c.1, c.2.1, c.2.2.1, hd.trans hr⟩

/-- A file that announces a 10x2 image meets the bound. -/
example : ∀ w h l l', getMulti ⟨[0, 0, 10, 2, 177, 128, 7, 64], 8, 2⟩ = .ok (w, l) → getMulti l = .ok (h, l') → w * h < 4294967296 := by
  have e1 : getMulti ⟨[0, 0, 10, 2, 177, 128, 7, 64], 8, 2⟩ = .ok (10, ⟨[0, 0, 10, 2, 177, 128, 7, 64], 8, 3⟩) := by decide
  have e2 : getMulti ⟨[0, 0, 10, 2, 177, 128, 7, 64], 8, 3⟩ = .ok (2, ⟨[0, 0, 10, 2, 177, 128, 7, 64], 8, 4⟩) := by decide
  intro w h l l' h1 h2
  rw [e1] at h1
  cases h1
  rw [e2] at h2
  cases h2
  decide

/-- A file that announces 2147483649x2 pixels: the pixel block gets two bytes. -/
def bomb : List UInt8 := [0, 0, 0x88, 0x80, 0x80, 0x80, 0x01, 2, 0xFF]

/-- **C80 is violated for large dimensions.** Loading this file of nine bytes writes past the end of the pixel block. -/
theorem C80_violated_large (junk : Nat → UInt8) : iLoadWbmpInternal junk true (open_ bomb 9) = .error .oobWrite := by
  have a0 : At (open_ bomb 9) (0 :: 0 :: ([0x88, 0x80, 0x80, 0x80, 0x01, 2, 0xFF])) := ⟨⟨rfl, by decide, by decide, by decide⟩, rfl⟩
  unfold iLoadWbmpInternal
  rw [a0.getc, bind_ok]
  simp only []
  rw [if_neg (by simp), a0.adv_cons.getc, bind_ok]
  simp only []
  rw [if_neg (by simp), show getMulti (adv (adv (open_ bomb 9) 1) 1) = .ok (2147483649, ⟨bomb, 9, 7⟩) by decide, bind_ok]
  simp only []
  rw [show getMulti ⟨bomb, 9, 7⟩ = .ok (2, ⟨bomb, 9, 8⟩) by decide, bind_ok]
  simp only []
  rw [if_neg (by decide)]
  obtain ⟨m, hm⟩ : ∃ m : Img, m = { geometry 2147483649 2 1 1 IL_LUMINANCE IL_UNSIGNED_BYTE [] with data := alloc junk 2 } := ⟨_, rfl⟩
  have hinit : ilInitImage junk 2147483649 2 1 1 IL_LUMINANCE IL_UNSIGNED_BYTE none = .ok (some m) := by rw [hm]; rfl
  rw [hinit, bind_ok]
  simp only [Bool.not_true, Bool.false_eq_true, if_false]
  have hrows : readRows junk m.width m.height m.data (bfile ⟨bomb, 9, 8⟩) = .error .oobWrite := by
    have hw : m.width = 2147483649 := by rw [hm]; rfl
    have hh : m.height = 2 := by rw [hm]; rfl
    have hd : m.data = alloc junk 2 := by rw [hm]
    rw [hw, hh, hd]
    unfold readRows
    refine loopN_error (k := 0) (t := (alloc junk 2, bfile ⟨bomb, 9, 8⟩)) (by decide) rfl ?_
    have hloop : breadLoop 2147483649 (bfile ⟨bomb, 9, 8⟩) [] =
        .ok (List.replicate 8 true, ⟨64, 7, 0xFF, ⟨bomb, 9, 9⟩⟩) := by
      have e1 : breadLoop 2147483649 (bfile ⟨bomb, 9, 8⟩) [] = breadLoop 2147483641 ⟨64, -1, 0xFF, ⟨bomb, 9, 9⟩⟩ (List.replicate 8 true) := rfl
      rw [e1]
      rfl
    have hb : breadAt (alloc junk 2) (u32 (2147483649 * 0)) 2147483649 (bfile ⟨bomb, 9, 8⟩) = .error .oobWrite := by
      unfold breadAt bread
      rw [show u32 (1 * 2147483649) = 2147483649 by decide, hloop, bind_ok]
      rfl
    simp only []
    rw [hb]
    rfl
  rw [hrows]
  rfl

/-! ## C81 and C82 -/

/-- **C81 is violated.** As long as the library has not read from a file, no WBMP image can be loaded from memory: every byte string
is refused.  (A file with the same contents is loaded, see C48.) -/
theorem C81_violated_no_handle (junk : Nat → UInt8) (l : R) (ok : Bool) (m : Option Img) (l' : R)
    (h : iLoadWbmpInternal junk false l = .ok (ok, m, l')) : ok = false := by
  unfold iLoadWbmpInternal at h
  cases e1 : getc l with
  | error e => rw [e1] at h; cases h
  | ok r1 =>
    obtain ⟨a, l1⟩ := r1
    rw [e1, bind_ok] at h
    dsimp only at h
    by_cases ha : a ≠ some 0
    · rw [if_pos ha] at h; cases h; rfl
    rw [if_neg ha] at h
    cases e2 : getc l1 with
    | error e => rw [e2] at h; cases h
    | ok r2 =>
      obtain ⟨b, l2⟩ := r2
      rw [e2, bind_ok] at h
      dsimp only at h
      by_cases hb : b ≠ some 0
      · rw [if_pos hb] at h; cases h; rfl
      rw [if_neg hb] at h
      cases e3 : getMulti l2 with
      | error e => rw [e3] at h; cases h
      | ok r3 =>
        obtain ⟨w, l3⟩ := r3
        rw [e3, bind_ok] at h
        dsimp only at h
        cases e4 : getMulti l3 with
        | error e => rw [e4] at h; cases h
        | ok r4 =>
          obtain ⟨hh, l4⟩ := r4
          rw [e4, bind_ok] at h
          dsimp only at h
          by_cases hz : w = 0 ∨ hh = 0
          · rw [if_pos hz] at h; cases h; rfl
          rw [if_neg hz] at h
          cases e5 : ilInitImage junk w hh 1 1 IL_LUMINANCE IL_UNSIGNED_BYTE none with
          | error e => rw [e5] at h; cases h
          | ok o =>
            rw [e5, bind_ok] at h
            cases o with
            | none => cases h; rfl
            | some m => simp only [Bool.not_false, if_true] at h; cases h; rfl

/-- The same file loads once a file has been read, and fails before. -/
example : (iLoadWbmpInternal (fun _ => 9) true (open_ [0, 0, 2, 1, 0x40] 5)).map (fun r => (r.1, r.2.1.map (·.data))) = .ok (true, some [0, 255]) ∧
    (iLoadWbmpInternal (fun _ => 9) false (open_ [0, 0, 2, 1, 0x40] 5)).map (·.1) = .ok false := by
  constructor <;> rfl

/-- **C82 is violated.** A WBMP file that ends after its header is reported as loaded; its pixels are whatever the memory held. -/
theorem C82_violated_truncated :
    (iLoadWbmpInternal (fun _ => 9) true (open_ [0, 0, 2, 1] 4)).map (fun r => (r.1, r.2.1.map (·.data))) = .ok (true, some [9, 9]) := by
  rfl

end DevIL.Wbmp
