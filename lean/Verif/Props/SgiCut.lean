import Verif.Lemmas.BmpCut
import Verif.Props.SgiRle
/-! C93 for SGI files: a truncated file is not reported as loaded. -/
set_option autoImplicit false
namespace DevIL.Sgi
open DevIL.Lump DevIL.Endian DevIL.Image DevIL.Utility DevIL.Load
open DevIL.Pcx (readByte)
open DevIL.Bmp (Same post_read post_readAt post_readByte)

/-! ### Specification -/

/-- The header of an SGI file of `w` x `h` pixels with `z` planes of unsigned bytes: `storage` is 1 for run-length encoding and 0 without; `misc` is
what no reader needs. -/
structure Header (head : List UInt8) (storage : UInt8) (w h z : Nat) : Prop where
  w0 : 0 < w
  w1 : w < 65536
  h0 : 0 < h
  h1 : h < 65536
  z3 : z = 1 ∨ z = 3 ∨ z = 4
  storage2 : storage = 0 ∨ storage = 1
  bytes : ∃ dim misc, 0 < dim ∧ dim < 65536 ∧ misc.length = 496 ∧
    head = beBytes 2 474 ++ [storage, 1] ++ beBytes 2 dim ++ beBytes 2 w ++ beBytes 2 h ++ beBytes 2 z ++ [0, 0, 0, 0] ++ misc

/-! ### Lemmas -/

theorem Header.length {head : List UInt8} {storage : UInt8} {w h z : Nat} (hh : Header head storage w h z) : head.length = 512 := by
  obtain ⟨dim, misc, _, _, lm, e⟩ := hh.bytes
  rw [e]
  simp [beBytes, lm]

theorem Header.read {head rest : List UInt8} {storage : UInt8} {w h z : Nat} (hh : Header head storage w h z) (big : Bool) (junk : Nat → UInt8) {l : R}
    (a : At l (head ++ rest)) :
    ∃ dim, 0 < dim ∧ iGetSgiHead big junk l = .ok (⟨474, storage.toNat, 1, dim, w, h, z, 0⟩, adv l 512) ∧ At (adv l 512) rest := by
  obtain ⟨dim, misc, d0, d1, lm, e⟩ := hh.bytes
  have hz1 : z < 65536 := by have := hh.z3; omega
  have toN : ∀ {n}, n < 65536 → (BitVec.ofNat 16 n).toNat = n := fun {n} hn => by simp [Nat.mod_eq_of_lt hn]
  have hmisc : misc = misc.take 4 ++ ((misc.drop 4).take 4 ++ ((misc.drop 8).take 80 ++ ((misc.drop 88).take 4 ++ misc.drop 92))) := by
    rw [show misc.drop 92 = (misc.drop 88).drop 4 by rw [List.drop_drop], List.take_append_drop,
      show misc.drop 88 = (misc.drop 8).drop 80 by rw [List.drop_drop], List.take_append_drop,
      show misc.drop 8 = (misc.drop 4).drop 4 by rw [List.drop_drop], List.take_append_drop, List.take_append_drop]
  obtain ⟨e1, a1⟩ := head_any (big := big) (junk := junk) (l := l) (m1 := misc.take 4) (m2 := (misc.drop 4).take 4)
    (name := (misc.drop 8).take 80) (m4 := (misc.drop 88).take 4) (pad := misc.drop 92) (rest := rest)
    (st := storage) (dim := BitVec.ofNat 16 dim) (x := BitVec.ofNat 16 w) (y := BitVec.ofNat 16 h) (z := BitVec.ofNat 16 z)
    (by simp [lm]) (by simp [lm]) (by simp [lm]) (by simp [lm]) (by simp [lm]) (by
      rw [toN d1, toN hh.w1, toN hh.h1, toN hz1]
      rw [e] at a
      rw [hmisc] at a
      rw [show (leBytes 4 0).reverse = [0, 0, 0, 0] by decide]
      simp only [beBytes, List.append_assoc, List.cons_append, List.nil_append] at a ⊢
      exact a)
  rw [toN d1, toN hh.w1, toN hh.h1, toN hz1] at e1
  exact ⟨dim, d0, e1, a1⟩

/-- Bytes read one after the other. -/
theorem post_readPlanes {n k : Nat} {d : List UInt8} {l : R} (g : Good l) :
    Post (readPlanes k (n * k) d l) fun s => s.failed = false → l.pos + n * k ≤ l.size := by
  unfold readPlanes
  refine (Post.loop (fun (c : Nat) (s : S) => Same l s.inp ∧ (s.failed = false → s.inp.pos = l.pos + c * n)) (n := k) ⟨Same.refl g, fun _ => by simp⟩
    fun c t hc ht => ?_).mono fun s hs hf => ?_
  · rw [forStep_stride hc]
    refine (Post.loop (fun (i : Nat) (s : S) => Same l s.inp ∧ (s.failed = false → s.inp.pos = l.pos + (c * n + i))) (n := n) ⟨ht.1, ht.2⟩
      fun i s hi hs => ?_).mono fun s hs => ⟨hs.1, fun hf => by rw [hs.2 hf]; rw [Nat.succ_mul]⟩
    unfold byteStep
    refine Post.ite (fun hf => Post.pure ⟨hs.1, fun h => absurd hf (by rw [h]; decide)⟩) (fun hf => ?_)
    refine (post_readByte hs.1.good).bind fun r hr => ?_
    obtain ⟨b, l'⟩ := r
    cases b with
    | none => exact Post.pure ⟨hs.1.trans hr.1, fun h => nomatch h⟩
    | some b =>
      dsimp only at hr ⊢
      refine Post.bind' fun d => Post.pure ⟨hs.1.trans hr.1, fun h => ?_⟩
      show l'.pos = _
      rw [hr.2 (by simp), hs.2 h, Nat.add_assoc, Nat.add_assoc]
  · have := hs.2 hf
    have h1 := hs.1.good.pos
    rw [hs.1.size] at h1
    rw [Nat.mul_comm n k]
    omega

theorem Line.append {s px : List UInt8} (h : Line s px) {s' px' : List UInt8} (h' : Line s' px') : Line (s ++ s') (px ++ px') := by
  induction h with
  | nil => exact h'
  | raw vs s px h1 h2 _ ih =>
    rw [List.cons_append, List.append_assoc, List.append_assoc]
    exact .raw vs _ _ h1 h2 ih
  | run n v s px h1 h2 _ ih =>
    rw [List.cons_append, List.cons_append, List.append_assoc]
    exact .run n v _ _ h1 h2 ih

/-- What has been decoded of a line is described by the bytes taken. -/
structure Taken (l : R) (bs : List UInt8) (s : L) : Prop where
  same : Same l s.inp
  line : ∃ t px rest, bs = t ++ rest ∧ Line t px ∧ px.length = s.cur ∧ (s.ret = none → At s.inp rest)
  ret : ∀ v, s.ret = some v → v = -1 ∨ v = s.cur

theorem readPixel_cases {l : R} {bs : List UInt8} (a : At l bs) :
    (∃ l', readPixel 1 l = .ok (none, l') ∧ Same l l') ∨ (∃ b rest, bs = b :: rest ∧ readPixel 1 l = .ok (some [b], adv l 1)) := by
  cases bs with
  | nil =>
    left
    unfold readPixel
    rw [read_spec a.1]
    have hl := a.len
    have hp := a.1.pos
    have : avail l 1 1 = 0 := by
      unfold avail
      simp only [List.length_nil] at hl
      omega
    refine ⟨_, ?_, ⟨a.1.read_good 1 1, rfl, rfl⟩⟩
    simp only [bind_ok, this]
    rfl
  | cons b rest => exact .inr ⟨b, rest, rfl, readPixel_one a⟩

theorem adv_same {l : R} {bs rest : List UInt8} (a : At l (bs ++ rest)) : Same l (adv l bs.length) := ⟨a.adv.1, rfl, rfl⟩

theorem post_lineStep {big : Bool} {at_ : Nat} {l : R} {bs : List UInt8} {s : L} (h : Taken l bs s) (hn : s.ret = none) :
    Post (lineStep big 1 at_ s) (Taken l bs) := by
  obtain ⟨t, px, rest, hbs, hline, hcur, hat⟩ := h.line
  have a := hat hn
  unfold lineStep
  rcases readPixel_cases a with ⟨l', e, sm⟩ | ⟨b, rest, rfl, e⟩
  · rw [e]
    simp only [bind_ok]
    exact Post.pure ⟨h.same.trans sm, ⟨t, px, rest, hbs, hline, hcur, fun h => nomatch h⟩, fun v hv => .inl (Option.some.inj hv).symm⟩
  rw [e]
  simp only [bind_ok]
  have a1 := a.adv_cons
  have s1 : Same l (adv s.inp 1) := h.same.trans (adv_same (bs := [b]) a)
  have hlow : lowByte [b] = b.toNat := rfl
  have hb := b.toNat_lt
  rw [hlow]
  refine Post.ite (fun _ => Post.pure ⟨s1, ⟨t, px, _, hbs, hline, hcur, fun h => nomatch h⟩, fun v hv => .inr (Option.some.inj hv).symm⟩) (fun h0 => ?_)
  refine Post.ite (fun h128 => ?_) (fun h128 => ?_)
  · have hrd : Post (readAt (adv s.inp 1) s.buf (at_ + s.cur) 1 (b.toNat % 128)) fun r => Same (adv s.inp 1) r.2.2 ∧
        (r.1 = b.toNat % 128 → ∃ vs rest', rest = vs ++ rest' ∧ vs.length = b.toNat % 128 ∧ At r.2.2 rest') := by
      unfold readAt
      rw [read_spec a1.1]
      simp only [bind_ok]
      refine Post.ite (fun _ => Post.pure ⟨⟨a1.1.read_good _ _, rfl, rfl⟩, fun hr => ?_⟩) (fun _ => Post.error _)
      dsimp only at hr ⊢
      rw [if_pos (by decide), Nat.div_one] at hr
      have hl := a1.len
      have hp := a1.1.pos
      have hav : b.toNat % 128 ≤ rest.length := by
        rw [← hr]
        unfold avail
        omega
      refine ⟨rest.take (b.toNat % 128), rest.drop (b.toNat % 128), (List.take_append_drop _ _).symm, by rw [List.length_take]; omega, ?_⟩
      rw [hr]
      have a2 := At.adv (bs := rest.take (b.toNat % 128)) (rest := rest.drop (b.toNat % 128)) (by rw [List.take_append_drop]; exact a1)
      rw [List.length_take, Nat.min_eq_left hav] at a2
      exact a2
    refine hrd.bind fun r hr => ?_
    refine Post.ite (fun _ => Post.pure ⟨s1.trans hr.1, ⟨t, px, _, hbs, hline, hcur, fun h => nomatch h⟩, fun v hv => .inl (Option.some.inj hv).symm⟩) (fun hne => ?_)
    obtain ⟨vs, rest', hv, lv, a2⟩ := hr.2 (Decidable.byContradiction hne)
    refine Post.pure ⟨s1.trans hr.1, ⟨t ++ (b :: vs), px ++ vs, rest', by rw [hbs, hv]; simp, ?_, ?_, fun _ => a2⟩, fun v hv => nomatch hv⟩
    · have := hline.append (Line.raw vs [] [] (by omega) (by omega) .nil)
      simp only [List.append_nil] at this
      rw [show b = UInt8.ofNat (128 + vs.length) by rw [lv, show 128 + b.toNat % 128 = b.toNat by omega]; simp]
      exact this
    · rw [List.length_append, lv, hcur]
      show _ = s.cur + 1 * _
      omega
  · rcases readPixel_cases a1 with ⟨l', e2, sm⟩ | ⟨v, rest, rfl, e2⟩
    · rw [e2]
      simp only [bind_ok]
      exact Post.pure ⟨s1.trans sm, ⟨t, px, _, hbs, hline, hcur, fun h => nomatch h⟩, fun v hv => .inl (Option.some.inj hv).symm⟩
    rw [e2]
    simp only [bind_ok]
    have s2 : Same l (adv (adv s.inp 1) 1) := s1.trans (adv_same (bs := [v]) a1)
    refine Post.bind' fun buf => ?_
    refine Post.pure ⟨s2, ⟨t ++ [b, v], px ++ List.replicate (b.toNat % 128) v, rest, by rw [hbs]; simp, ?_, ?_, fun _ => a1.adv_cons⟩, fun v hv => nomatch hv⟩
    · have := hline.append (Line.run (b.toNat % 128) v [] [] (by omega) (by omega) .nil)
      rw [List.append_nil] at this
      rw [show b = UInt8.ofNat (b.toNat % 128) by rw [Nat.mod_eq_of_lt (show b.toNat < 128 by omega)]; simp] at this ⊢
      simpa using this
    · rw [List.length_append, List.length_replicate, hcur]
      show _ = s.cur + 1 * _
      omega

theorem post_line {big : Bool} {x at_ length : Nat} {buf : List UInt8} {l : R} {bs : List UInt8} (a : At l bs) :
    Post (iGetScanLine big x 1 buf at_ length l) fun r => Same l r.2.2 ∧ (r.1 = (x : Int) → ∃ s px, s <+: bs ∧ Line s px ∧ px.length = x) := by
  unfold iGetScanLine
  refine (Post.while (Taken l bs) (fun s hs hc => post_lineStep hs ?_) _ ⟨0, 0, buf, l, none⟩
    ⟨Same.refl a.1, ⟨[], [], bs, rfl, .nil, rfl, fun _ => a⟩, fun v hv => nomatch hv⟩).bind fun s hs => Post.pure ⟨hs.1.same, fun hr => ?_⟩
  · simp only [Bool.and_eq_true, Option.isNone_iff_eq_none] at hc
    exact hc.1.1
  · obtain ⟨t, px, rest, hbs, hline, hcur, _⟩ := hs.1.line
    refine ⟨t, px, ⟨rest, hbs.symm⟩, hline, ?_⟩
    dsimp only at hr
    have : (s.cur : Int) = x := by
      cases he : s.ret with
      | none => rw [he] at hr; exact hr
      | some v =>
        rw [he] at hr
        have hv : v = (x : Int) := hr
        rcases hs.1.ret v he with h | h <;> omega
    omega

/-- Row `y` of plane `p` is there. -/
def RowThere (file : List UInt8) (w : Nat) (off : Nat) : Prop :=
  off ≤ file.length → ∃ s px, s <+: file.drop off ∧ Line s px ∧ px.length = w

theorem post_readPlane {big : Bool} {h : Head} {file off len buf : List UInt8} {p : Nat} {l : R} {offs : Nat → Nat} (hb : h.bpc = 1) (g : Good l)
    (hd : l.data = file) (hs : l.size < 2147483648) (hf : l.size = file.length) (ho : ∀ k, k < h.y * h.z → entry off k = .ok (offs k) ∧ offs k < 2147483648) (hp : p < h.z) :
    Post (readPlane big h off len p buf l) fun t => Same l t.inp ∧ (t.failed = false → ∀ y, y < h.y → RowThere file h.x (offs (y + p * h.y))) := by
  unfold readPlane
  refine (Post.loop (fun (n : Nat) (t : T) => Same l t.inp ∧ (t.failed = false → ∀ y, y < n → RowThere file h.x (offs (y + p * h.y)))) (n := h.y)
    ⟨Same.refl g, fun _ y hy => absurd hy (by omega)⟩ fun y t hy ht => ?_)
  refine Post.ite (fun hf => Post.pure ⟨ht.1, fun h => absurd hf (by rw [h]; decide)⟩) (fun hfl => ?_)
  have hk : y + p * h.y < h.y * h.z := by
    have := Nat.mul_le_mul_left h.y (show p + 1 ≤ h.z by omega)
    rw [Nat.mul_add, Nat.mul_one, Nat.mul_comm] at this
    omega
  rw [(ho _ hk).1, bind_ok]
  refine Post.bind' fun n => ?_
  have hsz : t.inp.size = file.length := ht.1.size.trans hf
  by_cases hin : offs (y + p * h.y) ≤ file.length
  · rw [seek_set ht.1.good (by rw [ht.1.size]; exact hs) (by rw [hsz]; exact hin), bind_ok]
    dsimp only
    have a : At { t.inp with pos := offs (y + p * h.y) } (file.drop (offs (y + p * h.y))) :=
      ⟨⟨ht.1.good.size, by show offs (y + p * h.y) ≤ t.inp.size; omega, ht.1.good.lt, ht.1.good.ne⟩, by
        show t.inp.data.drop _ = _; rw [ht.1.data, hd]⟩
    rw [hb]
    refine (post_line (big := big) (x := h.x) (at_ := y * h.x * 1) (buf := t.buf) (length := n) a).bind fun r hr => Post.pure ⟨?_, fun hf y' hy' => ?_⟩
    · exact ⟨hr.1.good, hr.1.data.trans ht.1.data, hr.1.size.trans ht.1.size⟩
    · by_cases hyy : y' = y
      · subst hyy
        intro _
        refine hr.2 ?_
        have hf' : decide (r.1 ≠ ((h.x * 1 : Nat) : Int)) = false := hf
        rw [Nat.mul_one] at hf'
        exact Decidable.byContradiction fun hne => by
          rw [decide_eq_true hne] at hf'
          exact Bool.noConfusion hf'
      · exact ht.2 (by simpa using hfl) y' (by omega)
  · have hsk : Post (seek t.inp (toInt (offs (y + p * h.y))) SEEK_SET) fun r => Same t.inp r.2 :=
      Post.of_holds (Bmp.holds_seek ht.1.good (fun _ => by have := (ho _ hk).2; unfold toInt; omega) (by decide))
    refine hsk.bind fun r hr => ?_
    obtain ⟨b, l'⟩ := r
    dsimp only at hr ⊢
    have a : At l' (l'.data.drop l'.pos) := ⟨hr.good, rfl⟩
    rw [hb]
    refine (post_line (big := big) (x := h.x) (at_ := y * h.x * 1) (buf := t.buf) (length := n) a).bind fun r2 hr2 => Post.pure ⟨?_, fun hf y' hy' => ?_⟩
    · exact ht.1.trans (hr.trans hr2.1)
    · by_cases hyy : y' = y
      · subst hyy
        exact fun h => absurd h hin
      · exact ht.2 (by simpa using hfl) y' (by omega)

/-! ## C93 -/

/-- **C93 (SGI, uncompressed).** A file that ends before the last of its `w * h * z` values is not reported as loaded. -/
theorem C93_sgi_partial (big : Bool) (junk : Nat → UInt8) (head rest : List UInt8) (w h z : Nat) (hh : Header head 0 w h z)
    (hs : (head ++ rest).length < 4294967295) (hfit : w * h * z < 4294967296) (hcut : rest.length < w * h * z) (im : Option Img) (l : R) :
    iLoadSgiInternal big junk (open_ (head ++ rest) (head ++ rest).length) ≠ .ok (true, im, l) := by
  have hl := hh.length
  have a := at_open (data := head ++ rest) (by simp; omega) hs
  obtain ⟨dim, d0, e1, a1⟩ := hh.read big junk a
  have hz := hh.z3
  have hw0 := hh.w0
  have hh0 := hh.h0
  suffices hP : Post (iLoadSgiInternal big junk (open_ (head ++ rest) (head ++ rest).length)) (fun r => r.1 = false) by
    intro e
    exact Bool.noConfusion (hP _ e : true = false)
  unfold iLoadSgiInternal
  rw [e1, bind_ok]
  dsimp only
  refine Post.ite (fun _ => Post.pure rfl) (fun _ => ?_)
  rw [if_neg (show ¬ z = 2 by omega), if_neg (show ¬ (0 : UInt8).toNat = 1 by decide)]
  unfold iReadNonRleSgi iNewSgi
  have hsw : w * z * h = w * h * z := by grind
  obtain ⟨m, em, cm, f1, f2, f3, f4, f5, f6, f7, _, f9, f10⟩ := init8 junk (w := w) (h := h) (bpp := z) 0 hw0 hh0 (by rw [hsw]; exact hfit)
  have em' : ilInitImage junk w h (depthOf 1) (z % 256) 0 IL_UNSIGNED_BYTE none = .ok (some m) := by
    rw [Nat.mod_eq_of_lt (by omega)]
    exact em
  dsimp only
  rw [em']
  simp only [bind_ok]
  have hfm : ∃ f, formatOf z = some f := by rcases hz with rfl | rfl | rfl <;> exact ⟨_, rfl⟩
  have hty : ∃ t, typeOf ⟨474, (0 : UInt8).toNat, 1, dim, w, h, z, 0⟩ = some t := ⟨_, rfl⟩
  obtain ⟨f, hf⟩ := hfm
  obtain ⟨t, ht⟩ := hty
  rw [hf]
  simp only
  rw [ht]
  simp only [pure_eq_ok, bind_ok, Bool.not_true, Bool.false_eq_true, if_false]
  rw [f4, f9, hsw]
  refine (post_readPlanes (n := w * h) (k := z) (d := m.data) a1.1).bind fun s hs => Post.ok ?_
  show (!s.failed) = false
  cases hsf : s.failed with
  | true => rfl
  | false =>
    have h1 := hs hsf
    have h2 := a1.len
    have h3 := a1.1.pos
    omega

/-- **C93 (SGI, run-length encoded).** If a run-length encoded file is reported as loaded, both its tables are complete, and at each offset (inside the file)
that the first table gives stands a complete line: one that describes all `w` values.  (For offsets under 2^31; see `C85_violated_offset` for others.)  So a file that ends early, within a table or a line, is not. -/
theorem C93_sgi_rle_partial (big : Bool) (junk : Nat → UInt8) (head rest : List UInt8) (w h z : Nat) (hh : Header head 1 w h z)
    (hs : (head ++ rest).length < 2147483648) (hfit : w * h * z < 4294967296) (im : Option Img) (l : R)
    (hok : iLoadSgiInternal big junk (open_ (head ++ rest) (head ++ rest).length) = .ok (true, im, l)) :
    h * z * 4 + h * z * 4 ≤ rest.length ∧
      ∀ (offs : Nat → Nat) (more : List UInt8), rest = (List.range (h * z)).flatMap (fun k => beBytes 4 (offs k)) ++ more → (∀ k, k < h * z → offs k < 2147483648) →
        ∀ p y, p < z → y < h → offs (y + p * h) ≤ (head ++ rest).length →
          ∃ s px, s <+: (head ++ rest).drop (offs (y + p * h)) ∧ Line s px ∧ px.length = w := by
  have hl := hh.length
  have a := at_open (data := head ++ rest) (by simp; omega) (by omega)
  obtain ⟨dim, d0, e1, a1⟩ := hh.read big junk a
  have hz := hh.z3
  have hw0 := hh.w0
  have hh0 := hh.h0
  have hh1 := hh.h1
  have hhz : h * z < 4 * 65536 := by
    have := Nat.mul_le_mul (Nat.le_of_lt hh1) (show z ≤ 4 by omega)
    have h2 : h * z ≠ 65536 * 4 := by
      intro e
      have := Nat.mul_le_mul_left h (show z ≤ 4 by omega)
      omega
    omega
  have hhz0 : 0 < h * z := Nat.mul_pos hh0 (by omega)
  revert hok
  suffices hP : Post (iLoadSgiInternal big junk (open_ (head ++ rest) (head ++ rest).length)) (fun r => r.1 = true → h * z * 4 + h * z * 4 ≤ rest.length ∧
      ∀ (offs : Nat → Nat) (more : List UInt8), rest = (List.range (h * z)).flatMap (fun k => beBytes 4 (offs k)) ++ more → (∀ k, k < h * z → offs k < 2147483648) →
        ∀ p y, p < z → y < h → RowThere (head ++ rest) w (offs (y + p * h))) by
    intro e
    exact hP _ e rfl
  unfold iLoadSgiInternal
  rw [e1, bind_ok]
  dsimp only
  refine Post.ite (fun _ => Post.pure (fun h => nomatch h)) (fun _ => ?_)
  rw [if_neg (show ¬ z = 2 by omega), if_pos (show (1 : UInt8).toNat = 1 by decide)]
  unfold iReadRleSgi iNewSgi
  have hsw : w * z * h = w * h * z := by grind
  obtain ⟨m, em, cm, f1, f2, f3, f4, f5, f6, f7, _, f9, f10⟩ := init8 junk (w := w) (h := h) (bpp := z) 0 hw0 hh0 (by rw [hsw]; exact hfit)
  have em' : ilInitImage junk w h (depthOf 1) (z % 256) 0 IL_UNSIGNED_BYTE none = .ok (some m) := by
    rw [Nat.mod_eq_of_lt (by omega)]
    exact em
  dsimp only
  rw [em']
  simp only [bind_ok]
  have hfm : ∃ f, formatOf z = some f := by rcases hz with rfl | rfl | rfl <;> exact ⟨_, rfl⟩
  have hty : ∃ t, typeOf ⟨474, (1 : UInt8).toNat, 1, dim, w, h, z, 0⟩ = some t := ⟨_, rfl⟩
  obtain ⟨f, hf⟩ := hfm
  obtain ⟨t, ht⟩ := hty
  rw [hf]
  simp only
  rw [ht]
  simp only [pure_eq_ok, bind_ok, Bool.not_true, Bool.false_eq_true, if_false]
  have hal := a1.len
  have hap := a1.1.pos
  by_cases hlen : h * z * 4 ≤ rest.length
  · have r1 := At.read (bs := rest.take (h * z * 4)) (rest := rest.drop (h * z * 4)) (size := h * z * 4) (number := 1)
      (by rw [List.take_append_drop]; exact a1) (by rw [List.length_take, Nat.mul_one]; omega) (by omega)
    have a2 := At.adv (bs := rest.take (h * z * 4)) (rest := rest.drop (h * z * 4)) (by rw [List.take_append_drop]; exact a1)
    rw [r1]
    simp only [bind_ok]
    refine Post.ite (fun h => absurd rfl h) (fun _ => ?_)
    refine (post_read a2.1 (a := h * z * 4) (b := 1) (by omega)).bind fun r hr => ?_
    refine Post.ite (fun _ => Post.ok (fun h => nomatch h)) (fun hr1 => ?_)
    refine Post.ite (fun _ => Post.error _) (fun _ => ?_)
    have hpos := hr.2.2 (by simpa using hr1) (by omega)
    have hend := hr.1.good.pos
    rw [hpos, hr.1.size] at hend
    have h2 := a2.len
    rw [List.length_drop] at h2
    have hboth : h * z * 4 + h * z * 4 ≤ rest.length := by
      rw [Nat.mul_one] at hend
      omega
    have hall : Post (readAll big junk ⟨474, (1 : UInt8).toNat, 1, dim, w, h, z, 0⟩ (rest.take (h * z * 4)) r.1.bytes r.2) fun s => s.2.2 = false →
        ∀ (offs : Nat → Nat) (more : List UInt8), rest = (List.range (h * z)).flatMap (fun k => beBytes 4 (offs k)) ++ more → (∀ k, k < h * z → offs k < 2147483648) →
        ∀ p y, p < z → y < h → RowThere (head ++ rest) w (offs (y + p * h)) := by
      by_cases hex : ∃ (offs : Nat → Nat) (more : List UInt8), rest = (List.range (h * z)).flatMap (fun k => beBytes 4 (offs k)) ++ more ∧
          (∀ k, k < h * z → offs k < 2147483648)
      · intro s e hs' offs more hrest hoffs
        revert e hs'
        suffices hP : Post (readAll big junk ⟨474, (1 : UInt8).toNat, 1, dim, w, h, z, 0⟩ (rest.take (h * z * 4)) r.1.bytes r.2) fun s => s.2.2 = false →
            ∀ p y, p < z → y < h → RowThere (head ++ rest) w (offs (y + p * h)) from fun e hs' => hP s e hs'
        have l1 := flatMap_len (f := fun k => beBytes 4 (offs k)) (c := 4) (h * z) (fun k _ => by simp [beBytes])
        have htk : rest.take (h * z * 4) = (List.range (h * z)).flatMap (fun k => beBytes 4 (offs k)) := by
          rw [hrest, ← l1]
          exact List.take_left
        have hent : ∀ k, k < h * z → entry (rest.take (h * z * 4)) k = .ok (offs k) ∧ offs k < 2147483648 := by
          intro k hk
          rw [htk]
          exact ⟨entry_spec offs hk (by have := hoffs k hk; omega), hoffs k hk⟩
        unfold readAll
        have hdat : r.2.data = head ++ rest := hr.1.data
        have hsiz : r.2.size = (head ++ rest).length := hr.1.size
        refine (Post.loop (fun (n : Nat) (s : List (List UInt8) × R × Bool) => Same r.2 s.2.1 ∧ (s.2.2 = false →
          ∀ p y, p < n → y < h → RowThere (head ++ rest) w (offs (y + p * h)))) (n := z)
          ⟨Same.refl hr.1.good, fun _ p y hp => absurd hp (by omega)⟩ fun p s hp hs => ?_).mono fun s hs => hs.2
        refine Post.ite (fun hf => Post.pure ⟨hs.1, fun h => absurd hf (by rw [h]; decide)⟩) (fun hfl => ?_)
        refine (post_readPlane (big := big) (file := head ++ rest) (offs := offs) rfl hs.1.good (hs.1.data.trans hdat) (by rw [hs.1.size, hsiz]; exact ‹(head ++ rest).length < 2147483648›)
          (hs.1.size.trans hsiz) hent hp).bind fun t ht => Post.pure ⟨hs.1.trans ht.1, fun hf p' y hp' hy => ?_⟩
        by_cases hpp : p' = p
        · subst hpp
          exact ht.2 hf y hy
        · exact hs.2 (by simpa using hfl) p' y (by omega) hy
      · intro s e hs' offs more hrest hoffs
        exact absurd ⟨offs, more, hrest, hoffs⟩ hex
    refine hall.bind fun s hs => ?_
    obtain ⟨ps, l', fl⟩ := s
    dsimp only at hs ⊢
    refine Post.ite (fun _ => Post.ok (fun h => nomatch h)) (fun hfl => ?_)
    have hfl' : fl = false := by simpa using hfl
    refine Post.bind' fun d => Post.bind' fun d => Post.ok fun _ => ⟨hboth, hs hfl'⟩
  · refine (post_read a1.1 (a := h * z * 4) (b := 1) (by omega)).bind fun r hr => ?_
    refine Post.ite (fun _ => Post.ok (fun h => nomatch h)) (fun hr1 => ?_)
    exfalso
    have hpos := hr.2.2 (by simpa using hr1) (by omega)
    have hend := hr.1.good.pos
    rw [hpos, hr.1.size] at hend
    omega

/-! ### Instances and violations -/

set_option maxRecDepth 20000 in
/-- A header. -/
theorem header22 (st : UInt8) (h : st = 0 ∨ st = 1) : Header (beBytes 2 474 ++ [st, 1] ++ beBytes 2 3 ++ beBytes 2 2 ++ beBytes 2 2 ++ beBytes 2 3 ++ [0, 0, 0, 0] ++
    List.replicate 496 0) st 2 2 3 :=
  ⟨by decide, by decide, by decide, by decide, by decide, h, 3, List.replicate 496 0, by decide, by decide, List.length_replicate, rfl⟩

/-- So a file of 2 x 2 pixels with 11 of its 12 values is not reported as loaded. -/
example (big : Bool) (junk : Nat → UInt8) (im : Option Img) (l : R) :
    let file := (beBytes 2 474 ++ [0, 1] ++ beBytes 2 3 ++ beBytes 2 2 ++ beBytes 2 2 ++ beBytes 2 3 ++ [0, 0, 0, 0] ++
      List.replicate 496 0) ++ List.replicate 11 7
    iLoadSgiInternal big junk (open_ file file.length) ≠ .ok (true, im, l) :=
  C93_sgi_partial big junk _ _ 2 2 3 (header22 0 (.inl rfl)) (by rw [List.length_append, (header22 0 (.inl rfl)).length]; decide) (by decide)
    (by rw [List.length_replicate]; decide) im l

set_option maxRecDepth 20000 in
/-- A run-length encoded file that is reported as loaded, and one that ends a byte earlier. -/
example : (iLoadSgiInternal false (fun _ => 0) (open_ rle21 rle21.length)).map (·.1) = .ok true ∧
    (iLoadSgiInternal false (fun _ => 0) (open_ rle21.dropLast rle21.dropLast.length)).map (·.1) = .ok false := ⟨by rfl, by rfl⟩

set_option maxRecDepth 20000 in
/-- **C93 (violated).** A run-length encoded file that ends long before the place its offset table names is reported as loaded (from memory): the refused
seek is not noticed, and the line is read from where the reader happens to be. -/
theorem C93_violated_sgi_offset : let file := head11 1 1 1 ++ beBytes 4 9999 ++ beBytes 4 2 ++ [0x81, 1]
    (iLoadSgiInternal false (fun _ => 0) (open_ file file.length)).map (·.1) = .ok true := by rfl

end DevIL.Sgi
