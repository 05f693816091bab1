import Verif.Lemmas.Sgi
import Verif.Props.Pcx
/-! C44: saving and loading uncompressed SGI images. -/
set_option autoImplicit false
namespace DevIL.Sgi
open DevIL.Lump DevIL.Endian DevIL.Image DevIL.Utility DevIL.Load
open DevIL.Pcx (readByte)

/-! ## C44 -/

/-- An image that SGI can hold as it is: one slice of unsigned bytes, grey, RGB or RGBA, at most 65535 pixels wide and high, and small
enough for 32-bit sizes. -/
structure Savable (m : Img) : Prop where
  cons : m.Consistent
  depth : m.depth = 1
  bpc : m.bpc = 1
  type : m.type = IL_UNSIGNED_BYTE
  kind : m.format = IL_LUMINANCE ∧ m.bpp = 1 ∨ m.format = IL_RGB ∧ m.bpp = 3 ∨ m.format = IL_RGBA ∧ m.bpp = 4
  w0 : 0 < m.width
  w : m.width < 65536
  h0 : 0 < m.height
  h : m.height < 65536
  fits : m.width * m.height * m.bpp + 513 < 4294967296

theorem Savable.bpp3 {m : Img} (h : Savable m) : m.bpp = 1 ∨ m.bpp = 3 ∨ m.bpp = 4 := by
  rcases h.kind with h | h | h <;> simp [h.2]

theorem Savable.size {m : Img} (h : Savable m) : m.size = m.width * m.height * m.bpp := by
  rw [h.cons.2.2.1, h.depth, h.bpc]; grind

theorem Savable.format {m : Img} (h : Savable m) : formatOf m.bpp = some m.format := by
  rcases h.kind with h | h | h <;> rw [h.1, h.2] <;> rfl

theorem Savable.converts {m : Img} (h : Savable m) : converts m = false := by
  have ht : ¬ m.type > IL_UNSIGNED_SHORT := by rw [h.type]; decide
  unfold Sgi.converts
  rcases h.kind with hk | hk | hk <;> rw [decide_eq_false_iff_not] <;> rintro (h | h)
  · exact h.1 hk.1
  · exact ht h
  · exact h.2.1 hk.1
  · exact ht h
  · exact h.2.2 hk.1
  · exact ht h

/-- The rows of the image, bottom row first. -/
theorem bottomUp_spec (junk : Nat → UInt8) {q : Img} (hc : q.Consistent) (hd : q.depth = 1) (hb : q.bpc = 1) (h32 : q.size < 4294967296)
    (o : Nat) : ∃ t, bottomUp junk o q = .ok t ∧ t.length = q.size ∧ ∀ x y b, x < q.width → y < q.height → b < q.bpp →
      t[(y * q.width + x) * q.bpp + b]? = q.px x (if o = IL_ORIGIN_UPPER_LEFT then q.height - 1 - y else y) 0 b := by
  unfold bottomUp
  by_cases ho : o = IL_ORIGIN_UPPER_LEFT
  · rw [if_pos ho]
    obtain ⟨t, e, hl, hp⟩ := flipped junk hc hd hb h32
    exact ⟨t, e, hl, fun x y b hx hy hb' => by rw [if_pos ho]; exact hp x y b hx hy hb'⟩
  · rw [if_neg ho]
    exact ⟨q.data, rfl, hc.2.2.2, fun x y b _ _ _ => by rw [if_neg ho, px_eq hb]⟩

/-- What the header of a saved image looks like to the loader. -/
theorem saved_head {big big' : Bool} {rle : Bool} {junk : Nat → UInt8} {t : Img} (ht : t.type = IL_UNSIGNED_BYTE) {ops : List WOp} {rest : List UInt8}
    (ho : header big rle none t = .ok ops) {l : R} (a : At l (ops.flatMap WOp.bytes ++ rest)) :
    ∃ dim, 0 < dim ∧ iGetSgiHead big' junk l = .ok (⟨474, if rle then 1 else 0, 1, dim, t.width % 65536, t.height % 65536, t.bpp % 65536, 0⟩, adv l 512) ∧
      At (adv l 512) rest := by
  obtain ⟨ops', e1, e2⟩ := header_bytes big rle t ht
  rw [e1, Except.ok.injEq] at ho
  subst ho
  rw [e2] at a
  simp only [List.append_assoc, List.cons_append] at a
  have hdim : (if t.format = IL_LUMINANCE ∨ t.format = IL_COLOUR_INDEX then 2 else 3) < 65536 := by split <;> decide
  have toN : ∀ n, (BitVec.ofNat 16 n).toNat = n % 65536 := fun n => by simp
  obtain ⟨e3, a3⟩ := head_spec (big := big') (junk := junk) (dim := BitVec.ofNat 16 (if t.format = IL_LUMINANCE ∨ t.format = IL_COLOUR_INDEX then 2 else 3))
    (x := BitVec.ofNat 16 t.width) (y := BitVec.ofNat 16 t.height) (z := BitVec.ofNat 16 t.bpp) (l := l) (rest := rest) (st := if rle then 1 else 0)
    (by rw [toN, toN, toN, toN, Nat.mod_eq_of_lt hdim]; exact a)
  rw [toN, toN, toN, toN, Nat.mod_eq_of_lt hdim] at e3
  refine ⟨if t.format = IL_LUMINANCE ∨ t.format = IL_COLOUR_INDEX then 2 else 3, ?_, ?_, a3⟩
  · split <;> decide
  · rw [e3]
    cases rle <;> rfl

/-- The header is written front to back, and every block is written whole. -/
theorem header_plain {big rle : Bool} {t : Img} (ht : t.type = IL_UNSIGNED_BYTE) {ops : List WOp} (eh : header big rle none t = .ok ops) :
    ∀ op ∈ ops, Plain op := by
  have hh : header big rle none t = .ok ([short big 474, .putc (if rle then 1 else 0)] ++ [.putc 1] ++
      [short big (if t.format = IL_LUMINANCE ∨ t.format = IL_COLOUR_INDEX then 2 else 3), short big t.width, short big t.height,
        short big t.bpp] ++ [int big 0, int big 255] ++ [int big 0] ++ List.replicate 80 (.putc 0) ++ [int big 0] ++ padding big) := by
    unfold header
    rw [show range big t.type = [int big 0, int big 255] by rw [ht]; rfl, show typeByte t.type = [.putc 1] by rw [ht]; rfl]
    rfl
  rw [hh, Except.ok.injEq] at eh
  subst eh
  have ps : ∀ v, Plain (short big v) := fun v => by
    show (SaveBigUShort big _).length = 2 * 1
    rw [saveBigUShort_eq]; simp
  have pi : ∀ v, Plain (int big v) := fun v => by
    show (SaveBigUInt big _).length = 4 * 1
    rw [saveBigUInt_eq]; simp
  have pl : Plain (.write (SaveLittleUInt big 0) 4 1) := by
    show (SaveLittleUInt big _).length = 4 * 1
    rw [saveLittleUInt_eq]; simp
  have pc : ∀ b, Plain (.putc b) := fun _ => trivial
  intro op hop
  simp only [List.mem_append, List.mem_cons, List.not_mem_nil, or_false, List.mem_replicate, padding] at hop
  rcases hop with (((((((h | h) | h) | h | h | h | h) | h | h) | h) | h) | h) | h
  · rw [h]; exact ps _
  · rw [h]; exact pc _
  · rw [h]; exact pc _
  · rw [h]; exact ps _
  · rw [h]; exact ps _
  · rw [h]; exact ps _
  · rw [h]; exact ps _
  · rw [h]; exact pi _
  · rw [h]; exact pi _
  · rw [h]; exact pi _
  · rw [h.2]; exact pc _
  · rw [h]; exact pi _
  · rw [h.2]; exact pl

/-- The part of the round trip that does not depend on where the rows came from: `t` is what is written, row by row from the bottom. -/
theorem round_trip (big big' : Bool) (junk junk' : Nat → UInt8) (cur t : Img) (conv : Option Img) (hm : Savable t)
    (hconv : (if converts cur then conv else some cur) = some t) :
    ∃ ops, iSaveSgiInternal big junk false none cur conv = .ok (some ops) ∧ (∀ op ∈ ops, Plain op) ∧
    ∃ m' l, iLoadSgiInternal big' junk' (open_ (output ops) (output ops).length) = .ok (true, some m', l) ∧ m'.Consistent ∧
      m'.width = t.width ∧ m'.height = t.height ∧ m'.depth = 1 ∧ m'.bpp = t.bpp ∧ m'.bpc = 1 ∧ m'.format = t.format ∧ m'.type = t.type ∧
      m'.origin = IL_ORIGIN_LOWER_LEFT ∧
      ∀ x y c, x < t.width → y < t.height → c < t.bpp →
        m'.px x y 0 c = t.px x (if cur.origin = IL_ORIGIN_UPPER_LEFT then t.height - 1 - y else y) 0 c := by
  have hfit := hm.fits
  have hsz := hm.size
  obtain ⟨hops, eh, _⟩ := header_bytes big false t hm.type
  obtain ⟨d, ed, ld, pd⟩ := bottomUp_spec junk hm.cons hm.depth hm.bpc (by rw [hsz]; omega) cur.origin
  have epl := planeBytes_spec (data := d) (n := t.width * t.height) (k := t.bpp) (by rw [ld, hsz])
  have hbytes : ∀ bs : List UInt8, (bs.map WOp.putc).flatMap WOp.bytes = bs := by
    intro bs
    induction bs with
    | nil => rfl
    | cons b bs ih => rw [List.map_cons, List.flatMap_cons, ih]; rfl
  refine ⟨hops ++ (planes d (t.width * t.height) t.bpp).map .putc, ?_, ?_, ?_⟩
  · unfold iSaveSgiInternal
    rw [hconv]
    simp only [Bool.false_and, Bool.false_eq_true, if_false]
    rw [eh, bind_ok, ed, bind_ok, hsz, epl, bind_ok]
    rfl
  · intro op hop
    rcases List.mem_append.mp hop with hop | hop
    · exact header_plain hm.type eh op hop
    · obtain ⟨b, _, rfl⟩ := List.mem_map.mp hop
      trivial
  · generalize hf : output (hops ++ (planes d (t.width * t.height) t.bpp).map .putc) = file
    have hfile : file = hops.flatMap WOp.bytes ++ planes d (t.width * t.height) t.bpp := by
      rw [← hf]
      unfold output
      rw [List.flatMap_append, hbytes]
    have hlen : file.length = 512 + t.bpp * (t.width * t.height) := by
      obtain ⟨ops', e1, e2⟩ := header_bytes big false t hm.type
      rw [e1, Except.ok.injEq] at eh
      subst eh
      rw [hfile, List.length_append, planes_length, e2]
      simp only [List.length_append, List.length_reverse, leBytes_length, List.length_cons, List.length_replicate]
    have hcomm : t.bpp * (t.width * t.height) = t.width * t.height * t.bpp := by grind
    have a0 := at_open (data := file) (by omega) (by omega)
    have a0' : At (open_ file file.length) (hops.flatMap WOp.bytes ++ (planes d (t.width * t.height) t.bpp ++ [])) := by
      rw [List.append_nil, ← hfile]; exact a0
    obtain ⟨dim, hdim, e1, a1⟩ := saved_head (big' := big') (junk := junk') hm.type eh a0'
    have hb3 := hm.bpp3
    obtain ⟨m, em, cm, f1, f2, f3, f4, f5, f6, f7, _, f9, f10⟩ := init8 junk' (w := t.width) (h := t.height) (bpp := t.bpp) 0 hm.w0 hm.h0
      (by rw [show t.width * t.bpp * t.height = t.width * t.height * t.bpp by grind]; omega)
    have hsw : t.width * t.bpp * t.height = t.width * t.height * t.bpp := by grind
    have er := readPlanes_spec (data := d) (d := m.data) (n := t.width * t.height) (k := t.bpp) (l := adv (open_ file file.length) 512) (rest := [])
      (by rw [ld, hsz]) (by rw [f10, hsw]) a1
    refine ⟨{ m with format := t.format, type := IL_UNSIGNED_BYTE, origin := IL_ORIGIN_LOWER_LEFT, data := d },
      adv (adv (open_ file file.length) 512) (t.bpp * (t.width * t.height)), ?_,
      ⟨cm.1, cm.2.1, cm.2.2.1, ?_⟩, f1, f2, f3, f4, f5, rfl, hm.type.symm, rfl, ?_⟩
    · unfold iLoadSgiInternal
      rw [e1, bind_ok]
      have hw := hm.w
      have hh := hm.h
      have hw0 := hm.w0
      have hh0 := hm.h0
      rw [Nat.mod_eq_of_lt hw, Nat.mod_eq_of_lt hh, Nat.mod_eq_of_lt (show t.bpp < 65536 by omega)]
      have hchk : iCheckSgi ⟨474, 0, 1, dim, t.width, t.height, t.bpp, 0⟩ = true := by
        unfold iCheckSgi
        rw [if_neg (by simp), if_neg (by simp), if_neg (by simp; omega)]
        simp
        omega
      simp only [Bool.false_eq_true, if_false]
      rw [hchk]
      simp only [Bool.not_true, Bool.false_eq_true, if_false]
      rw [if_neg (show ¬ t.bpp = 2 by omega), if_neg (by simp)]
      unfold iReadNonRleSgi iNewSgi
      simp only []
      rw [show depthOf 1 = 1 from rfl, Nat.mod_eq_of_lt (show t.bpp < 256 by omega), em]
      simp only [bind_ok]
      rw [hm.format]
      simp only [typeOf]
      rw [if_pos trivial, if_neg (by simp)]
      simp only [pure_eq_ok, bind_ok, Bool.not_true, Bool.false_eq_true, if_false]
      rw [f4, f9, hsw, er]
      rfl
    · show d.length = m.size
      rw [ld, hsz, f9, hsw]
    · intro x y c hx hy hc
      rw [← pd x y c hx hy hc, px_eq (by exact f5)]
      show d[(y * m.width + x) * m.bpp + c]? = _
      rw [f1, f4]

/-- **C44 (partial).** Saving any such image uncompressed and loading the bytes again, on any hosts, gives an image of the same size, format
and type with the same value in every place: row `y` from the bottom is row `y` from the bottom.  The saver never seeks, so the bytes are
the file.  `FName` is null: no file name has been tested before.
Missing, and false: see the violations below. -/
theorem C44_round_trip_partial (big big' : Bool) (junk junk' : Nat → UInt8) (m : Img) (conv : Option Img) (hm : Savable m) :
    ∃ ops, iSaveSgiInternal big junk false none m conv = .ok (some ops) ∧ (∀ op ∈ ops, Plain op) ∧
    ∃ m' l, iLoadSgiInternal big' junk' (open_ (output ops) (output ops).length) = .ok (true, some m', l) ∧ m'.Consistent ∧
      m'.width = m.width ∧ m'.height = m.height ∧ m'.depth = 1 ∧ m'.bpp = m.bpp ∧ m'.bpc = 1 ∧ m'.format = m.format ∧ m'.type = m.type ∧
      m'.origin = IL_ORIGIN_LOWER_LEFT ∧
      ∀ x y c, x < m.width → y < m.height → c < m.bpp →
        m'.px x y 0 c = m.px x (if m.origin = IL_ORIGIN_UPPER_LEFT then m.height - 1 - y else y) 0 c :=
  round_trip big big' junk junk' m m conv hm (by rw [hm.converts]; rfl)

/-- **C44 (partial).** Any other image (BGR, palette, wide) is converted first; what is loaded is the converted image `t`. -/
theorem C44_converted_partial (big big' : Bool) (junk junk' : Nat → UInt8) (m t : Img) (ht : Savable t) (ho : t.origin = m.origin)
    (hf : m.format ≠ IL_LUMINANCE ∧ m.format ≠ IL_RGB ∧ m.format ≠ IL_RGBA ∨ m.type > IL_UNSIGNED_SHORT) :
    ∃ ops, iSaveSgiInternal big junk false none m (some t) = .ok (some ops) ∧ (∀ op ∈ ops, Plain op) ∧
    ∃ m' l, iLoadSgiInternal big' junk' (open_ (output ops) (output ops).length) = .ok (true, some m', l) ∧ m'.Consistent ∧
      m'.width = t.width ∧ m'.height = t.height ∧ m'.depth = 1 ∧ m'.bpp = t.bpp ∧ m'.bpc = 1 ∧ m'.format = t.format ∧ m'.type = t.type ∧
      m'.origin = IL_ORIGIN_LOWER_LEFT ∧
      ∀ x y c, x < t.width → y < t.height → c < t.bpp →
        m'.px x y 0 c = t.px x (if t.origin = IL_ORIGIN_UPPER_LEFT then t.height - 1 - y else y) 0 c := by
  have := round_trip big big' junk junk' m t (some t) ht (by
    rw [show converts m = true from decide_eq_true hf]; rfl)
  rw [← ho] at this
  exact this

/-- An RGB image of 2x2 pixels, top row first. -/
def rgb22 : Img := ⟨2, 2, 1, 3, 1, 6, 12, 12, IL_RGB, IL_UNSIGNED_BYTE, IL_ORIGIN_UPPER_LEFT, [1, 2, 3, 4, 5, 6, 7, 8, 9, 10, 11, 12]⟩

example : Savable rgb22 := ⟨⟨rfl, rfl, rfl, rfl⟩, rfl, rfl, rfl, Or.inr (Or.inl ⟨rfl, rfl⟩), by decide, by decide, by decide, by decide, by decide⟩

/-- What the image is after saving and loading. -/
def again (m : Img) : C (Bool × Option Img) := do
  match ← iSaveSgiInternal false (fun _ => 0) false none m none with
  | none => pure (false, none)
  | some ops => do
    let (ok, m', _) ← iLoadSgiInternal false (fun _ => 0) (open_ (output ops) (output ops).length)
    pure (ok, m')

set_option maxRecDepth 20000 in
/-- **C44 (violated).** An image of signed bytes is saved with a header that is one byte too short, and cannot be loaded again. -/
theorem C44_violated_signed : again ⟨1, 1, 1, 1, 1, 1, 1, 1, IL_LUMINANCE, IL_BYTE, IL_ORIGIN_LOWER_LEFT, [7]⟩ = .ok (false, none) := by rfl

set_option maxRecDepth 20000 in
/-- **C44 (violated).** Of an image of two slices, the loaded image has the wrong components: 1, 4, 2 in place of 1, 2, 3. -/
theorem C44_violated_slices : (again ⟨1, 1, 2, 3, 1, 3, 3, 6, IL_RGB, IL_UNSIGNED_BYTE, IL_ORIGIN_LOWER_LEFT, [1, 2, 3, 4, 5, 6]⟩).map
    (fun r => (r.1, r.2.map (·.data))) = .ok (true, some [1, 4, 2]) := by rfl

/-- **C44 (violated).** Saving an image whose width is a multiple of 65536 succeeds; the bytes are refused by the loader. -/
theorem C44_violated_wide (big big' : Bool) (junk junk' : Nat → UInt8) (m : Img) (hc : m.Consistent) (ht : m.type = IL_UNSIGNED_BYTE)
    (hf : m.format = IL_RGB) (hb : m.bpp = 3) (hb' : m.bpc = 1) (hd : m.depth = 1) (hw : m.width % 65536 = 0) (hfit : m.width * m.height * 3 + 513 < 4294967296) :
    ∃ ops, iSaveSgiInternal big junk false none m none = .ok (some ops) ∧
      ∃ l, iLoadSgiInternal big' junk' (open_ (output ops) (output ops).length) = .ok (false, none, l) := by
  have hsz : m.size = m.width * m.height * m.bpp := by rw [hc.2.2.1, hd, hb']; grind
  obtain ⟨hops, eh, eb⟩ := header_bytes big false m ht
  obtain ⟨d, ed, ld, _⟩ := bottomUp_spec junk hc hd hb' (by rw [hsz, hb]; omega) m.origin
  have epl := planeBytes_spec (data := d) (n := m.width * m.height) (k := m.bpp) (by rw [ld, hsz])
  have hcv : converts m = false := by unfold converts; rw [hf, ht]; rfl
  refine ⟨hops ++ (planes d (m.width * m.height) m.bpp).map .putc, ?_, ?_⟩
  · unfold iSaveSgiInternal
    rw [hcv]
    simp only [Bool.false_and, Bool.false_eq_true, if_false]
    rw [eh, bind_ok, ed, bind_ok, hsz, epl, bind_ok]
    rfl
  · generalize hf : output (hops ++ (planes d (m.width * m.height) m.bpp).map .putc) = file
    have hfile : file = hops.flatMap WOp.bytes ++ ((planes d (m.width * m.height) m.bpp).map WOp.putc).flatMap WOp.bytes := by
      rw [← hf]
      unfold output
      rw [List.flatMap_append]
    have hlen : file.length = 512 + m.width * m.height * 3 := by
      have : ∀ bs : List UInt8, ((bs.map WOp.putc).flatMap WOp.bytes).length = bs.length := by
        intro bs
        induction bs with
        | nil => rfl
        | cons b bs ih => rw [List.map_cons, List.flatMap_cons, List.length_append, ih, List.length_cons, Nat.add_comm]; rfl
      rw [hfile, List.length_append, this, planes_length, hb, eb, Nat.mul_comm 3]
      simp only [List.length_append, List.length_reverse, leBytes_length, List.length_cons, List.length_replicate]
    have a0 := at_open (data := file) (by omega) (by omega)
    have a0' := a0
    rw [hfile] at a0'
    rw [← hfile] at a0'
    obtain ⟨dim, _, e1, _⟩ := saved_head (big' := big') (junk := junk') (l := open_ file file.length)
      (rest := ((planes d (m.width * m.height) m.bpp).map WOp.putc).flatMap WOp.bytes) ht eh (by rw [← hfile]; exact a0)
    refine ⟨adv (open_ file file.length) 512, ?_⟩
    unfold iLoadSgiInternal
    rw [e1, bind_ok]
    have hchk : iCheckSgi ⟨474, if false = true then 1 else 0, 1, dim, m.width % 65536, m.height % 65536, m.bpp % 65536, 0⟩ = false := by
      unfold iCheckSgi
      rw [hw, if_neg (by simp), if_neg (by simp)]
      simp only []
      split
      · rfl
      · simp
    simp only []
    rw [hchk]
    rfl

example : (65536 : Nat) % 65536 = 0 ∧ 65536 * 1 * 3 + 513 < 4294967296 := by decide

/-- **C44 (violated).** After the library has tested whether the file `a.sgi` is an SGI file, saving reads behind the end of that name. -/
theorem C44_violated_name (big : Bool) (junk : Nat → UInt8) :
    iSaveSgiInternal big junk false (some [97, 46, 115, 103, 105, 0]) rgb22 none = .error .oobRead := by
  unfold iSaveSgiInternal
  rfl

/-- **C44 (violated).** After it has tested a file whose name has 81 characters, saving writes more than four thousand million bytes. -/
theorem C44_violated_long_name (big : Bool) (junk : Nat → UInt8) :
    ∃ ops, iSaveSgiInternal big junk false (some (List.replicate 81 97 ++ [0])) rgb22 none = .ok (some ops) ∧ 4294967295 ≤ (output ops).length := by
  have hn : nameOps (some (List.replicate 81 97 ++ [0])) = .ok (.write (List.replicate 81 97 ++ [0]) 1 81 :: List.replicate 4294967295 (.putc 0)) := rfl
  have hz : ∀ n, ((List.replicate n (WOp.putc 0)).flatMap WOp.bytes).length = n := fun n => by
    induction n with
    | zero => rfl
    | succ n ih => rw [List.replicate_succ, List.flatMap_cons, List.length_append, ih, Nat.add_comm]; rfl
  generalize hk : List.replicate 4294967295 (WOp.putc 0) = tail at hn
  have hl : (tail.flatMap WOp.bytes).length = 4294967295 := by rw [← hk]; exact hz _
  have hcv : converts rgb22 = false := by decide
  obtain ⟨d, ed, ld, _⟩ := bottomUp_spec junk (q := rgb22) ⟨rfl, rfl, rfl, rfl⟩ rfl rfl (by decide) rgb22.origin
  have epl := planeBytes_spec (data := d) (n := 4) (k := 3) ld
  refine ⟨?_, ?_, ?_⟩
  rotate_left
  · unfold iSaveSgiInternal header
    rw [hcv]
    simp only [Bool.false_and, Bool.false_eq_true, if_false]
    rw [hn]
    simp only [bind_ok, pure_eq_ok]
    rw [ed]
    simp only [bind_ok]
    rw [show rgb22.bpp = 3 from rfl, show rgb22.size = 4 * 3 from rfl, epl]
    rfl
  · unfold output
    simp only [List.flatMap_append, List.length_append, List.flatMap_cons, hl]
    omega

end DevIL.Sgi
